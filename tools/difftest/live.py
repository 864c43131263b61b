"""Differential TEST (not proof) of liveLines in Verif/Model/Live.lean against io.TextIOWrapper on a raw stream that
comes to its end several times. Nothing of /repo is run."""
import io, random, shutil, subprocess
random.seed(11)
class More(Exception): pass
class Raw(io.RawIOBase):
    def __init__(self, cs): self.cs = list(cs)
    def readable(self): return True
    def readinto(self, b):
        if not self.cs: raise More()
        c = self.cs.pop(0)
        b[:len(c)] = c
        return len(c)
def ref(cs):
    f = io.TextIOWrapper(io.BufferedReader(Raw(cs)), encoding='utf-8')
    try: return "/".join(",".join(str(ord(c)) for c in l) for l in f.readlines())
    except UnicodeDecodeError: return "V"
    except More: return "N"
texts = ["A\r\nB", "é\r\r\n€\n", "\U0001F600\rA\n\n", "xy", "\n", "\r"]
S = []
for _ in range(8000):
    b = bytearray("".join(random.choice(texts) for _ in range(random.randint(1, 4))).encode())
    cs = []
    while b:
        if random.random() < 0.3: cs.append(b"")
        n = random.randint(1, 4); cs.append(bytes(b[:n])); del b[:n]
    S.append(cs + [b""] * random.randint(0, 2))
shutil.copy("/verif/tools/difftest/live_driver.txt", "/tmp/live_driver.lean")
p = subprocess.run(["lake", "env", "lean", "--run", "/tmp/live_driver.lean"], cwd="/verif/lean", capture_output=True, text=True,
                   input="\n".join(";".join(",".join(map(str, c)) for c in cs) for cs in S) + "\n")
print(p.stderr[:500])
out, bad, kinds = p.stdout.split("\n"), 0, {}
for cs, o in zip(S, out):
    r = ref(cs)
    kinds[r[:1] if r[:1] in "NV" else "lines"] = kinds.get(r[:1] if r[:1] in "NV" else "lines", 0) + 1
    # an error in the bytes is noticed in the piece where it is
    if r != o and not (r == "V" and o == "N"):
        bad += 1
        if bad < 5: print(cs, r, o)
print(len(S), "cases,", bad, "differences", kinds)
