"""Differential TEST (not proof) of Verif/Py/Stream.lean against io.TextIOWrapper on a raw stream that delivers given
pieces. Nothing of /repo is run."""
import io, random, shutil, subprocess
random.seed(7)
class Raw(io.RawIOBase):
    def __init__(self, cs, broken): self.cs, self.broken = list(cs), broken
    def readable(self): return True
    def readinto(self, b):
        if not self.cs:
            if self.broken: raise OSError('broken')
            return 0
        c = self.cs.pop(0)
        b[:len(c)] = c
        return len(c)
def ref(cs, broken):
    f = io.TextIOWrapper(io.BufferedReader(Raw(cs, broken)), encoding='utf-8')
    try: return "/".join(",".join(str(ord(c)) for c in l) for l in f.readlines())
    except UnicodeDecodeError: return "V"
    except OSError: return "O"
texts = ["", "A\r\nB", "é\r\r\n€\n", "\U0001F600\rA\n\n", "ࠀ�\x85 \r"]
S = [[]]
for _ in range(6000):
    b = bytearray("".join(random.choice(texts) for _ in range(random.randint(1, 3))).encode())
    if random.random() < 0.4 and b: b[random.randrange(len(b))] = random.choice([0x80, 0xBF, 0xC0, 0xC1, 0xC2, 0xE0, 0xED, 0xA0, 0x9F, 0xF0, 0x8F, 0x90, 0xF4, 0xF5, 0xFF, 13, 10])
    if random.random() < 0.3 and b: del b[-1]
    cs = []
    while b:
        n = random.randint(1, 4); cs.append(bytes(b[:n])); del b[:n]
    S.append(cs)
shutil.copy("/verif/tools/difftest/stream_driver.txt", "/tmp/stream_driver.lean")
p = subprocess.run(["lake", "env", "lean", "--run", "/tmp/stream_driver.lean"], cwd="/verif/lean", capture_output=True, text=True,
                   input="\n".join(";".join(",".join(map(str, c)) for c in cs) or "-" for cs in S) + "\n")
print(p.stderr[:500])
out, bad = p.stdout.split("\n"), 0
for cs, o in zip(S, out):
    r = ref(cs, False) + "|" + ref(cs, True)
    if r != o:
        bad += 1
        if bad < 5: print(cs, r, o)
print(len(S), "cases,", bad, "differences")
