"""Differential TEST (not proof) of save and load in Verif/Model/Save.lean against io.TextIOWrapper. Nothing of /repo is run."""
import io, random, shutil, subprocess
random.seed(13)
def sh(s): return ",".join(str(ord(c)) for c in s)
def one(s, newline):
    raw = io.BytesIO()
    f = io.TextIOWrapper(raw, encoding="utf-8", newline=newline)
    try: f.write(s); f.flush()
    except UnicodeEncodeError: return "E"
    b = raw.getvalue()
    return ",".join(map(str, b)) + ">" + sh(io.TextIOWrapper(io.BytesIO(b), encoding="utf-8").read())
alph = ["A", "\n", "\r", "\x7f", "\x80", "߿", "ࠀ", "퟿", "\ud800", "\udfff", "", "￿", "\U00010000", "\U0010ffff", "€"]
S = [""] + alph
for _ in range(6000):
    a = random.sample(alph, 5) if random.random() < 0.4 else [c for c in alph if not 0xd800 <= ord(c) <= 0xdfff]
    S.append("".join(random.choice(a) for _ in range(random.randint(0, 9))))
shutil.copy("/verif/tools/difftest/save_driver.txt", "/tmp/save_driver.lean")
p = subprocess.run(["lake", "env", "lean", "--run", "/tmp/save_driver.lean"], cwd="/verif/lean", capture_output=True, text=True,
                   input="\n".join(sh(s) or "-" for s in S) + "\n")
print(p.stderr[:500])
out, bad = p.stdout.split("\n"), 0
for s, o in zip(S, out):
    r = one(s, "\n") + "|" + one(s, "\r\n")
    if r != o:
        bad += 1
        if bad < 5: print(ascii(s), r, o)
print(len(S), "cases,", bad, "differences", sum("E" in o for o in out), "errors")
