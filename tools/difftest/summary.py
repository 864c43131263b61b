"""Differential TEST (not proof) of summaryText in Verif/Model/Summary.lean against CPython's f-string of a list of
strings. Nothing of /repo is run."""
import random, shutil, subprocess
random.seed(12)
def char():
    r = random.random()
    if r < 0.3: return random.randrange(0, 128)
    if r < 0.5: return random.choice([39, 34, 92, 9, 10, 13, 32, 126, 127, 128, 160, 173, 255, 256, 0x2028, 0xD800, 0xFFFF, 0x10000, 0x10FFFF])
    if r < 0.7: return random.randrange(128, 0x3000)
    return random.randrange(0, 0x110000)
S = [[]]
for _ in range(8000):
    S.append(["".join(map(chr, (char() for _ in range(random.randint(0, 6))))) for _ in range(random.randint(1, 3))])
S = [x for x in S if x != [""]]
shutil.copy("/verif/tools/difftest/summary_driver.txt", "/tmp/summary_driver.lean")
p = subprocess.run(["lake", "env", "lean", "--run", "/tmp/summary_driver.lean"], cwd="/verif/lean", capture_output=True, text=True,
                   input="\n".join(";".join(",".join(str(ord(c)) for c in s) for s in ss) if ss else "-" for ss in S) + "\n")
print(p.stderr[:500])
out, bad = p.stdout.split("\n"), 0
for filters, o in zip(S, out):
    count = len(filters)
    r = ",".join(str(ord(c)) for c in f"Found {count} records that contain {filters}")
    if r != o:
        bad += 1
        if bad < 5: print(filters, r, o)
print(len(S), "cases,", bad, "differences")
