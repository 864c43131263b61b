"""Differential TEST (not proof) of the Verif/Py layer against CPython builtins: int, float,\nformat, strip, isalnum, readlines, json.dumps. Nothing of /repo is run."""
import random, subprocess, io, json
random.seed(5)
def sh(s): return ",".join(str(ord(c)) for c in s)
alph = ["0123456789","0123456789_+-. eEinfatyINF", "\x0b\x1c \t\n\r\x85 ٣४½²Ⅷ一Aaé\"\\\x7f\x08\x0c\U0001F600","0123456789e+-"]
def ref(s):
    try: i=str(int(s))
    except ValueError: i="E"
    try:
        x=float(s); fl=";".join([sh("{:.1f}".format(x/10)), sh("{:.2f}".format(x/100)), sh("{:.20f}".format(x)), sh(str(x)), sh(str(x/10))])
    except ValueError: fl="E"
    b=lambda x:"true" if x else "false"
    st=io.StringIO(s,newline=None)
    st=io.TextIOWrapper(io.BytesIO(s.encode('utf-8')),encoding='utf-8')
    d={}
    for k in (s,s[::-1],s[1:]): d.update({k:s})
    return "|".join([i,fl,sh(s.strip()),b(s.isalnum()),b(s.isnumeric()),b(s.isalpha())," / ".join(map(sh,st.readlines())),sh(json.dumps(d)),sh(json.dumps(d,sort_keys=True,indent=4,separators=(',',': '))), b(s[1:] in s)])
S=[""]
for _ in range(6000):
    a=random.choice(alph)+random.choice(["",random.choice(alph)])
    S.append("".join(random.choice(a) for _ in range(random.randint(0,9))))
for m in range(300):
    S.append(str(random.randint(0,10**random.randint(1,25)))+random.choice(["","e-%d"%random.randint(0,330),"e%d"%random.randint(0,320)]))
S += ["4.9e-324","2.47e-324","2.4703282292062327e-324","2.4703282292062328e-324","1.7976931348623157e308","1.7976931348623159e308","9007199254740993","9007199254740992.5","infinity","-INF","nan"]
import struct
for _ in range(700):
    x=struct.unpack("<d",struct.pack("<Q",random.getrandbits(64)))[0]
    if x==x: S.append(repr(x))
for e in range(-1074,1024,3): S.append(repr(2.0**e))
for _ in range(300): S.append(repr(random.choice([1,2,5,9,99,123456])*10.0**random.randint(-30,30)))
import shutil; shutil.copy("/verif/tools/difftest/driver.txt","/tmp/difftest_driver.lean")
p=subprocess.run(["lake","env","lean","--run","/tmp/difftest_driver.lean"],cwd="/verif/lean",input="\n".join(sh(s) or "-" for s in S)+"\n",capture_output=True,text=True)
out=p.stdout.split("\n")
print(p.stderr[:500]); bad=0
for s,o in zip(S,out):
    if ref(s)!=o:
        bad+=1
        if bad<5: print(repr(s)); print(ref(s)); print(o)
print(len(S),len(out),bad)
