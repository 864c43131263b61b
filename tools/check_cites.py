#!/usr/bin/env python3
"""Check (or with --fix, correct) the decoder.py line citations of `field_NNN` in Decoder.lean."""
import ast, os, re, sys
here = os.path.dirname(os.path.dirname(os.path.abspath(__file__)))
p = here + "/lean/Verif/Model/Decoder.lean"
t = ast.parse(open("/repo/src/arinc424/decoder.py").read())
loc = {f.name: (f.lineno, f.end_lineno) for f in t.body if isinstance(f, ast.FunctionDef)}
s = open(p).read()
bad = 0
def fix(m):
    global bad
    a, b = loc[m.group(4)]
    if (int(m.group(1)), int(m.group(2))) != (a, b):
        bad += 1
        print(m.group(4), m.group(1), m.group(2), "->", a, b)
    return "/-- decoder.py:%d-%d%sdef %s " % (a, b, m.group(3), m.group(4))
n = re.sub(r"/-- decoder\.py:(\d+)-(\d+)((?:(?!-/).)*?-/\n)def (field_\d+) ", fix, s, flags=re.S)
print(len(re.findall(r"def field_\d+", s)), "functions,", bad, "wrong citations")
if "--fix" in sys.argv:
    open(p, "w").write(n)
