"""Write lean/Verif/Py/Printable.lean from the running CPython."""
import sys, unicodedata
rs=[];s=None
for c in range(128,0x110001):
    p = c<0x110000 and chr(c).isprintable()
    if p and s is None: s=c
    if not p and s is not None: rs.append((s,c-1)); s=None
lines=[];cur=""
for i,r in enumerate(rs):
    t="(%d, %d)"%r+(", " if i<len(rs)-1 else "]")
    if len(cur)+len(t)>108: lines.append(cur.rstrip()); cur=""
    cur+=t
lines.append(cur)
print(len(rs))
open("/verif/lean/Verif/Py/Printable.lean","w").write("""import Verif.Py.Cpython311
/-!
# Printable characters of CPython 3.11, Unicode %s (GENERATED by tools/printable.py)

Used for concrete examples only: the theorems about `repr` hold for any table.
-/
namespace Py.Tables

/-- ranges of `str.isprintable` from 128 on -/
def printableRanges : List (Nat × Nat) :=
  [%s

/-- `chr(c).isprintable()` for `c` from 128 on -/
def printable311 (c : Nat) : Bool := inRanges printableRanges c

end Py.Tables
""" % (unicodedata.unidata_version, "\n   ".join(lines)))
