#!/bin/sh
# Print, for every theorem named in MANIFEST.json, the axioms it depends on; fail on any but the
# three standard ones. Run after `lake build` in lean/.
cd "$(dirname "$0")/../lean" || exit 1
f=$(mktemp --suffix=.lean)
python3 - > "$f" <<'P'
import json
names = sorted({t for c in json.load(open("../MANIFEST.json"))["claims"] for t in c["theorems"]})
print("import Verif")
for n in names:
    print("#print axioms", n)
P
lake env lean "$f" > "$f.out" 2>&1
rm -f "$f"
tr '\n' ' ' < "$f.out" | sed "s/'Arinc/\n'Arinc/g" | sort -t']' -k1 > "$f.all"
if sed 's/.*\[\(.*\)\].*/\1/' "$f.all" | tr ',' '\n' | sed 's/^ *//;s/ *$//' | grep -v "^propext$\|^Classical.choice$\|^Quot.sound$\|does not depend on any axioms\|^$"; then
  echo "unexpected axioms" >&2; exit 1
fi
echo "$(grep -c . "$f.all") theorems: propext, Classical.choice, Quot.sound at most"
