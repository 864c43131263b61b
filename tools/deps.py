#!/usr/bin/env python3
"""Writes /tmp/mut/deps.txt: for each property theorem, the theorems of this project its proof depends on.
Reads /tmp/mut/edges.txt, which `lake env lean ../tools/deps.lean.txt` in lean/ writes."""
import re
kind, uses = {}, {}
for l in open('/tmp/mut/edges.txt'):
    h, us = l.rstrip('\n').split(':', 1) if ': ' in l else (l.rstrip('\n').rstrip(':'), '')
    k, n = h.split(' ', 1)
    kind[n], uses[n] = k, us.split()
with open('/tmp/mut/deps.txt', 'w') as f:
    for n in sorted(uses):
        last = n.split('.')[-1]
        if kind[n] == 'T' and re.match(r'C\d+_', last) and '._' not in n:
            seen, todo = set(), [n]
            while todo:
                x = todo.pop()
                if x not in seen:
                    seen.add(x)
                    todo += uses.get(x, [])
            f.write(last + ': ' + ' '.join(sorted(x for x in seen if kind.get(x) == 'T')) + '\n')
