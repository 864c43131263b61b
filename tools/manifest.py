#!/usr/bin/env python3
"""Writes /verif/MANIFEST.json from the table below, checking that every theorem named exists
and that every theorem whose name starts with Cnn_ is listed.  Run: python3 tools/manifest.py"""
import json, os, re
ROOT = os.path.dirname(os.path.dirname(os.path.abspath(__file__)))
exec(open(os.path.join(ROOT, 'tools', 'claims.py')).read())
names = {}
for d, _, fs in os.walk(os.path.join(ROOT, 'lean', 'Verif', 'Props')):
    for f in fs:
        ns = []
        for line in open(os.path.join(d, f)):
            m = re.match(r'namespace (\S+)', line)
            if m: ns.append(m.group(1))
            m = re.match(r'end (\S+)', line)
            if m and ns and ns[-1] == m.group(1): ns.pop()
            m = re.match(r'theorem (C\d\d+_\S+)', line)
            if m: names[m.group(1)] = '.'.join(ns + [m.group(1)])
used = set()
claims = []
for pid, status, note in CLAIMS:
    ths = [n for n in names if pid in re.match(r'((?:C\d\d+_)+)', n).group(1).split('_')]
    used.update(ths)
    if not ths and status != 'not_applicable':
        print('no theorem for', pid); continue
    claims.append({'property': pid, 'status': status, 'theorems': sorted(names[n] for n in ths), 'note': note})
for n in names:
    if n not in used: print('unclaimed theorem', n)
json.dump({'claims': claims}, open(os.path.join(ROOT, 'MANIFEST.json'), 'w'), indent=1)
print(len(claims), 'claims')
