#!/usr/bin/env python3
"""Regenerates MANIFEST.json: collects theorems named Cnn_* (with their namespace) from lean/Verif/Props,
status and notes from tools/manifest_data.py."""
import re, json, glob, os, sys
here = os.path.dirname(os.path.abspath(__file__))
sys.path.insert(0, here)
from manifest_data import DATA
thms = {}
for f in sorted(glob.glob(os.path.join(here, '../lean/Verif/Props/*.lean'))):
    ns = []
    for line in open(f):
        m = re.match(r'namespace (\S+)', line)
        if m: ns.append(m.group(1)); continue
        m = re.match(r'end (\S+)', line)
        if m and ns and ns[-1] == m.group(1): ns.pop(); continue
        m = re.match(r'(?:omit .* in )?theorem ((C\d+)_\S+)', line)
        if m: thms.setdefault(m.group(2), []).append('.'.join(ns + [m.group(1)]))
claims = []
for p in sorted(set(DATA) | set(thms)):
    if p not in DATA: print('no data for', p); continue
    st, note = DATA[p]
    claims.append({"property": p, "status": st, "theorems": thms.get(p, []), "note": note})
open(os.path.join(here, '../MANIFEST.json'), 'w').write(
    '{"claims": [\n ' + ',\n '.join(json.dumps(c, ensure_ascii=False) for c in claims) + '\n]}\n')
print(len(claims), 'claims', sum(len(c['theorems']) for c in claims), 'theorems')
