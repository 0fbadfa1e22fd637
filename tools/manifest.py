#!/usr/bin/env python3
"""Regenerate MANIFEST.json: collect the theorems named Cnn_* from lean/Verif/Props and combine them
with the status and note recorded in tools/status.json."""
import json, re, glob, os
root = os.path.dirname(os.path.dirname(os.path.abspath(__file__)))
thms = {}
for f in sorted(glob.glob(root + '/lean/Verif/Props/*.lean')):
    src = open(f).read()
    ns = 'Aitisa'
    for m in re.finditer(r'^theorem (C\d\d)(\w*)', src, re.M):
        thms.setdefault(m.group(1), []).append(ns + '.' + m.group(1) + m.group(2))
status = json.load(open(root + '/tools/status.json'))
claims = []
for k in sorted(status):
    s, note = status[k]
    extra = [('Aitisa.' + t) for t in re.findall(r'\[\[(\w+)\]\]', note)]
    note = re.sub(r'\[\[(\w+)\]\]', r'\1', note)
    claims.append({"property": k, "status": s, "theorems": list(dict.fromkeys(thms.get(k, []) + extra)), "note": note})
missing = sorted(set(thms) - set(status))
assert not missing, missing
json.dump({"claims": claims}, open(root + '/MANIFEST.json', 'w'), indent=1, ensure_ascii=False)
print(len(claims), 'claims', sum(len(c['theorems']) for c in claims), 'theorems')
for c in claims:
    if not c['theorems']: print('no theorem for', c['property'])
