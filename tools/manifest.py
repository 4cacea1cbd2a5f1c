#!/usr/bin/env python3
"""Generate MANIFEST.json: collects `theorem Cnn_...` from lean/Verif/Props with their namespaces."""
import re, glob, json, os
root = os.path.dirname(os.path.dirname(os.path.abspath(__file__)))
thms = {}
for f in sorted(glob.glob(root + '/lean/Verif/Props/*.lean')):
    ns = []
    for line in open(f):
        m = re.match(r'namespace (\S+)', line)
        if m: ns.append(m.group(1))
        m = re.match(r'end (\S+)', line)
        if m and ns and ns[-1] == m.group(1): ns.pop()
        m = re.match(r'theorem (C(\d\d)_\S+)', line)
        if m:
            name = m.group(1).rstrip(':')
            thms.setdefault('C' + m.group(2), []).append('.'.join(ns + [name]))
notes = json.load(open(root + '/tools/notes.json'))
claims = []
for l in open(root + '/properties.jsonl'):
    i = json.loads(l)['id']
    n = notes.get(i, {})
    t = thms.get(i, [])
    if not t: continue
    claims.append({"property": i, "status": n.get('status', 'proved'), "theorems": t, "note": n.get('note', '')})
json.dump({"claims": claims}, open(root + '/MANIFEST.json', 'w'), indent=1, ensure_ascii=False)
print(len(claims), sum(len(c['theorems']) for c in claims))
