#!/usr/bin/env python3
"""Regenerates MANIFEST.json from the theorem names Cnn_* in lean/Verif/Props."""
import json, re, glob, os
root = os.path.dirname(os.path.dirname(os.path.abspath(__file__)))
thms = {}
for f in sorted(glob.glob(root + '/lean/Verif/Props/*.lean')):
    stack = []
    for m in re.finditer(r'^(theorem|namespace|end) ([\w.]+)', open(f).read(), re.M):
        if m.group(1) == 'namespace':
            stack.append(m.group(2))
        elif m.group(1) == 'end':
            if stack and stack[-1] == m.group(2):
                stack.pop()
        elif re.match(r'C\d\d_', m.group(2)):
            thms.setdefault(m.group(2)[:3], []).append('.'.join(stack + [m.group(2)]))
notes = json.load(open(root + '/tools/notes.json'))
claims = []
for l in open(root + '/properties.jsonl'):
    p = json.loads(l)['id']
    n = notes.get(p, {})
    ts = thms.get(p, []) + ['SegTree.' + x for x in n.get('also', [])]
    st = n.get('status') or ('proved' if ts else None)
    assert st, p
    claims.append({"property": p, "status": st, "theorems": ts, "note": n.get('note', '')})
json.dump({"claims": claims}, open(root + '/MANIFEST.json', 'w'), indent=1)
print({s: sum(c['status'] == s for c in claims) for s in ('proved', 'partial', 'not_applicable')})
missing = set(thms) - {c['property'] for c in claims}
assert not missing, missing
