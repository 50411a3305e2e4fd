#!/usr/bin/env python3
"""append a property: addprop.py < JSON with an extra key "design" (the row of DESIGN.md section 4) and "modules"."""
import json, sys, subprocess, re
d = json.load(sys.stdin)
row = d.pop('design'); mods = d.pop('modules', [])
open('properties.jsonl', 'a').write(json.dumps(d, ensure_ascii=False) + '\n')
s = open('DESIGN.md').read()
rows = [x for x in s.split('\n') if re.match(r'\| C\d\d+ ', x)]
s = s.replace(rows[-1], rows[-1] + '\n| %s | %s |' % (d['id'], row))
open('DESIGN.md', 'w').write(s)
v = open('lean/Verif.lean').read()
for m in mods:
    l = f'import Verif.{m}\n'
    if l not in v: v += l
open('lean/Verif.lean', 'w').write(v)
subprocess.run(['python3', 'tools/manifest.py'])
n = sum(len(c['theorems']) for c in json.load(open('MANIFEST.json'))['claims'])
s = open('DESIGN.md').read()
s = re.sub(r'of the \d+ theorems listed', f'of the {n} theorems listed', s)
open('DESIGN.md', 'w').write(s)
print(n)
