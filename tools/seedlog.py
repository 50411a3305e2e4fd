# usage: seedlog.py DEPS OUT... -> JSON lines for seeded/LOG.jsonl
import json,sys,re
deps={}
for l in open(sys.argv[1]):
    t,_,c=l.rstrip('\n').partition('|')
    deps[t.replace('SegTree.','')]=set(x.replace('SegTree.','') for x in c.split(','))
fz={}
for l in open('/tmp/mut/m1.fz'):
    d=json.loads(l); fz[d['n']]=d['fuzz']
for k,f in enumerate(sys.argv[2:]):
    for l in open(f):
        d=json.loads(l)
        fails=sorted({t for v in d['failed'].values() for t in v})
        claims=re.findall(r'C\d\d',d['claim'])
        down=sorted(t for t,cs in deps.items() if any(x in cs or x==t for x in fails))
        named=[t for t in down if any(t.startswith(c+'_') for c in claims)]
        if not named: named=down[:6]
        fuzz=d.get('fuzz') or (fz.get(d['n'],'') if 'm1' in f else '')
        print(json.dumps({"batch":k+1,"definition":d['definition'],"edit":d['edit'],"claim_broken":d['claim'],
          "killed":d['rc']!=0,"theorems_failed":fails,"property_theorems_lost":named,"property_theorems_lost_total":len(down),
          "falsifier":fuzz[:200],"theorems_tightened":d.get('tightened',[]),**({"note":d['note']} if 'note' in d else {})}))
