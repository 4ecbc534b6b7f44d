import json,re,glob
V='/verif/'
props=[json.loads(l) for l in open(V+'properties.jsonl')]
man={c['property']:c for c in json.load(open(V+'MANIFEST.json'))['claims']}
plan=json.load(open(V+'tools/plan.json'))
out=open(V+'tools/design_head.md').read()
where={}
for f in sorted(glob.glob(V+'lean/Verif/Props/*.lean')):
    for m in re.finditer(r'^theorem (C\d\d)_',open(f).read(),re.M):
        where.setdefault(m.group(1),[])
        b=f.split('/')[-1][:-5]
        if b not in where[m.group(1)]: where[m.group(1)].append(b)
for p in props:
    i=p['id']; m=man.get(i,{'status':'?','theorems':[],'note':''})
    out+=f"**{i} {p['title']}** – {m['status']}, {len(m['theorems'])} theorems in Props/{{{', '.join(where.get(i,[]))}}}.  \n"
    out+=f"Model and proof: {plan.get(i,'see the files named')}.  \n"
    out+=f"{m['note']}\n\n"
out+=open(V+'tools/design_tail.md').read().lstrip('\n')
open(V+'DESIGN.md','w').write(out)
