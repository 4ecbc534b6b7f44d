#!/usr/bin/env python3
"""Generates lean/Verif/Data/Dicts*.lean from /repo/internal/data: the dictionary of every locale (its own data, before
`merge`), with the name of the variable of its parent.  Patterns, abbreviations and known words are left out."""
import glob,os
from gen_langs import *
allv=[]
for f in sorted(glob.glob(D+'*.go')):
    b=os.path.basename(f)
    if b[0]=='0': continue
    for var,par,d in read(b): allv.append((var,par,d,b))
# in the order of the files; parents come first
seen=set()
for var,par,d,b in allv:
    assert par is None or par in seen,(var,par)
    seen.add(var)
N=8
tot=sum(len(d['trans'])+len(d['rel'])+1 for _,_,d,_ in allv)
parts=[[] for _ in range(N)];acc=0
for v in allv:
    parts[min(N-1,acc*N//tot)].append(v); acc+=len(v[2]['trans'])+len(v[2]['rel'])+1
def row(var,par,d,b):
    f=['name := '+L(d['name'])]
    if d['spacing']: f.append('noWordSpacing := true')
    if d['group']: f.append('splitterGroup := %d'%d['group'])
    if d['trans']: f.append('translations := [%s]'%', '.join('(%s, [%s])'%(L(k),', '.join(L(x) for x in v)) for k,v in d['trans']))
    if d['rel']: f.append('relativeType := [%s]'%', '.join('(%s, %s)'%(L(k),L(v)) for k,v in d['rel']))
    return f
for i,p in enumerate(parts,1):
    o=['import Verif.Model.Pattern\n/-! GENERATED by tools/gen_dicts.py from /repo/internal/data; do not edit. -/\nset_option autoImplicit false\nset_option maxRecDepth 100000\nnamespace Verif.Data\nopen Verif.Model\n']
    names=[]
    for var,par,d,b in p:
        o.append('/-- internal/data/%s: `%s_Locale`, dictionary. -/\ndef %sDict : LangData where\n  '%(b,var,var)+'\n  '.join(row(var,par,d,b))+'\n')
        names.append((var,par))
    o.append('end Verif.Data\n')
    open('/verif/lean/Verif/Data/Dicts%d.lean'%i,'w').write('\n'.join(o))
o=[''.join('import Verif.Data.Dicts%d\n'%i for i in range(1,N+1))+'/-! GENERATED by tools/gen_dicts.py from /repo/internal/data; do not edit. -/\nset_option autoImplicit false\nset_option maxRecDepth 100000\nnamespace Verif.Data\nopen Verif.Model\n']
o.append('/-- All locales: own data and parent, in the order of their initialisation. -/\ndef allDicts : List (LangData × Option LangData) :=\n  ['+',\n   '.join('(%sDict, %s)'%(v,'some %sDict'%p if p else 'none') for v,p,_,_ in allv)+']\n')
o.append('end Verif.Data\n')
open('/verif/lean/Verif/Data/Dicts.lean','w').write('\n'.join(o))
print(len(allv))
par={v:p for v,p,_,_ in allv}
print('grandparents',[v for v in par if par[v] and par[par[v]]])
