#!/usr/bin/env python3
"""Generates lean/Verif/Data/Pats*.lean from /repo/internal/data: for every locale its own data (before `merge`): the dictionary
of gen_dicts.py with patterns, abbreviations and known words."""
import glob,os
from gen_langs import *
allv=[]
for f in sorted(glob.glob(D+'*.go')):
    b=os.path.basename(f)
    if b[0]=='0': continue
    for var,par,d in read(b): allv.append((var,par,d,b))
N=12
def size(d): return sum(len(p[0]) for p,_ in d['simp']+d['relrx'])+(len(d['comb'][0]) if d['comb'] else 0)+(len(d['exact'][0]) if d['exact'] else 0)+sum(6*len(x) for x in d['known'])+50
tot=sum(size(d) for _,_,d,_ in allv)
parts=[[] for _ in range(N)];acc=0
for v in allv:
    parts[min(N-1,acc*N//tot)].append(v); acc+=size(v[2])
def rows(d):
    o=[]
    def lst(n,rows,sep=',\n    '):
        if rows: o.append('%s :=\n   [%s]'%(n,sep.join(rows)))
    lst('abbreviations',[L(x) for x in d['abbr']],', ')
    lst('simplifications',['(%s, %s)'%(p[0],t) for p,t in d['simp']])
    lst('relativeRegexes',['(%s, %s)'%(p[0],t) for p,t in d['relrx']])
    if d['comb']: o.append('rxCombined := some (%s, %d)'%d['comb'])
    if d['exact']: o.append('rxExact := some (%s)'%d['exact'][0])
    lst('knownWords',[L(x) for x in d['known']],', ')
    return o
for i,p in enumerate(parts,1):
    o=['import Verif.Data.Dicts\n/-! GENERATED by tools/gen_pats.py from /repo/internal/data; do not edit. -/\nset_option autoImplicit false\nset_option maxRecDepth 100000\nnamespace Verif.Data\nopen Verif.Model\n']
    for var,par,d,b in p:
        r=rows(d)
        o.append('/-- internal/data/%s: `%s_Locale`. -/\ndef %sLang : LangData :='%(b,var,var)+(' { %sDict with\n  '%var+',\n  '.join(r)+' }' if r else ' %sDict'%var)+'\n')
    o.append('end Verif.Data\n')
    open('/verif/lean/Verif/Data/Pats%d.lean'%i,'w').write('\n'.join(o))
o=[''.join('import Verif.Data.Pats%d\n'%i for i in range(1,N+1))+'/-! GENERATED by tools/gen_pats.py from /repo/internal/data; do not edit. -/\nset_option autoImplicit false\nset_option maxRecDepth 100000\nnamespace Verif.Data\nopen Verif.Model\n']
o.append('/-- All locales: own data and parent. -/\ndef allLangs : List (LangData × Option LangData) :=\n  ['+',\n   '.join('(%sLang, %s)'%(v,'some %sLang'%p if p else 'none') for v,p,_,_ in sorted(allv,key=lambda x:x[2]['name']))+']\n')
o.append('end Verif.Data\n')
open('/verif/lean/Verif/Data/Pats.lean','w').write('\n'.join(o))
print(len(allv),tot)
