#!/usr/bin/env python3
"""Generates lean/Verif/Data/Charsets.lean from /repo/internal/data: `Charset` of every locale of its own (before `merge`)."""
import glob,os,re
from gen_langs import D,L
rows=[]
for f in sorted(glob.glob(D+'*.go')):
    b=os.path.basename(f)
    if b[0]=='0': continue
    t=open(f).read()
    for m in re.finditer(r'\t(\w+)_Locale = merge\((nil|&(\w+)_Locale), LocaleData\{\n(.*?)\n\t\}\)',t,re.S):
        body=m.group(4)
        n=re.search(r'^\t\tName:\s*"([^"]*)"',body,re.M).group(1)
        c=re.search(r'^\t\tCharset:\s*\[\]rune\(`([^`]*)`\)',body,re.M)
        if m.group(2)=='nil':
            assert c or 'Charset' not in body,n
            rows.append((n,c.group(1) if c else ''))
o='''/-! GENERATED by tools/gen_charsets.py from /repo/internal/data; do not edit. -/
set_option autoImplicit false
set_option maxRecDepth 100000
namespace Verif.Data

/-- internal/data/*.go: `Charset` of every locale without a parent. -/
def charsets : List (List Char × List Char) :=
  ['''
o+=',\n   '.join('(%s, %s)'%(L(n),L(c)) for n,c in rows)+']\n\nend Verif.Data\n'
open('/verif/lean/Verif/Data/Charsets.lean','w').write(o)
print(len(rows),[n for n,c in rows if not c][:20])
