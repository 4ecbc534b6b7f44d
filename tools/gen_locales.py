#!/usr/bin/env python3
"""Generates lean/Verif/Data/Locales.lean from /repo/internal/data (tables of languages and locales)."""
import re,glob,os
D='/repo/internal/data/'
rd=lambda f:open(D+f).read()
LO=[(a,int(b)) for a,b in re.findall(r'"([^"]+)":\s*(\d+)',rd('01-language-order.go'))]
LC=[(a,int(b)) for a,b in re.findall(r'"([^"]+)":\s*(\d+)',rd('04-locale-order.go'))]
sw=re.findall(r'case "([^"]+)":\s*\n\s*return &(\w+)_Locale, true',rd('00-locale-data.go'))
v={}
for f in sorted(glob.glob(D+'*.go')):
    if os.path.basename(f)[0]=='0': continue
    t=open(f).read()
    for m in re.finditer(r'\t(\w+)_Locale = merge\((nil|&(\w+)_Locale), LocaleData\{\n(.*?)\n\t\}\)',t,re.S):
        b=m.group(4)
        def g(k,d):
            x=re.search(r'^\t\t'+k+r':\s*(.*?),?$',b,re.M)
            return x.group(1) if x else d
        v[m.group(1)]=(m.group(3),g('Name','""'),g('DateOrder','""'),g('NoWordSpacing','false'),int(g('SentenceSplitterGroup','0')))
def grp(x):
    p,_,_,_,s=v[x]
    return s if s or not p else grp(p)   # merge: 0 means take the parent's
out=['''/-! GENERATED by tools/gen_locales.py from /repo/internal/data; do not edit. -/
set_option autoImplicit false
namespace Verif.Data

/-- What the loader and the parser need of `data.LocaleData` (00-locale-data.go). -/
structure LocaleInfo where
  name : List Char
  dateOrder : List Char
  noWordSpacing : Bool
  splitterGroup : Nat
deriving DecidableEq
''']
def L(x): return '['+', '.join("'%s'"%(c if c!="'" else "\\'") for c in x)+']'
def Q(x): return L(x.strip('"'))
def tab(nm,doc,rows,ty):
    out.append(f'/-- {doc} -/\ndef {nm} : List ({ty}) :=\n  ['+',\n   '.join(rows)+']\n')
tab('languageOrder','internal/data/01-language-order.go `LanguageOrder`.',[f'({L(a)}, {b})' for a,b in LO],'List Char × Nat')
tab('localeOrder','internal/data/04-locale-order.go `LocaleOrder`.',[f'({L(a)}, {b})' for a,b in LC],'List Char × Nat')
tab('localeData','internal/data/00-locale-data.go `GetLocaleData`: case label and the fields of the locale it returns (after `merge` with the parent locale).',
 [f'({L(k)}, ⟨{Q(v[x][1])}, {Q(v[x][2])}, {v[x][3]}, {grp(x)}⟩)' for k,x in sw],'List Char × LocaleInfo')
out.append('end Verif.Data\n')
open('/verif/lean/Verif/Data/Locales.lean','w').write('\n'.join(out))
print(len(LO),len(LC),len(sw))
