#!/usr/bin/env python3
"""Generates lean/Verif/Data/Timezones.lean from /repo/internal/timezone/timezones.go."""
import re
src=open('/repo/internal/timezone/timezones.go').read()
src=re.sub(r'^\s*//.*$','',src,flags=re.M)
blocks=re.findall(r'Timezones: map\[string\]int\{(.*?)\}',src,re.S)
assert len(blocks)==2
def ch(c): return "'%s'"%c if ord(c)<128 else "'\\u%04x'"%ord(c)
out=['/-! GENERATED by tools/gen_timezones.py from /repo/internal/timezone/timezones.go; do not edit. -/',
'set_option autoImplicit false','namespace Verif.Data','']
for b,n,d in ((blocks[0],'utcZones','first entry of `timezoneInfoList` (timezones.go:18-81): `Timezones`'),(blocks[1],'namedZones','second entry of `timezoneInfoList` (timezones.go:82-480): `Timezones`')):
    es=re.findall(r'`([^`]+)`:\s*(-?\d+)',b)
    assert len(es)==len(set(x for x,_ in es))
    out.append('/-- %s. -/'%d)
    out.append('def %s : List (List Char × Int) :='%n)
    out.append('  ['+',\n   '.join('([%s], %s)'%(', '.join(ch(c) for c in k),v) for k,v in es)+']')
    out.append('')
    print(n,len(es))
out.append('end Verif.Data')
open('/verif/lean/Verif/Data/Timezones.lean','w').write('\n'.join(out)+'\n')
