import re,unicodedata
src=open('/repo/internal/digit/digit.go',encoding='utf8').read()
rs=re.findall(r"\{'\\U([0-9A-F]{8})', '\\U([0-9A-F]{8})'\}",src)
rs=[(int(a,16),int(b,16)) for a,b in rs]
zeros=[c for c in range(0x110000) if unicodedata.category(chr(c))=='Nd' and unicodedata.decimal(chr(c))==0]
# Unicode 15: Kawi, Nag Mundari; Unicode 16: the rest
new15=[0x11F50,0x1E4F0]
new16=[0x10D40,0x116D0,0x116DA,0x11BF0,0x16130,0x16D70,0x1CCF0,0x1E5F1]
for z in zeros:
    for k in range(10): assert unicodedata.category(chr(z+k))=='Nd' and unicodedata.decimal(chr(z+k))==k
nd=[c for c in range(0x110000) if unicodedata.category(chr(c))=='Nd']
assert len(nd)==10*len(zeros)
def wrap(l):
    out='';line='  ['
    for i,x in enumerate(l):
        t=x+(', ' if i<len(l)-1 else ']')
        if len(line)+len(t)>115: out+=line.rstrip()+'\n'; line='   '
        line+=t
    return out+line
o="""/-! GENERATED by tools/gen_digit.py from /repo/internal/digit/digit.go (`digitRanges`) and Python's Unicode data
(`digitZeros`); do not edit. -/
set_option autoImplicit false
namespace Verif.Data

/-- digit.go:55-127 `allDigitRanges`. -/
def digitRanges : List (Nat × Nat) :=
"""+wrap(['(0x%X, 0x%X)'%r for r in rs])+"""

/-- The characters DIGIT ZERO of all scripts up to Unicode 15 (Go 1.24): the category Nd consists of these characters
and the nine after each. -/
def digitZeros15 : List Nat :=
"""+wrap(['0x%X'%z for z in sorted(zeros+new15)])+"""

/-- The ones added in Unicode 16. -/
def digitZeros16 : List Nat :=
"""+wrap(['0x%X'%z for z in new16])+"""

end Verif.Data
"""
open('/verif/lean/Verif/Data/Digits.lean','w').write(o)
print(len(rs),len(zeros))
