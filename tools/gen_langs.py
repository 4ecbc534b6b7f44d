#!/usr/bin/env python3
"""Generates lean/Verif/Data/Lang<xx>.lean from /repo/internal/data/<xx>.go: dictionary and patterns of one locale (its
own data, before `merge` with a parent)."""
import re,sys
D='/repo/internal/data/'
def ch(c):
    if c=="'": return "'\\''"
    if c=="\\": return "'\\\\'"
    if c in '\t\n\r' : return {'\t':"'\\t'",'\n':"'\\n'",'\r':"'\\r'"}[c]
    if not c.isprintable() or ord(c) in (0xad,) or 0x300<=ord(c)<0x370 or 0x200b<=ord(c)<=0x200f: return "'\\u{%04x}'"%ord(c) if False else "(Char.ofNat 0x%x)"%ord(c)
    return "'%s'"%c
def L(x): return '['+', '.join(ch(c) for c in x)+']'
def unq(s): # Go string literal body -> text
    out='';i=0
    while i<len(s):
        if s[i]=='\\':
            n=s[i+1]
            if n=='u': out+=chr(int(s[i+2:i+6],16)); i+=6; continue
            if n=='U': out+=chr(int(s[i+2:i+10],16)); i+=10; continue
            if n=='x': out+=chr(int(s[i+2:i+4],16)); i+=4; continue
            out+={'n':'\n','t':'\t','r':'\r','"':'"','\\':'\\'}[n]; i+=2; continue
        out+=s[i]; i+=1
    return out
STR=r'"((?:[^"\\]|\\.)*)"'
# ---- case folding (CaseFolding.txt, C and S)
FOLD={}
def fold(c):
    f=c.casefold()
    if len(f)!=1: f=c.lower()
    return f if len(f)==1 else c
for _i in range(0x110000):
    if 0xd800<=_i<0xe000: continue
    _c=chr(_i); _f=fold(_c)
    if _f!=_c: FOLD.setdefault(_f,{_f}).add(_c)
def orbit(c): return FOLD.get(fold(c),{c})|{c}
# ---- patterns
class P:
    def __init__(s,t):
        assert t.startswith('(?i)'); s.t=t; s.i=4; s.g=0
    def peek(s): return s.t[s.i] if s.i<len(s.t) else None
    def alt(s):
        xs=[s.seq()]
        while s.peek()=='|':
            s.i+=1; xs.append(s.seq())
        return xs[0] if len(xs)==1 else ('alts',xs)
    def seq(s):
        xs=[]
        while s.peek() not in (None,'|',')'):
            a=s.atom()
            while s.peek() in ('?','*','+','{'):
                c=s.t[s.i]
                if c=='{':
                    m=re.match(r'\{(\d+)(,?)(\d*)\}',s.t[s.i:])
                    s.i+=m.end(); lo=int(m[1]); hi=int(m[3]) if m[3] else (lo if not m[2] else None)
                    a=('rep',a,lo,hi) if hi is not None else ('seqs',[('rep',a,lo,lo),('star',a)])
                else:
                    s.i+=1
                    assert s.peek()!='?', s.t
                    a=({'?':'opt','*':'star','+':'plus'}[c],a)
            xs.append(a)
        # join literals
        out=[]
        for x in xs:
            if x[0]=='lit' and out and out[-1][0]=='lit': out[-1]=('lit',out[-1][1]+x[1])
            else: out.append(x)
        # recognise numbers
        o=[];i=0
        D_=('cls','false',['.digit']); N=[('plus',D_),('opt',('cls','false',[".rng '.' '.'",".rng ',' ','"])),('star',D_)]
        while i<len(out):
            if out[i:i+3]==N: o.append(('number',)); i+=3
            else: o.append(out[i]); i+=1
        if len(o)==0: return ('eps',)
        return o[0] if len(o)==1 else ('seqs',o)
    def lit(s,c):
        if ord(c)<128: return ('lit',c)
        orb=orbit(c)
        if len(orb)==1: return ('lit',c)
        return ('cls','false',['.rng %s %s'%(ch(x),ch(x)) for x in sorted(orb)])
    def esc(s):
        c=s.t[s.i+1]; s.i+=2
        if c=='p':
            k=s.t[s.i]; s.i+=1
            return {'L':'.letter','M':'.mark'}[k]
        return {'d':'.digit','s':'.space','A':'bos','z':'eos'}.get(c) or ('ch',c)
    def atom(s):
        c=s.t[s.i]
        if c=='(':
            if s.t.startswith('(?:',s.i):
                s.i+=3; a=s.alt(); assert s.t[s.i]==')'; s.i+=1; return a if a[0]!='lit' else ('seqs',[a])
            s.i+=1; s.g+=1; n=s.g; a=s.alt(); assert s.t[s.i]==')'; s.i+=1; return ('grp',n,a)
        if c=='[':
            s.i+=1; neg=False
            if s.peek()=='^': neg=True; s.i+=1
            it=[]
            while s.peek()!=']':
                if s.peek()=='\\':
                    e=s.esc(); it.append(e if isinstance(e,str) else '.rng %s %s'%(ch(e[1]),ch(e[1])))
                else:
                    a=s.t[s.i]; s.i+=1
                    if s.peek()=='-' and s.t[s.i+1]!=']':
                        b=s.t[s.i+1]; s.i+=2
                        assert a.isdigit() and b.isdigit()
                        it.append('.rng %s %s'%(ch(a),ch(b)))
                    else:
                        orb=orbit(a)
                        for x in sorted(orb): it.append('.rng %s %s'%(ch(x),ch(x)))
            s.i+=1
            return ('cls','true' if neg else 'false',it)
        if c=='^': s.i+=1; return ('bos',)
        if c=='$': s.i+=1; return ('eos',)
        if c=='\\':
            e=s.esc()
            if e in('bos','eos'): return (e,)
            if isinstance(e,str): return ('cls','false',[e])
            return s.lit(e[1])
        assert c not in '?*+{}', s.t
        if c=='.': s.i+=1; return ('cls','true',[".rng '\\n' '\\n'"])
        s.i+=1
        return s.lit(c)
NOWORD=('cls','true',['.letter','.mark','.digit',".rng '_' '_'"])
def lean(a):
    k=a[0]
    if a==NOWORD: return '.noWord'
    if k=='number': return '.number'
    if k in('eps','bos','eos'): return '.'+k
    if k=='lit': return '.lit '+L(a[1])
    if k=='cls': return '.cls %s [%s]'%(a[1],', '.join(a[2]))
    if k in('seqs','alts'): return '.%s [%s]'%(k,', '.join(lean(x) for x in a[1]))
    if k in('opt','star','plus'): return '.%s (%s)'%(k,lean(a[1]))
    if k=='rep': return '.rep (%s) %d %d'%(lean(a[1]),a[2],a[3])
    if k=='grp': return '.grp %d (%s)'%(a[1],lean(a[2]))
    raise Exception(k)
def pat(t):
    p=P(t); a=p.alt(); assert p.i==len(t),t
    return lean(a),p.g
def tmpl(t):
    out=[]
    for m in re.finditer(r'\$\{(\d+)\}|\$(\d+)|([^$]+)',t):
        if m[3] is not None: out.append('.lit '+L(m[3]))
        else: out.append('.ref %d'%int(m[1] or m[2]))
    return '['+', '.join(out)+']'
def read(f):
    """All locales of a file: (var, parent, fields)"""
    t=open(D+f).read(); res=[]
    for m in re.finditer(r'\t(\w+)_Locale = merge\((nil|&(\w+)_Locale), LocaleData\{\n(.*?)\n\t\}\)',t,re.S):
        b=m.group(4); d={}
        def one(k):
            x=re.search(r'^\t\t'+k+r':\s*(.*?),?$',b,re.M); return x.group(1) if x else None
        def block(k):
            x=re.search(r'^\t\t'+k+r':\s*[^\n]*\{\n(.*?)^\t\t\},?$',b,re.M|re.S); return x.group(1) if x else ''
        d['name']=unq(one('Name').strip('"')); d['spacing']=one('NoWordSpacing')=='true'; d['group']=int(one('SentenceSplitterGroup') or 0)
        a=one('Abbreviations'); d['abbr']=[unq(x) for x in re.findall(STR,a)] if a else []
        rx=r'regexp\.MustCompile\(`([^`]*)`\), '+STR
        d['simp']=[(pat(p),tmpl(unq(r))) for p,r in re.findall(rx,block('Simplifications'))]
        d['trans']=[(unq(k),[unq(x) for x in re.findall(STR,v)]) for k,v in re.findall(r'^\t+'+STR+r':\s+\{(.*)\},$',block('Translations'),re.M)]
        d['rel']=[(unq(k),unq(v)) for k,v in re.findall(r'^\t+'+STR+r':\s+'+STR+',$',block('RelativeType'),re.M)]
        d['relrx']=[(pat(p),tmpl(unq(r))) for p,r in re.findall(rx,block('RelativeTypeRegexes'))]
        for k,f_ in(('comb','RxCombined'),('exact','RxExactCombined')):
            x=one(f_); d[k]=pat(re.search('`([^`]*)`',x)[1]) if x else None
        kw=one('KnownWords'); d['known']=[unq(x) for x in re.findall(STR,kw[kw.index('{'):])] if kw else []
        # nothing missed
        for k,f_ in(('simp','Simplifications'),('relrx','RelativeTypeRegexes'),('trans','Translations'),('rel','RelativeType')):
            assert len(d[k])==len([l for l in block(f_).split('\n') if l.strip()]),(f,k)
        res.append((m.group(1),m.group(3),d))
    return res
def emit(var,d,src):
    o=[]
    o.append('/-- %s: `%s_Locale`. -/'%(src,var))
    o.append('def %sData : LangData where'%var.replace('_',''))
    o.append('  name := '+L(d['name']))
    if d['spacing']: o.append('  noWordSpacing := true')
    o.append('  splitterGroup := %d'%d['group'])
    def lst(n,rows,sep=',\n    '):
        if rows: o.append('  %s :=\n   [%s]'%(n,sep.join(rows)))
    lst('abbreviations',[L(x) for x in d['abbr']],', ')
    lst('simplifications',['(%s, %s)'%(p[0],t) for p,t in d['simp']])
    lst('translations',['(%s, [%s])'%(L(k),', '.join(L(x) for x in v)) for k,v in d['trans']])
    lst('relativeType',['(%s, %s)'%(L(k),L(v)) for k,v in d['rel']])
    lst('relativeRegexes',['(%s, %s)'%(p[0],t) for p,t in d['relrx']])
    if d['comb']: o.append('  rxCombined := some (%s, %d)'%d['comb'])
    if d['exact']: o.append('  rxExact := some (%s)'%d['exact'][0])
    lst('knownWords',[L(x) for x in d['known']])
    return '\n'.join(o)+'\n'
if __name__=='__main__':
    for name in sys.argv[1:] or ['en','yue']:
        f=name+'.go'; r=read(f)
        out=['import Verif.Model.Pattern\n/-! GENERATED by tools/gen_langs.py from /repo/internal/data/%s; do not edit. -/\nset_option autoImplicit false\nset_option maxRecDepth 100000\nnamespace Verif.Data\nopen Verif.Model\n'%f]
        out.append(emit(r[0][0],r[0][2],'internal/data/%s'%f))
        out.append('end Verif.Data\n')
        mod='Lang'+name[0].upper()+name[1:]
        open('/verif/lean/Verif/Data/%s.lean'%mod,'w').write('\n'.join(out))
        print(mod,len(r[0][2]['trans']))
