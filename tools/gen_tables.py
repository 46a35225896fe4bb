#!/usr/bin/env python3
"""Generate lean/Verif/Tables/*.lean from the constant tables in /repo/src (text only)."""
import re, os
R='/repo/src/'; O='/verif/lean/Verif/Tables/'
num=re.compile(r'[-+]?[0-9][0-9_]*\.?[0-9_]*(?:[eE][-+]?[0-9]+)?')
def table(fn,name):
    L=open(R+fn).read().split('\n')
    for i,l in enumerate(L):
        m=re.match(r'(?:const|static) %s: \[[^\]]*\] = \[(.*)'%name,l)
        if m:
            j=i; txt=m.group(1)
            while '];' not in L[j]: j+=1; txt+='\n'+L[j]
            txt=txt.split('];')[0]
            txt=re.sub(r'//.*','',txt)
            v=[t.strip().replace('_','') for t in txt.split(',') if t.strip()]
            return v,i+1,j+1
    raise Exception(name)
def dec(s):
    """decimal literal -> (mantissa, e) with value mantissa*10^-e"""
    neg=s.startswith('-'); s=s.lstrip('+-')
    e=0
    if 'e' in s.lower():
        s,x=re.split('[eE]',s); e=int(x)
    if '.' in s:
        a,b=s.split('.'); e-=len(b); s=a+b
    m=int(s)
    while e>0: m*=10; e-=1
    while m!=0 and e<0 and m%10==0: m//=10; e+=1
    if m==0: e=0
    return (-m if neg else m, -e)
def lit(x):
    m,e=dec(x)
    return ('dp %d %d' if m>=0 else 'dn %d %d')%(abs(m),e)
def write(fn,txt):
    open(O+fn,'w').write(txt)
# --- Bessel: literal lists, generic in the arithmetic
names=["C1","C2"]+[a+b for a in ("J0","J1","Y0","Y1") for b in ("R","S","PN","PD","QN","QD")]+\
 [a+b for a in("I0","I1") for b in ("P","Q","PP","QQ")]+[a+b for a in("K0","K1") for b in ("PI","QI","P","Q","PP","QQ")]
s='''import Verif.Arith

/-! Generated by tools/gen_tables.py from /repo/src/bessel.rs:1054-1436. Do not edit. -/

namespace Verif
variable {α : Type} [Add α] [Sub α] [Mul α] [Div α] [Neg α] [OfScientific α]
'''
for n in names:
    v,a,b=table('bessel.rs',n)
    v=[x if ('.' in x or 'e' in x) else x+'.0' for x in v]
    s+='\n/-- src/bessel.rs:%d-%d -/\ndef %s : List α :=\n  ['%(a,b,n)+',\n   '.join(v)+']\n'
s+='\nend Verif\n'
write('Bessel.lean',s)
def rows(name,fn,lean,width,doc,chunk=64):
    v,a,b=table(fn,name)
    assert len(v)%width==0
    r=[v[i:i+width] for i in range(0,len(v),width)]
    s=''
    parts=[]
    for c in range(0,len(r),chunk):
        p='%s_%d'%(lean,c//chunk); parts.append(p)
        s+='\n/-- src/%s:%d-%d, rows %d-%d: `dp m e`, `dn m e` stand for the literals `±m·10^-e` -/\ndef %s : List (List (Int × Nat)) :=\n  ['%(fn,a,b,c,min(c+chunk,len(r))-1,p)
        s+=',\n   '.join('['+', '.join(lit(x) for x in row)+']' for row in r[c:c+chunk])+']\n'
    s+='\n/-- src/%s:%d-%d `%s`, as rows of %d -/\ndef %s : List (List (Int × Nat)) :=\n  '%(fn,a,b,name,width,lean)+' ++ '.join(parts)+'\n'
    return s
hdr='''import Verif.Tables.Lit

/-! Generated by tools/gen_tables.py from /repo/src/%s. Do not edit. -/

namespace Verif
'''
write('Erfcx.lean',hdr%'error.rs'+rows('CHEBYSHEV_COEFFS_0','error.rs','cheb0Rows',2,'')+rows('CHEBYSHEV_COEFFS_1','error.rs','cheb1Rows',8,'')+'\nend Verif\n')
v,a,b=table('faddeeva.rs','TILES')
assert len(v)==5000
assert all((int(v[2*i])>=0 and int(v[2*i+1])>=0) or (v[2*i]=='-2' and v[2*i+1]=='-2') for i in range(2500))
s=hdr%'faddeeva.rs'
s+='\n/-- src/faddeeva.rs:%d-%d `TILES`: 50 rows (one per x-strip) of 50 pairs (`tx` is the pair -2, -2) -/\ndef tileRows : List (List (Int × Int)) :=\n  ['%(a,b)
rr=[]
for i in range(50):
    rr.append('['+', '.join(('tl %s %s'%(v[100*i+2*j],v[100*i+2*j+1]) if int(v[100*i+2*j])>=0 else 'tx') for j in range(50))+']')
s+=',\n   '.join(rr)+']\n'
s+=rows('TAYLOR_COEFFS','faddeeva.rs','taylorRows',48,'',8)
s+='\nend Verif\n'
write('Faddeeva.lean',s)
