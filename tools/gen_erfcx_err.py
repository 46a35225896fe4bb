#!/usr/bin/env python3
"""Writes lean/Verif/Tables/ErfcxErr.lean: the certificate used by the accuracy proof of erfcx.

Entry i is a bound, in units of 10^-46 * 2^-20, for the error of table row i at its left end.  The bounds are computed here and
checked in Lean (Verif.Proofs.ErfcxCheck); nothing in the proof trusts this script.
"""
import re,os
here=os.path.dirname(os.path.abspath(__file__))
src=open(os.path.join(here,'../lean/Verif/Tables/Erfcx.lean')).read()
def rows(name,n):
    out=[]
    for m in re.finditer(r'def %s_(\d+) .*?:=\n(.*?)\n\n'%name,src,re.S):
        for r in re.findall(r'\[((?:d[pn] \d+ \d+(?:, )?)+)\]',m[2]):
            l=[int(a)*10**(46-int(b))*(1 if s=='p' else -1) for s,a,b in re.findall(r'd([pn]) (\d+) (\d+)',r)]
            assert len(l)==n; out.append(l)
    return out
P=[a+b for a,b in zip(rows('cheb0Rows',2),rows('cheb1Rows',8))]
P.append([0]*10)
K=11283791670955125738*10**27
E=[0]*449
E[448]=10**46*2**20
worst=0
for i in range(447,-1,-1):
    q,j=divmod(i,64); n=129+2*j
    c=P[i]+[0,0]
    rho=2**(q+10)*10**27
    for d in range(11):
        v=2**20*(d+1)*c[d+1]-2*4**q*(n*c[d]+(c[d-1] if d>0 else 0))
        if d==0: v+=2**(q+10)*K
        rho+=abs(v)
    J=2**20*abs(sum(P[i])-sum((-1)**d*P[i+1][d] for d in range(10)))
    D=2**20+4*4**q*n
    E[i]=-(-((E[i+1]+J)*2**20+2*rho*D)//D)
    sup=E[i+1]+J+2*rho
    if i<=416: worst=max(worst,sup/(2**20*P[i][0]))
print('worst relative',worst)
with open(os.path.join(here,'../lean/Verif/Tables/ErfcxErr.lean'),'w') as f:
    f.write('/-! Generated by tools/gen_erfcx_err.py.  Error bounds (units `10^-46·2^-20`) at the left ends of the erfcx table rows; checked in\n`Verif.Proofs.ErfcxCheck`. -/\n\nnamespace Verif\n\n')
    for b in range(0,449,64):
        f.write('def erfcxErr_%d : List Nat :=\n  [%s]\n\n'%(b//64,',\n   '.join(map(str,E[b:b+64]))))
    f.write('def erfcxErr : List Nat :=\n  %s\n\nend Verif\n'%' ++ '.join('erfcxErr_%d'%k for k in range(8)))
