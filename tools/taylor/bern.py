from fractions import Fraction as F
from math import comb
def add(a,b):
    n=max(len(a),len(b)); return [(a[i] if i<len(a) else 0)+(b[i] if i<len(b) else 0) for i in range(n)]
def mul(a,b):
    r=[F(0)]*(len(a)+len(b)-1)
    for i,x in enumerate(a):
        for j,y in enumerate(b): r[i+j]+=x*y
    return r
def sc(k,a): return [k*x for x in a]
def bern(p,a,b):
    """coefs c_k with p(w)=sum c_k (w-a)^k (b-w)^(n-k)"""
    n=len(p)-1; h=b-a
    # q(s)=p(a+h s)
    q=[F(0)]; pw=[F(1)]
    for c in p:
        q=add(q,sc(c,pw)); pw=mul(pw,[a,h])
    q=q[:n+1]
    B=[sum(q[i]*F(comb(k,i),comb(n,i)) for i in range(k+1)) for k in range(n+1)]
    return [B[k]*comb(n,k)/h**n for k in range(n+1)]
Tc=F('647.096'); T=[F('623.15'),F(1)]; g=[F('650.17534844798')-F('623.15'),F(-1)]
X=add(mul(g,T),[F('0.23855557567849')])
def Q(b):
    E=add(mul(b,add(b,[F('-17.073846940092')])),[F('14.915108613530')])
    Ff=add(mul(b,add(sc(F('1167.0521452767'),b),[F('12020.824702470')])),[F('-4823.2657361591')])
    G=add(mul(b,add(sc(F('-724213.16703206'),b),[F('-3232555.0322333')])),[F('405113.40542057')])
    return add(add(mul(E,mul(X,X)),mul(Ff,mul(g,X))),mul(G,mul(g,g)))
def Qs(b): # (2 qA b + qB) g^2
    A=add(add(mul(X,X),sc(F('1167.0521452767'),mul(g,X))),sc(F('-724213.16703206'),mul(g,g)))
    B=add(add(sc(F('-17.073846940092'),mul(X,X)),sc(F('12020.824702470'),mul(g,X))),sc(F('-3232555.0322333'),mul(g,g)))
    return add(sc(2,mul(A,b)),B)
if __name__=='__main__':
  L=F('23.946')
  for c,sg in (('0.66744',1),('0.66763',-1)):
    x=sc(1/Tc,T); b=add(add(sc(F('2.675'),mul(x,x)),sc(F('-1.1753'),x)),[F(c)])
    p=Q(b); print(c,len(p)-1)
    def rec(a,e,d=0):
        cs=bern(p,a,e)
        if all(sg*k>0 for k in cs): return [(a,e)]
        if d>8: return [('fail',float(a),float(e))]
        m=(a+e)/2; return rec(a,m,d+1)+rec(m,e,d+1)
    r=rec(F(0),L); print(r)
    cs=bern(Qs(b),F(0),L); print([float(k) for k in cs])
