from rec3 import *
from fractions import Fraction as Fr
def cheb(f,a,b,n):
    # polynomial interpolation at Chebyshev nodes, in x=p/100 monomials, via exact fractions solve
    N=n+1
    xs=[(a+b)/2+(b-a)/2*math.cos(math.pi*(k+.5)/N) for k in range(N)]
    ys=[f(x) for x in xs]
    A=[[Fr(x/100)**j for j in range(N)]+[Fr(y)] for x,y in zip(xs,ys)]
    for i in range(N):
        p=max(range(i,N),key=lambda r:abs(A[r][i])); A[i],A[p]=A[p],A[i]
        A[i]=[z/A[i][i] for z in A[i]]
        for r in range(N):
            if r!=i and A[r][i]: 
                m=A[r][i]; A[r]=[z-m*w for z,w in zip(A[r],A[i])]
    return [float(A[i][N]) for i in range(N)]
def ev(c,p):
    x=p/100; r=0
    for k in reversed(c): r=r*x+k
    return r
def err(f,c,a,b):
    e=[f(a+(b-a)*i/400)-ev(c,a+(b-a)*i/400) for i in range(401)]
    return min(e),max(e)
if __name__=='__main__':
    fs={'H13':lambda p:h1(p,623.15),'H32':lambda p:h2(p,TB(p)),'S13':lambda p:s1(p,623.15),'S32':lambda p:s2(p,TB(p))}
    for k,f in fs.items():
        for n in (4,5,6,7,8):
            c=cheb(f,16.5,100,n); print(k,n,err(f,c,16.5,100),[round(x,3) for x in c])
