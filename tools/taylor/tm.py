import sys,re,math,time
from fractions import Fraction as Fr
sys.path.insert(0,'/tmp/iv')
S=160; b=640; n=8; m=7
def setp(S_,b_,n_,m_):
    global S,b,n,m,B,M,H,BIAS,MASK,ONES
    S,b,n,m=S_,b_,n_,m_
    B=1<<b; M=1<<(b*n); H=1<<(b-1)
    ONES=sum(1<<(b*j) for j in range(n)); BIAS=H*ONES; MASK=((1<<S)-1)*ONES
setp(S,b,n,m)
class TM:
    __slots__=('rows','maj','r','nm')
    def __init__(s,rows,maj,r):
        s.rows,s.maj,s.r=rows,maj,r
        s.nm=sum(maj)%(B-1)
def const(q):
    q=Fr(q); k=(q.numerator<<S)//q.denominator
    return TM([k%M],[abs(k)],1)
def aff(c,ru,rv):
    f=lambda q:(Fr(q).numerator<<S)//Fr(q).denominator
    c,ru,rv=f(c),f(ru),f(rv)
    rows=[(c+rv*B)%M]; maj=[abs(c)+abs(rv)*B]
    if ru: rows.append(ru%M); maj.append(abs(ru))
    return TM(rows,maj,3)
def conv(P,Q,k):
    s=0
    for i in range(max(0,k-len(Q)+1),min(k+1,len(P))): s+=P[i]*Q[k-i]
    return s%M
def rnd(rows,maj,r):
    R=[];A=[]
    for x in rows:
        t=(x+BIAS)%M; q=(t-(t&MASK))>>S
        R.append((q+M-(BIAS>>S))%M)
    for x in maj: A.append(((x-(x&MASK))>>S)+ONES)
    return TM(R,A,(r>>S)+1+len(rows)*n)
def mul(P,Q):
    L=min(m,len(P.rows)+len(Q.rows)-1)
    rows=[conv(P.rows,Q.rows,k) for k in range(L)]
    maj=[conv(P.maj,Q.maj,k) for k in range(L)]
    assert P.nm*Q.nm<H
    nm=sum(maj)%(B-1)
    r=P.nm*Q.r+Q.nm*P.r+P.r*Q.r+(P.nm*Q.nm-nm)
    return rnd(rows,maj,r)
def lin(l):
    L=max(len(t.rows) for c,t in l)
    rows=[0]*L; maj=[0]*L; r=0
    for c,t in l:
        c=Fr(c); k=(c.numerator<<S)//c.denominator
        for i in range(len(t.rows)):
            rows[i]=(rows[i]+k*t.rows[i])%M; maj[i]+=abs(k)*t.maj[i]
        r+=abs(k)*t.r+t.nm+t.r
    return rnd(rows,maj,r)
def inv(Y):
    # geometric: Y=[c + d v]
    c=dec(Y)[0]; c0,c1=c[0],c[1]
    q=[]; x=(1<<(2*S))//c0
    for j in range(n):
        q.append(x); x=-x*c1//c0
    Q=TM([sum(x<<(b*j) for j,x in enumerate(q))%M],[sum(abs(x)<<(b*j) for j,x in enumerate(q))],0)
    E=mul(Y,Q); E=lin([(1,E),(-1,const(1))])
    e=norm(E) # |Y*Q-1|<= e/2^S
    lo=(abs(c0)-abs(c1)-Y.r)
    Q.r=(e<<S)//lo+1   # |1/Y-Q|<=e/|Y|
    return Q
def dec(P):
    out=[]
    for x in P.rows:
        t=(x+BIAS)%M
        out.append([((t>>(b*j))&(B-1))-H for j in range(n)])
    return out
def norm(P): return sum(abs(c) for r in dec(P) for c in r)+P.r
def tab(fn,name):
    src=open('/verif/lean/Verif/Model/'+fn).read()
    i=src.index("def "+name+" "); j=src.index("]",src.index(":=",i))
    return [(int(a),int(bb),Fr(c)) for a,bb,c in re.findall(r"\((-?\d+), (-?\d+), (-?[\d.e\-+]+)\)",src[i:j])]
def chain(es):
    """es: set of exponents; returns order list of exps (starting 0,1[, -1]) and pairs"""
    have=[0,1]+([-1] if min(es)<0 else []); pr=[]
    def need(e):
        if e in have: return
        # best split: have pair
        for i,a in enumerate(have):
            if e-a in have and abs(a)<abs(e) and abs(e-a)<abs(e):
                pr.append((i,have.index(e-a))); have.append(e); return
        # else go from largest below
        s=1 if e>0 else -1
        cand=[a for a in have if a*s>0 and abs(a)<abs(e)]
        a=max(cand,key=abs)
        d=e-a
        if abs(d)>abs(a): d=e//2 if e%2==0 else (e-s)//2
        need(d); need(e-d) if (e-d)!=d else None
        need(e)
    for e in sorted([e for e in es if e>0]): need(e)
    for e in sorted([-e for e in es if e<0]): need(-e)
    return have,pr
def pows(start,pr):
    l=list(start)
    for i,j in pr: l.append(mul(l[i],l[j]))
    return l
def poly(tb,xs,hx,ys,hy):
    g={}
    for I,J,c in tb: g.setdefault(I,[]).append((c,ys[hy.index(J)]))
    out=[]
    for I,l in g.items():
        t=lin(l)
        out.append((1,t if I==0 else mul(xs[hx.index(I)],t)))
    return lin(out)
def refresh(P):
    d=dec(P)
    return TM(P.rows,[sum(abs(c)<<(b*j) for j,c in enumerate(r)) for r in d],P.r)
