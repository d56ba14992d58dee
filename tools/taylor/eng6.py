"""entropy in region 2"""
from fans2 import *
import eng2
def tabf(nm):
    i=src.index("def "+nm+" "); j=src.index(":=",i); k=src.index("]",j)
    return [(int(4*Fr(a)),int(b),Fr(c)) for a,b,c in re.findall(r"\((-?[\d.]+), (-?\d+), (-?[\d.e\-+]+)\)",src[j:k])]
Ps2a=Tb(tabf('ps2T_reg2a_IJn')); Ps2b=Tb(tab('R2.lean','ps2T_reg2b_IJn')); Ps2c=Tb(tab('R2.lean','ps2T_reg2c_IJn'))
assert len(Ps2a.raw)==46
K0s=Tb([(0,J-1,n*J) for n,J in zip(n0,J0)],ey=set(J0))
K0t=grp([(0,J-1,n*J) for n,J in zip(n0,J0)],[0],K0s.hy)[0][1]
K00=grp([(0,J,n) for n,J in zip(n0,J0)],[0],K0s.hy)[0][1]
NL=20
Rg=Fr(461526,1000000)
def logc(c):
    from decimal import Decimal,getcontext; getcontext().prec=40
    c=Fr(c); L=Fr(round(Fr((Decimal(c.numerator)/Decimal(c.denominator)).ln())*10**18),10**18)
    return L
def logT(c,rho,w,b):
    """ln b, |b/c-1|<=rho, w = widening in units of 1e-18"""
    c=Fr(c)
    t=refresh(lin([b,tone()],[(0,1/c),(1,-1)]))
    if bndv(t)>(rho.numerator*eng.P.one)//rho.denominator: raise Fail
    acc=lin([t,tone()],[(0,Fr(-1,NL)),(1,Fr(1,NL-1))])   
    for i in range(NL-2,0,-1):
        acc=lin([mul(acc,t),tone()],[(0,1),(1,Fr((-1)**(i+1),i))])
    acc=mul(acc,t)
    acc=lin([acc,tone()],[(0,1),(1,logc(c))])
    p,q,r,nm=acc
    return refresh((p,q,r+w*eng.P.one//10**18+1,nm))
def lpar(a,b):
    m=round((a+b)/2*200)/200; c=Fr(str(m)); rho=Fr(math.ceil(max(abs(a/m-1),abs(b/m-1))*1000+1),1000)
    w=math.ceil(rho**(NL+1)/(1-rho)*10**18)+10000
    return c,rho,w
def s2(lp,b,p,tau):
    """s/R"""
    ti=inv(4,tau); xs,ys=eng2.xy2(p,tau); ts=pows(K0s.chy,[ti,tau,tone()])
    g0=lin(ts,K0t); gr=poly(xs,ys,G2r); g=refresh(lin([g0,gr],[(0,1),(1,1)]))
    f0=lin(ts,K00); fr=poly(xs,ys,K2.tb)
    l=logT(*lp,b); m=mul(tau,g)
    return g,refresh(lin([m,f0,fr,l],[(0,1),(1,-1),(2,-1),(3,-4)]))
def B_ps2a(lp,tol,b,tau):
    p=p4(b); g,s=s2(lp,b,p,tau)
    sg=refresh(lin([s,tone()],[(0,Rg/2),(1,-2)]))
    bi=inv(4,b); si=inv(4,sg)
    th=poly(pows(Ps2a.chx,[bi,b,tone()]),pows(Ps2a.chy,[si,sg,tone()]),Ps2a.tb)
    return close2(th,tau,540,tol)
def B_ps2b(lp,tol,b,tau):
    p=p4(b); g,s=s2(lp,b,p,tau)
    sg=refresh(lin([s,tone()],[(0,-Rg/Fr(7853,10000)),(1,10)]))
    pi=inv(4,p)
    th=poly(pows(Ps2b.chx,[pi,p,tone()]),pows(Ps2b.chy,[sg,tone()]),Ps2b.tb)
    return close2(th,tau,540,tol)
def B_ps2c(lp,tol,b,tau):
    p=p4(b); g,s=s2(lp,b,p,tau)
    sg=refresh(lin([s,tone()],[(0,-Rg/Fr(29251,10000)),(1,2)]))
    pi=inv(4,p)
    th=poly(pows(Ps2c.chx,[pi,p,tone()]),pows(Ps2c.chy,[sg,tone()]),Ps2c.tb)
    return close2(th,tau,540,tol)
def K_lt(lp,b,tau):
    p=p4(b); g,s=s2(lp,b,p,tau)
    return posv(lin([s,tone()],[(0,-Rg),(1,Fr(585,100))]))
def K_gt(lp,b,tau):
    p=p4(b); g,s=s2(lp,b,p,tau)
    return posv(lin([s,tone()],[(0,Rg),(1,-Fr(585,100))]))
def sf(p,tau):
    g=sum(n*tau**J for n,J in zip(fn0,J0))+math.log(p)+sum(c*p**I*(tau-0.5)**J for I,J,c in f2r)
    return float(Rg)*(tau*hf(p,tau)/float(RT)-g)
def tau585(b):
    p=b**4
    lo,hi=540/1073.15,(tauB23(b) if p>16.53 else 540/480)
    for _ in range(80):
        m=(lo+hi)/2
        if sf(p,m)>5.85: lo=m
        else: hi=m
    return lo
if os.path.exists('/tmp/tm/fans6.pk'): FUs=pickle.load(open('/tmp/tm/fans6.pk','rb'))
else:
    FUs=[FU[0]]
    for i in (2,4,6,8,10):
        A,B,a,b=FU[i]; m=q6(fit(tau585,a,b,5,0)); FUs+=[(L0,m,a,b),(m,B,a,b)]
    pickle.dump(FUs,open('/tmp/tm/fans6.pk','wb'))
cfg6=dict(ps2a=(P2,lambda lp:(lambda b,t:B_ps2a(lp,Fr(1,100),b,t)),[],FA),
 ps2b=(P2,lambda lp:(lambda b,t:B_ps2b(lp,Fr(1,100),b,t)),[('d',K_lt)],FUs),
 ps2c=(P2,lambda lp:(lambda b,t:B_ps2c(lp,Fr(25,1000),b,t)),[('d',K_gt)],FUs))
