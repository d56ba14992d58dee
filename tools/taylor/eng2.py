import eng
from eng import *
eng.P=Par(192,608,12,9)
r2=tab('R2.lean','r2_IJn')
src=open('/verif/lean/Verif/Model/R2.lean').read()
def lst(nm,c=float):
    i=src.index("def "+nm+" "); j=src.index(":=",i); k=src.index("]",j)
    return [Fr(x) for x in re.findall(r"-?[\d.]+(?:e[\-+]?\d+)?",src[j:k])]
n0=lst('r2_n0'); J0=[int(x) for x in lst('r2_J0')]
assert len(n0)==9 and len(J0)==9
# gamma0_tau: powers of tau, table rows single: [(0 power of X) -> terms]
K0=Tb([(0,J-1,n*J) for n,J in zip(n0,J0)])   # in (one, tau)
K2=Tb([(I,J,c) for I,J,c in r2],ey={J-1 for I,J,c in r2 if J})
G2r=grp([(I,max(J-1,0),c*J) for I,J,c in r2],K2.hx,K2.hy)
Ph2a=Tb(tab('R2.lean','ph2T_reg2a_IJn'));Ph2b=Tb(tab('R2.lean','ph2T_reg2b_IJn'));Ph2c=Tb(tab('R2.lean','ph2T_reg2c_IJn'))
SC=[Fr(1),Fr(1)]
G2r0=[(i,list(r)) for i,r in G2r]; K2t0=[(i,list(r)) for i,r in K2.tb]
def scaled(tb,sx,sy):
    n,m=len(K2.hx),len(K2.hy)
    return [(i,[(j,c*sx**K2.hx[n-1-i]*sy**K2.hy[m-1-j]) for j,c in row]) for i,row in tb]
_sc={}
def setscale(sx,sy):
    if SC==[sx,sy]: return
    if (sx,sy) not in _sc: _sc[sx,sy]=scaled(G2r0,sx,sy),scaled(K2t0,sx,sy)
    SC[:]=[sx,sy]; G2r[:]=_sc[sx,sy][0]; K2.tb[:]=_sc[sx,sy][1]
def _val(q,b): return float(sum(c*Fr(b)**i for i,c in enumerate(q)))
def scfan(f):
    A,B,a,b=f
    m=max(_val(q,a+(b-a)*k/20)-.5 for q in (A,B) for k in range(21))
    return Fr(math.ceil(b**4)),Fr(math.ceil(m*32),32)
def xy2(p,tau):
    Y=refresh(lin([tau,tone()],[(0,1/SC[1]),(1,-1/(2*SC[1]))])); x=refresh(lin([p],[(0,1/SC[0])]))
    return pows(K2.chx,[x,tone()]),pows(K2.chy,[Y,tone()])
def st2(p,tau):
    xs,ys=xy2(p,tau); ti=inv(4,tau)
    return xs,ys,pows(K0.chy,[ti,tau,tone()])
def gt2(p,tau):
    xs,ys,ts=st2(p,tau)
    g0=lin(ts,K0.tb[0][1]); gr=poly(xs,ys,G2r)
    return refresh(lin([g0,gr],[(0,1),(1,1)]))
RT=Fr(461526,1000000)*540
def ph2a(tol,xr,yr,xc,D,yc,E):
    p,tau=base(xr,yr,xc,D,yc,E); g=gt2(p,tau)
    eta=refresh(lin([g,tone()],[(0,RT/2000),(1,Fr(-21,10))]))
    return close(back(Ph2a,p,eta),tau,540,tol,yr,yc,E)
N0,N1,N2=lst('enthalpy_2bc_n')
def posv(t):
    p,q,r,nm=refresh(t); return nm+r<2*(p%(eng.P.B1+1))
def side(p,g):
    d=refresh(lin([g,tone()],[(0,RT),(1,-N1)])); d2=mul(d,d)
    return d,refresh(lin([d2,p,tone()],[(0,N0),(1,-1),(2,N2)])) # >0 => 2b
def ph2b(tol,xr,yr,xc,D,yc,E):
    p,tau=base(xr,yr,xc,D,yc,E); g=gt2(p,tau)
    d,w=side(p,g)
    if posv((w[1],w[0],w[2],w[3])): return True,None
    eta=refresh(lin([g,tone()],[(0,RT/2000),(1,Fr(-26,10))]))
    pi=refresh(lin([p,tone()],[(0,1),(1,-2)]))
    return close(back(Ph2b,pi,eta),tau,540,tol,yr,yc,E)
def ph2c(tol,xr,yr,xc,D,yc,E):
    p,tau=base(xr,yr,xc,D,yc,E); g=gt2(p,tau)
    d,w=side(p,g)
    if posv(w) and posv(d): return True,None
    eta=refresh(lin([g,tone()],[(0,RT/2000),(1,Fr(-18,10))]))
    pi=refresh(lin([p,tone()],[(0,1),(1,25)])); pin=inv(4,pi)
    th=poly(pows(Ph2c.chx,[pin,pi,tone()]),pows(Ph2c.chy,[eta,tone()]),Ph2c.tb)
    return close(th,tau,540,tol,yr,yc,E)
