"""exact mirror of Verif/Lemmas/Taylor.lean"""
import sys,re,math
sys.set_int_max_str_digits(0)
sys.path.insert(0,'/tmp/tm'); sys.path.insert(0,'/tmp/iv')
from fractions import Fraction as Fr
from tm import tab,chain
class Fail(Exception): pass
class Par:
    def __init__(s,S,b,n,m):
        s.S,s.b,s.n,s.m=S,b,n,m; w=s.w=2*n-1
        s.ones=sum(1<<(b*(w*i+j)) for i in range(m) for j in range(n))
        s.mask=((1<<b)-(1<<S))*s.ones; s.vl=((1<<(b-1))-1)*s.ones; s.H=1<<(b-1); s.bias=s.H*s.ones
        s.B1=(1<<b)-1; s.one=1<<S; s.tU=s.one<<(b*w); s.tV=s.one<<b
P=Par(128,448,12,9)
def rnd(a,c,nt,rt):
    if nt>=P.H: raise Fail
    p=(a&P.mask)>>P.S; q=(c&P.mask)>>P.S; nm=(p+q)%P.B1
    return (p,q,((rt+max(0,nt-(nm<<P.S)))>>P.S)+1,nm)
def mul(s,t):
    p,q,r,nm=s; p1,q1,r1,nm1=t
    x=p*p1; y=q*q1; z=(p+q)*(p1+q1); a=x+y; c=z-a
    return rnd(a,c,nm*nm1,nm*r1+nm1*r+r*r1)
def lin(ts,l):
    a=c=nt=rt=0
    for i,co in l:
        co=Fr(co)
        k=(abs(co.numerator)<<P.S)//co.denominator
        p,q,r,nm=ts[i]
        nt+=k*nm; rt+=k*r+nm+r
        if co>=0: a+=k*p; c+=k*q
        else: a+=k*q; c+=k*p
    return rnd(a,c,nt,rt)
def pows(ch,l):
    l=list(l)
    for i,j in ch: l=[mul(l[i],l[j])]+l
    return l
def poly(xs,ys,tb):
    a=c=rt=nt=0
    for i,row in tb:
        p,q,r,nm=mul(xs[i],lin(ys,row))
        a+=p;c+=q;rt+=r;nt+=nm
    if nt>=P.H: raise Fail
    return (a,c,rt,nt)
def refresh(t):
    p,q,r,_=t
    D=max(0,p+P.bias-q); pm=((D>>(P.b-1))&P.ones)*(P.H-1); p1=D&pm; z=max(0,p-p1); q1=max(0,q-z)
    if not(p1+z==p and q1+z==q and z&P.vl==z and p1&P.vl==p1 and q1&P.vl==q1): raise Fail
    return (p1,q1,r,(p1+q1)%P.B1)
def tone(): return (P.one,0,0,P.one)
def tU(): return (P.tU,0,0,P.one)
def tV(): return (P.tV,0,0,P.one)
def inv(N,y):
    y=refresh(y); p,_,r,nm=y
    p0=p%(P.B1+1); lo=2*p0-nm-r
    if lo<=0: raise Fail
    c0=P.one*P.one//p0
    if c0>=P.H: raise Fail
    q=(c0,0,0,c0)
    for _ in range(N):
        e=mul(y,q); d=refresh(lin([e,tone()],[(1,2),(0,-1)])); q=mul(q,d)
    e=mul(y,q); d=refresh(lin([e,tone()],[(0,1),(1,-1)]))
    return (q[0],q[1],q[2]+((d[3]+d[2])<<P.S)//lo+1,q[3])
def bndv(t):
    t=refresh(t); return t[3]+t[2]
def dig(t):
    """coefficients dict (i,j)->float in units 1"""
    p,q,r,_=refresh(t); o={}
    for i in range(P.m):
        for j in range(P.n):
            sh=P.b*(P.w*i+j); c=((p>>sh)&P.B1)-((q>>sh)&P.B1)
            if c: o[i,j]=c/P.one
    return o
def base(xr,yr,xc,D,yc,E):
    return lin([tone(),tU()],[(0,Fr(xc,D)),(1,Fr(xr,D))]), lin([tone(),tV()],[(0,Fr(yc,E)),(1,Fr(yr,E))])
def grp(tb,hx,hy):
    g={}
    for I,J,c in tb: g.setdefault(I,[]).append((J,c))
    return [(len(hx)-1-hx.index(I),[(len(hy)-1-hy.index(J),c) for J,c in l]) for I,l in g.items()]
def chl(start,pr):
    out=[];L=start
    for i,j in pr: out.append((L-1-i,L-1-j)); L+=1
    return out
class Tb:
    def __init__(s,tb,ex=None,ey=None):
        s.hx,px=chain({I for I,J,c in tb}|set(ex or [])); s.hy,py=chain({J for I,J,c in tb}|set(ey or []))
        s.sx=3 if -1 in s.hx[:3] else 2; s.sy=3 if -1 in s.hy[:3] else 2
        s.chx=chl(s.sx,px); s.chy=chl(s.sy,py); s.raw=tb; s.tb=grp(tb,s.hx,s.hy)
def back(T,x,y):
    return poly(pows(T.chx,[x,tone()]),pows(T.chy,[y,tone()]),T.tb)
# --- region 1
r1=tab('R1.lean','r1_IJn')
K1=Tb(r1,ey={J-1 for I,J,c in r1})
G1=grp([(I,J-1,c*J) for I,J,c in r1],K1.hx,K1.hy); Z1=K1.tb
Ph1=Tb(tab('R1.lean','ph2T_reg1_IJn')); Ps1=Tb(tab('R1.lean','ps2T_reg1_IJn')); Hs1=Tb(tab('R1.lean','hs2p_reg1_IJn'))
def st1(p,tau):
    X=refresh(lin([p,tone()],[(1,Fr(71,10)),(0,Fr(-100,1653))])); Y=refresh(lin([tau,tone()],[(0,1),(1,Fr(-1222,1000))]))
    Yi=inv(4,Y)
    return pows(K1.chx,[X,tone()]),pows(K1.chy,[Yi,Y,tone()])
def close(th,tau,Ts,tol,yr,yc,E):
    e=lin([mul(th,tau),tone()],[(0,1),(1,-Ts)])
    tolN=(tol.numerator*P.one*(yc-yr))//(tol.denominator*E)
    b=bndv(e)
    if b<=tolN: return True,None
    d=dig(e)
    return False,(sum(abs(c) for (i,j),c in d.items() if i),sum(abs(c) for (i,j),c in d.items() if j),b/tolN,e[2]/tolN)
def ph1(tol,xr,yr,xc,D,yc,E):
    p,tau=base(xr,yr,xc,D,yc,E); xs,ys=st1(p,tau)
    g=poly(xs,ys,G1)
    eta=refresh(lin([g,tone()],[(0,Fr(639675036,2500000000)),(1,1)]))
    return close(back(Ph1,p,eta),tau,1386,tol,yr,yc,E)
def ps1(tol,xr,yr,xc,D,yc,E):
    p,tau=base(xr,yr,xc,D,yc,E); xs,ys=st1(p,tau)
    g=poly(xs,ys,G1); g0=poly(xs,ys,Z1); gy=mul(g,tau); R=Fr(461526,1000000)
    eta=refresh(lin([gy,g0,tone()],[(0,R),(1,-R),(2,2)]))
    return close(back(Ps1,p,eta),tau,1386,tol,yr,yc,E)
def search(leaf,xr,yr,xc,D,yc,E,d=0,dmax=16,bias=1.0):
    """tree string and leaf count; leaf(xr,yr,xc,D,yc,E)->(ok,info)"""
    try: ok,info=leaf(xr,yr,xc,D,yc,E)
    except Fail: ok,info=False,(xr/D/max(xc/D,1e-9),yr/E/max(yc/E,1e-9)*5,0,0)
    if ok: return 'l',1
    if d>=dmax: raise SystemExit(('deep',xc/D,xr/D,yc/E,yr/E,info))
    if info[0]*bias>info[1]:
        a,n1=search(leaf,xr,yr,2*xc-xr,2*D,yc,E,d+1,dmax,bias); b,n2=search(leaf,xr,yr,2*xc+xr,2*D,yc,E,d+1,dmax,bias)
        return f'x({a})({b})',n1+n2
    a,n1=search(leaf,xr,yr,xc,D,2*yc-yr,2*E,d+1,dmax,bias); b,n2=search(leaf,xr,yr,xc,D,2*yc+yr,2*E,d+1,dmax,bias)
    return f'y({a})({b})',n1+n2
def ckb(e,num,den):
    tolN=num//den; b=bndv(e)
    if b<=tolN: return None
    d=dig(e)
    return (sum(abs(c) for (i,j),c in d.items() if i),sum(abs(c) for (i,j),c in d.items() if j),b/max(tolN,1),e[2]/max(tolN,1))
def hs1(tol,xr,yr,xc,D,yc,E):
    p,tau=base(xr,yr,xc,D,yc,E); xs,ys=st1(p,tau)
    g=poly(xs,ys,G1); g0=poly(xs,ys,Z1); gy=mul(g,tau); R=Fr(461526,1000000)
    g=refresh(g)
    eta=refresh(lin([g,tone()],[(0,Fr(639675036,3400000000)),(1,Fr(5,100))]))
    sig=refresh(lin([gy,g0,tone()],[(0,R/Fr(76,10)),(1,-R/Fr(76,10)),(2,Fr(5,100))]))
    q=refresh(lin([back(Hs1,eta,sig)],[(0,100)]))
    e=lin([q,p],[(0,1),(1,-1)])
    i=ckb(e,15*P.one,1000)

    if i: return False,i
    eta=refresh(lin([g,tone()],[(0,Fr(639675036,2500000000)),(1,1)]))
    return close(back(Ph1,q,eta),tau,1386,tol,yr,yc,E)
