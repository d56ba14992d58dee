import eng
from eng import *
import eng2
from eng2 import *
def setP(p): eng.P=p
NS=[Fr(x) for x in "1167.0521452767 -724213.16703206 -17.073846940092 12020.824702470 -3232555.0322333 14.915108613530 -4823.2657361591 405113.40542057 -0.23855557567849 650.17534844798".split()]
def satQ(Ts,b,tau,ti):
    """Qf b (th T)"""
    T=lin([ti],[(0,Ts)])
    w=refresh(lin([ti,tone()],[(0,-Ts),(1,NS[9])])); wi=inv(4,w)
    th=refresh(lin([T,wi],[(0,1),(1,-NS[8])])); th2=mul(th,th)
    A=refresh(lin([th2,th,tone()],[(0,1),(1,NS[0]),(2,NS[1])]))
    B=refresh(lin([th2,th,tone()],[(0,NS[2]),(1,NS[3]),(2,NS[4])]))
    C=refresh(lin([th2,th,tone()],[(0,NS[5]),(1,NS[6]),(2,NS[7])]))
    h=mul(A,b); h=mul(refresh(lin([h,B],[(0,1),(1,1)])),b)
    return lin([h,C],[(0,1),(1,1)])
def neg(t): return (t[1],t[0],t[2],t[3])
def p4(b): b2=mul(b,b); return mul(b2,b2)
def skip1(Ts,xr,yr,xc,D,yc,E):
    b,tau=base(xr,yr,xc,D,yc,E); return posv(satQ(Ts,b,tau,inv(4,tau)))
B23=[Fr('0.34805185628969e3'),Fr('-0.11671859879975e1'),Fr('0.10192970039326e-2')]
def skip2(xr,yr,xc,D,yc,E):
    b,tau=base(xr,yr,xc,D,yc,E); ti=inv(4,tau)
    if (yc-yr)*62315>=54000*E:     # T <= 623.15 on the box
        return posv(neg(satQ(540,b,tau,ti)))
    if (yc+yr)*62315<=54000*E and (yc-yr)*86315>=54000*E:  # 623.15 <= T <= 863.15
        p=p4(b); T=lin([ti],[(0,540)]); T2=mul(T,T)
        return posv(lin([p,T2,T,tone()],[(0,1),(1,-B23[2]),(2,-B23[1]),(3,-B23[0])]))
    return False
def M1(tol,xr,yr,xc,D,yc,E):
    pass
def search2(leaf,skip,xr,yr,xc,D,yc,E,d=0,dmax=26):
    sk=False
    try: sk=skip(xr,yr,xc,D,yc,E)
    except Fail: pass
    if sk: return 's',0,1
    try: ok,info=leaf(xr,yr,xc,D,yc,E)
    except Fail: ok,info=False,(xr/D/max(xc/D,1e-9),yr/E/max(yc/E,1e-9)*2,0,0)
    if ok: return 'l',1,0
    if d>=dmax: raise SystemExit(('deep',(xc/D)**4,xr/D,yc/E,yr/E,info))
    if info[0]>info[1]:
        a,n1,s1=search2(leaf,skip,xr,yr,2*xc-xr,2*D,yc,E,d+1,dmax); b,n2,s2=search2(leaf,skip,xr,yr,2*xc+xr,2*D,yc,E,d+1,dmax)
        return f'x({a})({b})',n1+n2,s1+s2
    a,n1,s1=search2(leaf,skip,xr,yr,xc,D,2*yc-yr,2*E,d+1,dmax); b,n2,s2=search2(leaf,skip,xr,yr,xc,D,2*yc+yr,2*E,d+1,dmax)
    return f'y({a})({b})',n1+n2,s1+s2
# leaves in (beta,tau)
def L_ph2a(tol,xr,yr,xc,D,yc,E):
    b,tau=base(xr,yr,xc,D,yc,E); p=p4(b); g=gt2(p,tau)
    eta=refresh(lin([g,tone()],[(0,RT/2000),(1,Fr(-21,10))]))
    return close(back(Ph2a,p,eta),tau,540,tol,yr,yc,E)
def L_ph2b(tol,xr,yr,xc,D,yc,E):
    b,tau=base(xr,yr,xc,D,yc,E); p=p4(b); g=gt2(p,tau)
    eta=refresh(lin([g,tone()],[(0,RT/2000),(1,Fr(-26,10))]))
    pi=refresh(lin([p,tone()],[(0,1),(1,-2)]))
    return close(back(Ph2b,pi,eta),tau,540,tol,yr,yc,E)
def S_ph2b(xr,yr,xc,D,yc,E):
    b,tau=base(xr,yr,xc,D,yc,E); p=p4(b); g=gt2(p,tau); d,w=side(p,g)
    return posv(neg(w))
def L_ph2c(tol,xr,yr,xc,D,yc,E):
    b,tau=base(xr,yr,xc,D,yc,E); p=p4(b); g=gt2(p,tau)
    eta=refresh(lin([g,tone()],[(0,RT/2000),(1,Fr(-18,10))]))
    pi=refresh(lin([p,tone()],[(0,1),(1,25)])); pin=inv(4,pi)
    th=poly(pows(Ph2c.chx,[pin,pi,tone()]),pows(Ph2c.chy,[eta,tone()]),Ph2c.tb)
    return close(th,tau,540,tol,yr,yc,E)
def S_ph2c(xr,yr,xc,D,yc,E):
    b,tau=base(xr,yr,xc,D,yc,E); p=p4(b); g=gt2(p,tau); d,w=side(p,g)
    return posv(w) and posv(d)
def L_ph1(tol,xr,yr,xc,D,yc,E):
    b,tau=base(xr,yr,xc,D,yc,E); p=p4(b); xs,ys=st1(p,tau)
    g=poly(xs,ys,G1)
    eta=refresh(lin([g,tone()],[(0,Fr(639675036,2500000000)),(1,1)]))
    return close(back(Ph1,p,eta),tau,1386,tol,yr,yc,E)
def L_ps1(tol,xr,yr,xc,D,yc,E):
    b,tau=base(xr,yr,xc,D,yc,E); p=p4(b); xs,ys=st1(p,tau)
    g=poly(xs,ys,G1); g0=poly(xs,ys,Z1); gy=mul(g,tau); R=Fr(461526,1000000)
    eta=refresh(lin([gy,g0,tone()],[(0,R),(1,-R),(2,2)]))
    return close(back(Ps1,p,eta),tau,1386,tol,yr,yc,E)
def L_hs1(tol,xr,yr,xc,D,yc,E):
    b,tau=base(xr,yr,xc,D,yc,E); p=p4(b); xs,ys=st1(p,tau)
    g=poly(xs,ys,G1); g0=poly(xs,ys,Z1); gy=mul(g,tau); R=Fr(461526,1000000)
    g=refresh(g)
    eta=refresh(lin([g,tone()],[(0,Fr(639675036,3400000000)),(1,Fr(5,100))]))
    sig=refresh(lin([gy,g0,tone()],[(0,R/Fr(76,10)),(1,-R/Fr(76,10)),(2,Fr(5,100))]))
    q=refresh(lin([back(Hs1,eta,sig)],[(0,100)]))
    e=lin([q,p],[(0,1),(1,-1)])
    i=ckb(e,15*eng.P.one,1000)
    if i is None: i=ckb(e,6*eng.P.one*(xc-xr)**4,1000*D**4)
    if i: return False,i
    eta=refresh(lin([g,tone()],[(0,Fr(639675036,2500000000)),(1,1)]))
    return close(back(Ph1,q,eta),tau,1386,tol,yr,yc,E)
