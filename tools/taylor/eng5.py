"""fan coordinates: tau = A(beta)+s*(B(beta)-A(beta)); bodies on (b,tau)"""
from fan import *
def q6(q): 
    q=list(q)+[Fr(0)]*(6-len(q)); assert len(q)==6; return q
def polyB(q,b):
    acc=lin([b,tone()],[(0,q[5]),(1,q[4])])
    for i in (3,2,1,0):
        m=mul(acc,b); acc=lin([m,tone()],[(0,1),(1,q[i])])
    return refresh(acc)
def fanT(A,B,b,s):
    a=polyB(A,b); c=polyB(B,b)
    d=refresh(lin([c,a],[(0,1),(1,-1)])); m=mul(s,d)
    return refresh(lin([m,a],[(0,1),(1,1)]))
def leafF(A,B,body):
    def f(*box):
        b,s=base(*box); return body(b,fanT(A,B,b,s))
    return f
def one_lin(ts,l): return lin(ts,l)
# bodies: return bool or (ok,info)
def K_S(b,tau):
    """psat(540/tau)+1e-7<b^4"""
    if not posv(lin([b,tone()],[(0,1),(1,-Fr(157,1000))])): return False
    if not posv(lin([b,tone()],[(0,-1),(1,Fr(202,100))])): return False
    if not posv(lin([tau,tone()],[(0,1),(1,-Fr(5399,62315)*10)])): return False
    bb=refresh(lin([b,tone()],[(0,1),(1,-DL)])); ti=inv(4,tau)
    return posv(neg(satQ(540,bb,tau,ti)))
def K_B(b,tau):
    ti=inv(4,tau); p=p4(b); T=lin([ti],[(0,540)]); T2=mul(T,T)
    return posv(lin([p,T2,T,tone()],[(0,1),(1,-B23[2]),(2,-B23[1]),(3,-B23[0]-Fr(1,10**7))]))
def B_ph2b(tol,b,tau):
    p=p4(b); g=gt2(p,tau)
    eta=refresh(lin([g,tone()],[(0,RT/2000),(1,Fr(-26,10))]))
    pi=refresh(lin([p,tone()],[(0,1),(1,-2)]))
    return close2(back(Ph2b,pi,eta),tau,540,tol)
def B_ph2c(tol,b,tau):
    p=p4(b); g=gt2(p,tau)
    eta=refresh(lin([g,tone()],[(0,RT/2000),(1,Fr(-18,10))]))
    pi=refresh(lin([p,tone()],[(0,1),(1,25)])); pin=inv(4,pi)
    th=poly(pows(Ph2c.chx,[pin,pi,tone()]),pows(Ph2c.chy,[eta,tone()]),Ph2c.tb)
    return close2(th,tau,540,tol)
def K_C(b,tau):
    p=p4(b); g=gt2(p,tau); d,w=side(p,g); return posv(neg(w))
def K_D(b,tau):
    p=p4(b); g=gt2(p,tau); d,w=side(p,g); return posv(w) and posv(d)
# float helpers
def tauB23(b):
    p=b**4; return 540/(572.54459862746+math.sqrt((p-13.91883977887)/0.0010192970039326))
f2r=[(I,J,float(c)) for I,J,c in r2]; fn0=[float(x) for x in n0]
def hf(p,tau):
    g=sum(n*J*tau**(J-1) for n,J in zip(fn0,J0))+sum(c*p**I*J*(tau-0.5)**(J-1) for I,J,c in f2r if J)
    return float(RT)*g
def tau2bc(b):
    p=b**4; h=2652.6571908428+math.sqrt((p-4.5257578905948)/0.00012809002730136)
    lo,hi=540/1200,540/480
    for _ in range(80):
        m=(lo+hi)/2
        if hf(p,m)>h: lo=m
        else: hi=m
    return lo
tausat=lambda b:540/Tsat(b**4)
L0=q6([Fr(540*20)/Fr(107315,5)*0+Fr(54000,107315)])
