import eng3
from eng3 import *
P1=Par(128,448,12,9); P2=Par(192,608,12,9)
DL=Fr(7,10**6)
def skS(Ts,sgn):
    """saturation skip; sgn=+1: proves p > psat+1e-7 (Qf(b-DL)<0); sgn=-1: proves p < psat-1e-7... (region 1: p+1e-7<psat)"""
    def f(xr,yr,xc,D,yc,E):
        if 1000*(xc-xr)<157*D or 100*(xc+xr)>202*D or (yc-yr)*62315<Ts*100*E: return False
        b,tau=base(xr,yr,xc,D,yc,E); ti=inv(4,tau)
        if sgn>0:
            bb=refresh(lin([b,tone()],[(0,1),(1,-DL)])); return posv(neg(satQ(Ts,bb,tau,ti)))
        bb=refresh(lin([b,tone()],[(0,1),(1,DL)])); return posv(satQ(Ts,bb,tau,ti))
    return f
def skB(xr,yr,xc,D,yc,E):
    if not((yc+yr)*62315<=54000*E and (yc-yr)*86315>=54000*E): return False
    b,tau=base(xr,yr,xc,D,yc,E); ti=inv(4,tau)
    p=p4(b); T=lin([ti],[(0,540)]); T2=mul(T,T)
    return posv(lin([p,T2,T,tone()],[(0,1),(1,-B23[2]),(2,-B23[1]),(3,-B23[0]-Fr(1,10**7))]))
def search4(leaf,skips,xr,yr,xc,D,yc,E,d=0,dmax=26):
    for c,sk in skips:
        try:
            if sk(xr,yr,xc,D,yc,E): return c,0,1
        except Fail: pass
    try: ok,info=leaf(xr,yr,xc,D,yc,E)
    except Fail: ok,info=False,(xr/D/max(xc/D,1e-9),yr/E/max(yc/E,1e-9)*2,0,0)
    if ok: return 'a',1,0
    if d>=dmax: raise SystemExit(('deep',(xc/D)**4,xr/D,yc/E,yr/E,info))
    if info[0]>info[1]:
        a,n1,s1=search4(leaf,skips,xr,yr,2*xc-xr,2*D,yc,E,d+1,dmax); b,n2,s2=search4(leaf,skips,xr,yr,2*xc+xr,2*D,yc,E,d+1,dmax)
        return f'x({a})({b})',n1+n2,s1+s2
    a,n1,s1=search4(leaf,skips,xr,yr,xc,D,2*yc-yr,2*E,d+1,dmax); b,n2,s2=search4(leaf,skips,xr,yr,xc,D,2*yc+yr,2*E,d+1,dmax)
    return f'y({a})({b})',n1+n2,s1+s2
E62,E86,E6286=62315,86315,1075743845
Fl=math.floor; Ce=math.ceil
b4=math.sqrt(2); b100=100**0.25
def root(bl,bh,tl,th,E):
    """beta range at 1e-6 outwards, tau numerators exact over E (integers)"""
    D=10**6; lo,hi=Fl(round(bl*D,3)),Ce(round(bh*D,3))
    return (hi-lo,th-tl,hi+lo,2*D,th+tl,2*E)
def tlo(T,E): return Fl(Fr(540)/Fr(str(T))*E)
def thi(T,E): return Ce(Fr(540)/Fr(str(T))*E)
Elo=E62*16
rA=root(0.1572,b4,54000*16,thi(273.1499,Elo),Elo)          # T<=623.15
rA2=root(0.1572,b4,tlo(1073.15,Elo),54000*16,Elo)            # T>=623.15
rB1=root(b4,2.0165,54000*16,thi(523.15,Elo),Elo)
rB2=root(b4,b100,54000*E6286//E86,54000*E6286//E62,E6286)
rB3=root(b4,b100,tlo(1073.15,E86*12),54000*12,E86*12)
cfg=dict(
 ph2a=(P1,L_ph2a,[('b',skS(540,1))],Fr(1,100),[rA,rA2]),
 ph2b=(P2,L_ph2b,[('b',skS(540,1)),('c',skB),('d',S_ph2b)],Fr(1,100),[rB1,rB2,rB3]),
 ph2c=(P2,L_ph2c,[('b',skS(540,1)),('c',skB),('d',S_ph2c)],Fr(25,1000),[rB1,rB2,rB3]),
)
def pre(a,k):
    """forced alternating splits to depth k: list of (path, box) """
    xr,yr,xc,D,yc,E=a
    if k==0: return [a]
    if k%2: return pre((xr,yr,2*xc-xr,2*D,yc,E),k-1)+pre((xr,yr,2*xc+xr,2*D,yc,E),k-1)
    return pre((xr,yr,xc,D,2*yc-yr,2*E),k-1)+pre((xr,yr,xc,D,2*yc+yr,2*E),k-1)
def join(ts,k):
    if k==0: return ts[0]
    h=len(ts)//2; c='x' if k%2 else 'y'
    return f'{c}({join(ts[:h],k-1)})({join(ts[h:],k-1)})'
