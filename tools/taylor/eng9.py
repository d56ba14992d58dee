import os
"""region 3: coordinates delta=rho/322, tau=647.096/T; mirrors Comp/Region3.lean"""
from eng8 import *
Tc=Fr(647096,1000); RTc=Rg*Tc; PC=RTc*322/1000
H3AB=[Fr('2014.64004206875'),Fr('3.74696550136983'),-Fr('0.0219921901054187'),Fr('0.0000875131686009950')]
T3a=Tb(tab('R3.lean','ph2T_3a_reg3_IJn')); T3b=Tb(tab('R3.lean','ph2T_3b_reg3_IJn'))
sT3a=Tb(tab('R3.lean','ps2T_3a_reg3_IJn')); sT3b=Tb(tab('R3.lean','ps2T_3b_reg3_IJn'))
sV3a=Tb(tab('R3.lean','ps2v_3a_reg3_IJn')); sV3b=Tb(tab('R3.lean','ps2v_3b_reg3_IJn'))
KY=Fr(4)
def sc(T,k):
    T.tb=grp([(I,J,c/k**J) for I,J,c in T.raw],T.hx,T.hy); return T
for T_ in (sT3a,sT3b,sV3a,sV3b): sc(T_,KY)
TOLT=Fr(os.environ.get('TT','1/40')); TOLV=Fr(os.environ.get('TV','1/10000'))
def aff(t,a,c): return refresh(lin([t,tone()],[(0,a),(1,c)]))
def stt(d,t):
    xs=pows(K3.chx,[d,tone()]); ys=pows(K3.chy,[t,tone()])
    c=refresh(lin([poly(xs,ys,D3i),tone()],[(0,1),(1,N1)])); ti=inv(4,t)
    p=refresh(lin([mul(mul(d,ti),c)],[(0,PC)]))
    return xs,ys,c,ti,p
LOW=False
MODE=''   # '' | 'q' liquid | 'v' vapour, below the critical temperature
QH=(Fr('2.675'),-Fr('1.1753'),Fr('0.66763')); QL=(Fr('2.675'),-Fr('1.1753'),Fr('0.66744'))
# (16u-u^2/3)/322 with u=Tc(1-x), as polynomial in x
LN=(-Tc*Tc/3/322, (-16*Tc+2*Tc*Tc/3)/322, (16*Tc-Tc*Tc/3)/322)
def kOut(p,ti,d=None):
    if MODE:
        if MODE=='q' and posv(lin([p,tone()],[(0,1),(1,-Fr(22064,1000))])): return True
        t2=mul(ti,ti)
        if MODE=='v' and posv(lin([t2,ti,tone(),p],[(0,B23[2]*Tc*Tc),(1,B23[1]*Tc),(2,B23[0]),(3,-1)])): return True
        sg=1 if MODE=='q' else -1
        # liquid: line - d > 0 ; vapour: d - (1 - ln) > 0
        if posv(lin([t2,ti,tone(),d],[(0,LN[0]),(1,LN[1]),(2,LN[2]+sg),(3,-sg)])): return True
        q=QL if MODE=='q' else QH
        b=lin([t2,ti,tone()],[(0,q[0]),(1,q[1]),(2,q[2])]); b=mul(b,b); b=mul(b,b)
        return posv(lin([b,p],[(0,sg),(1,-sg)]))
    if posv(lin([p,tone()],[(0,1),(1,-100)])): return True
    t2=mul(ti,ti)
    l=[(0,0),(1,0),(2,Fr(22064,1000)),(3,-1)] if LOW else [(0,B23[2]*Tc*Tc),(1,B23[1]*Tc),(2,B23[0]),(3,-1)]
    return posv(lin([t2,ti,tone(),p],l))
def clV(T,x,y,fac,d):
    e=lin([mul(refresh(backn(T,x,y)),d),tone()],[(0,fac),(1,-1)])
    return ckb(e,TOLV.numerator*eng.P.one,TOLV.denominator)
def clT(T,x,y,fac,ti):
    e=lin([refresh(backn(T,x,y)),ti],[(0,fac),(1,-Tc)])
    return ckb(e,TOLT.numerator*eng.P.one,TOLT.denominator)
def phA(d,ti,p,h):
    return clT(T3a,aff(p,Fr(1,100),Fr(240,1000)),aff(h,Fr(1,2300),-Fr(615,1000)),760,ti) or \
      clV(V3a,aff(p,Fr(1,100),Fr(128,1000)),aff(h,Fr(1,2100),-Fr(727,1000)),Fr(28,10000)*322,d)
def phB(d,ti,p,h):
    return clT(T3b,aff(p,Fr(1,100),Fr(298,1000)),aff(h,Fr(1,2800),-Fr(720,1000)),860,ti) or \
      clV(V3b,aff(p,Fr(1,100),Fr(661,10000)),aff(h,Fr(1,2800),-Fr(720,1000)),Fr(88,10000)*322,d)
def psA(d,ti,p,s):
    return clT(sT3a,aff(p,Fr(1,100),Fr(240,1000)),aff(s,KY*Fr(10,44),-KY*Fr(703,1000)),760,ti) or \
      clV(sV3a,aff(p,Fr(1,100),Fr(187,1000)),aff(s,KY*Fr(10,44),-KY*Fr(755,1000)),Fr(28,10000)*322,d)
def psB(d,ti,p,s):
    return clT(sT3b,aff(p,Fr(1,100),Fr(760,1000)),aff(s,KY*Fr(10,53),-KY*Fr(818,1000)),860,ti) or \
      clV(sV3b,aff(p,Fr(1,100),Fr(298,1000)),aff(s,KY*Fr(10,53),-KY*Fr(816,1000)),Fr(88,10000)*322,d)
def hw(d,t,xs,ys,c,ti,p):
    a=poly(xs,ys,D3t); e=refresh(lin([mul(t,a),c],[(0,1),(1,1)])); h=refresh(lin([mul(e,ti)],[(0,RTc)]))
    p2=mul(p,p); p3=mul(p2,p); return h,refresh(lin([h,tone(),p,p2,p3],[(0,1),(1,-H3AB[0]),(2,-H3AB[1]),(3,-H3AB[2]),(4,-H3AB[3])]))
SC3=Fr('4.41202148223476')
def sw(lp,d,t,xs,ys):
    if lp is None: raise Fail
    a=poly(xs,ys,D3t); f=poly(xs,ys,K3.tb); l=logT(*lp,d)
    s=refresh(lin([mul(t,a),f,l],[(0,Rg),(1,-Rg),(2,-Rg*N1)]))
    return s,refresh(lin([s,tone()],[(0,1),(1,-SC3)]))
STAT={}
def st(k): STAT[k]=STAT.get(k,0)+1
def leaf(which,lp,*box):
    """returns (kind or None, info)"""
    d,t=base(*box)
    xs,ys,c,ti,p=stt(d,t)
    if kOut(p,ti,d): st('d'); return 'd',None
    if which=='ph':
        z,w=hw(d,t,xs,ys,c,ti,p); A,B=phA,phB
    else:
        z,w=sw(lp,d,t,xs,ys); A,B=psA,psB
    if posv(neg(w)):
        i=A(d,ti,p,z); k='a'
    elif posv(w):
        i=B(d,ti,p,z); k='b'
    else:
        i=A(d,ti,p,z) or B(d,ti,p,z); k='c'
    if i: return None,i
    st(k); return k,None
def search9(leaf,xr,yr,xc,D,yc,E,d=0,dmax=18):
    try: ok,info=leaf(xr,yr,xc,D,yc,E)
    except Fail: ok,info=None,(xr/D/max(xc/D,1e-9),yr/E/max(yc/E,1e-9)*2,0,0)
    if ok: return ok,1
    if d>=dmax: raise SystemExit(('deep',xc/D,xr/D,yc/E,yr/E,info))
    if info[0]>info[1]:
        a,n1=search9(leaf,xr,yr,2*xc-xr,2*D,yc,E,d+1,dmax); b,n2=search9(leaf,xr,yr,2*xc+xr,2*D,yc,E,d+1,dmax)
        return f'x({a})({b})',n1+n2
    a,n1=search9(leaf,xr,yr,xc,D,2*yc-yr,2*E,d+1,dmax); b,n2=search9(leaf,xr,yr,xc,D,2*yc+yr,2*E,d+1,dmax)
    return f'y({a})({b})',n1+n2
