"""the second loop of hs in region 4, around 16.529 MPa"""
from eng6 import *
r3=tab('R3.lean','r3_IJn')
K3=Tb(r3,ey={J-1 for I,J,c in r3 if J})
D3i=grp([(I,J,c*I) for I,J,c in r3],K3.hx,K3.hy)      # delta*phi_delta - n1
D3t=grp([(I,max(J-1,0),c*J) for I,J,c in r3],K3.hx,K3.hy)
N1=Fr('1.0658070028513')
V3c=Tb(tab('R3vSub.lean','pT2v_3c_IJn')); V3t=Tb(tab('R3vSub.lean','pT2v_3t_IJn'))
V3a=Tb(tab('R3.lean','ph2v_3a_reg3_IJn')); V3b=Tb(tab('R3.lean','ph2v_3b_reg3_IJn'))
def backn(T,x,y):
    """any signs of exponents"""
    xs=[inv(4,x),x,tone()] if T.sx==3 else [x,tone()]
    ys=[inv(4,y),y,tone()] if T.sy==3 else [y,tone()]
    return poly(pows(T.chx,xs),pows(T.chy,ys),T.tb)
def v3c(p,ti):
    X=refresh(lin([p,tone()],[(0,Fr(1,40)),(1,-Fr(259,1000))])); Y=refresh(lin([ti,tone()],[(0,Fr(540,690)),(1,-Fr(903,1000))]))
    return refresh(lin([backn(V3c,X,Y)],[(0,Fr(22,10000))]))
def v3t(p,ti):
    X=refresh(lin([p,tone()],[(0,Fr(1,20)),(1,-Fr(803,1000))])); Y=refresh(lin([ti,tone()],[(0,Fr(540,650)),(1,-Fr(102,100))]))
    return refresh(lin([backn(V3t,X,Y)],[(0,Fr(88,10000))]))
def v3a(p,h):
    X=refresh(lin([p,tone()],[(0,Fr(1,100)),(1,Fr(128,1000))])); Y=refresh(lin([h,tone()],[(0,Fr(1,2100)),(1,-Fr(727,1000))]))
    return refresh(lin([backn(V3a,X,Y)],[(0,Fr(28,10000))]))
def v3b(p,h):
    X=refresh(lin([p,tone()],[(0,Fr(1,100)),(1,Fr(661,10000))])); Y=refresh(lin([h,tone()],[(0,Fr(1,2800)),(1,-Fr(720,1000))]))
    return refresh(lin([backn(V3b,X,Y)],[(0,Fr(88,10000))]))
TCt=Fr(647096,540000)
def st3(v,tau):
    d=inv(4,refresh(lin([v],[(0,322)]))); t=refresh(lin([tau],[(0,TCt)]))
    return d,t,pows(K3.chx,[d,tone()]),pows(K3.chy,[t,tone()])
def h3(v,tau,ti):
    d,t,xs,ys=st3(v,tau)
    a=poly(xs,ys,D3t); c=poly(xs,ys,D3i); m=mul(t,a)
    e=refresh(lin([m,c,tone()],[(0,1),(1,1),(2,N1)]))
    return refresh(lin([mul(e,ti)],[(0,Rg*540)]))
def s3(lp,v,tau):
    d,t,xs,ys=st3(v,tau)
    a=poly(xs,ys,D3t); c=poly(xs,ys,K3.tb); m=mul(t,a); l=logT(*lp,d)
    return refresh(lin([m,c,l],[(0,Rg),(1,-Rg),(2,-Rg*N1)]))
def hs1(p,tau):
    t=refresh(lin([tau],[(0,Fr(1386,540))])); xs,ys=st1(p,t); g=poly(xs,ys,G1); f=poly(xs,ys,Z1)
    return refresh(lin([g],[(0,Rg*1386)])),refresh(lin([mul(t,g),f],[(0,Rg),(1,-Rg)]))
def hs2(lp,b,p,tau):
    g,s=s2(lp,b,p,tau); return refresh(lin([g],[(0,Rg*540)])),refresh(lin([s],[(0,Rg)]))
def mix(h,hL,hv,sL,sv):
    n=refresh(lin([tone(),hL],[(0,h),(1,-1)])); d=refresh(lin([hv,hL],[(0,1),(1,-1)]))
    x=mul(n,inv(4,d)); e=refresh(lin([sv,sL],[(0,1),(1,-1)]))
    return refresh(lin([mul(x,e),sL],[(0,1),(1,1)]))
def S12(lp,h,b,tau):
    p=p4(b); hL,sL=hs1(p,tau); hv,sv=hs2(lp,b,p,tau); return mix(h,hL,hv,sL,sv)
LL=(Fr(178,100),Fr(1,20),10000); LV=(Fr(353,1000),Fr(1,20),10000)
def S33(h,b,tau,chk=True):
    p=p4(b); ti=inv(4,tau)
    hL=h3(v3c(p,ti),tau,ti); hv=h3(v3t(p,ti),tau,ti)
    sL=s3(LL,v3a(p,hL),tau); sv=s3(LV,v3b(p,hv),tau)
    return mix(h,hL,hv,sL,sv)
def S13(lp,h,b,tau):
    p=p4(b); hL,_=hs1(p,tau); hv,_=hs2(lp,b,p,tau)
    sL=s3(LL,v3a(p,hL),tau); sv=s3(LV,v3b(p,hv),tau)
    return mix(h,hL,hv,sL,sv)
def ev(t):
    """float center and spread"""
    d=dig(t); c=d.get((0,0),0); return float(c),sum(abs(x) for k,x in d.items() if k!=(0,0)),float(Fr(t[2],eng.P.one))
if __name__=='__main__':
    setP(P2)
    Ps=Fr('16.5291642526'); 
    h=Fr(1680)
    bs=float(Ps)**.25; print(bs)
    def show(*box):
        b,s=base(*box)
        D=box[3]; lo=(box[2]-box[0])/D; hi=(box[2]+box[0])/D
        m=(lo+hi)/2; sl=(tausat(hi)-tausat(lo))/(hi-lo); 
        A=q6([Fr(round((tausat(m)-sl*m)*10**12)-5,10**12),Fr(round(sl*10**12),10**12)]); B=list(A); B[0]+=Fr(10,10**12)
        tau=fanT(A,B,b,s)
        for n,f in (('12',lambda:S12(lpar(1.8,2.0163),h,b,tau)),('33',lambda:S33(h,b,tau)),('13',lambda:S13(lpar(1.8,2.0163),h,b,tau))):
            try: print(n,ev(f()))
            except Fail as e: print(n,'Fail',e)
    show(2,1,2*2016328,2*10**6,1,2)
