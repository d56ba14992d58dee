"""recognition of region 3 from (p,h) and (p,s): bounds of the enthalpy and entropy in bands of pressure"""
import os,pickle
from eng9 import *
import eng9,eng2
from fit56 import cheb,err,ev as evp,h1,h2,s1,s2 as s2f,TB
n3,n4,n5=Fr('0.0010192970039326'),Fr('572.54459862746'),Fr('13.918839778870')
BANDS=[(22.064,30,21.9,30.5),(30,45,29.5,46),(45,70,44,71.5),(70,100,68.5,100.5)]
if os.environ.get('SUB'): BANDS=[(16.5,18.5,16.4,18.7),(18.5,22.064,18.4,22.2)]
FS={'H13':(lambda p:h1(p,623.15),1,2e-4),'H32':(lambda p:h2(p,TB(p)),-1,2e-4),'S13':(lambda p:s1(p,623.15),1,3e-7),'S32':(lambda p:s2f(p,TB(p)),-1,3e-7)}
def mk(i):
    lo,hi,a,b=BANDS[i]; r={}
    for k,(f,sg,sl) in FS.items():
        c=cheb(f,a,b,5); e=err(f,c,lo,hi)
        c=[Fr(round(x*10**10),10**10) for x in c]
        c[0]+=Fr(round(((e[1]+sl) if sg>0 else (e[0]-sl))*10**10),10**10)
        r[k]=c
    return r
Q=[mk(i) for i in range(len(BANDS))]
M=Fr(5,100)
LAM=[Fr(-1)]*0
def fitq(xs,ys):
    # least squares quadratic
    import itertools
    A=[[sum(x**(i+j) for x in xs) for j in range(3)]+[sum(y*x**i for x,y in zip(xs,ys))] for i in range(3)]
    for i in range(3):
        A[i]=[z/A[i][i] for z in A[i]]
        for r in range(3):
            if r!=i: m=A[r][i]; A[r]=[z-m*w for z,w in zip(A[r],A[i])]
    return [Fr(round(A[i][3]*10**6),10**6) for i in range(3)]
_x=[.4318,.4889,.5480,.6052,.6760,.7540,.8208,.9279,.9715,1.0451,1.1055,1.2017]
_l=[62.70,53.05,46.41,41.06,35.10,29.17,24.64,18.52,16.42,13.40,11.41,8.876]
_m=[.09472,.07839,.06725,.05849,.04900,.03982,.03297,.02394,.02091,.01661,.01380,.01028]
LH=fitq(_x,_l); LS=fitq(_x,_m)
def bd(w):
    d=dig(w); return sum(abs(c) for (i,j),c in d.items() if i),sum(abs(c) for (i,j),c in d.items() if j),0,0
def pB(ti,m=M):
    # n5+n3 (Tc ti + m - n4)^2
    c=m-n4; t2=mul(ti,ti)
    return lin([t2,ti,tone()],[(0,n3*Tc*Tc),(1,2*n3*Tc*c),(2,n5+n3*c*c)])
def leaf11(bi,lp):
    lo,hi=Fr(str(BANDS[bi][0])),Fr(str(BANDS[bi][1])); q=Q[bi]
    def f(*box):
        d,t=base(*box); xs,ys,c,ti,p=stt(d,t)
        if posv(lin([tone(),p],[(0,lo),(1,-1)])): return 'a',None
        if posv(lin([tone(),p],[(0,-hi),(1,1)])): return 'a',None
        b=pB(ti); g=refresh(lin([p,b],[(0,1),(1,-1)]))
        if posv(lin([g],[(0,-1)])): return 'a',None
        if lp is None: return None,bd(p)
        h,_=hw(d,t,xs,ys,c,ti,p); s,_=sw(lp,d,t,xs,ys)
        x=lin([p],[(0,Fr(1,100))])
        for k,z in (('H13',h),('S13',s)):
            w=lin([z,polyB(q[k],x)],[(0,1),(1,-1)])
            if not posv(w): return None,bd(w)
        ws=[lin([polyB(q[k],x),z],[(0,1),(1,-1)]) for k,z in (('H32',h),('S32',s))]
        if all(posv(w) for w in ws): return 'b',None
        d2=mul(d,d); r=None
        for w,L in zip(ws,(LH,LS)):
            l=lin([d2,d,tone()],[(0,L[2]),(1,L[1]),(2,L[0])]); w=lin([w,mul(l,g)],[(0,1),(1,-1)])
            if not posv(w): return None,bd(w)
        return 'c',None
    return f
# one-dimensional checks
def leaf13(bi):
    q=Q[bi]
    def f(*box):
        p,tau=base(*box); xs,ys=st1(p,tau); g=poly(xs,ys,G1); f=poly(xs,ys,Z1)
        h=lin([g],[(0,Rg*1386)]); s=lin([mul(tau,g),f],[(0,Rg),(1,-Rg)]); x=lin([p],[(0,Fr(1,100))])
        for k,z in (('H13',h),('S13',s)):
            w=lin([z,polyB(q[k],x)],[(0,-1),(1,1)])
            if not posv(w): return None,(1,0,0,0)
        return 'a',None
    return f
def leaf32(bi,lp):
    q=Q[bi]
    def f(*box):
        x,_=base(*box); ti=inv(4,x); x2=mul(x,x)   # x=T/540
        p=refresh(lin([x2,x,tone()],[(0,n3*540*540),(1,-2*n3*n4*540),(2,n5+n3*n4*n4)]))
        tau=ti; tt=inv(4,tau); xs,ys=eng2.xy2(p,tau); ts=pows(K0s.chy,[tt,tau,tone()])
        g0=lin(ts,K0t); gr=poly(xs,ys,G2r); g=refresh(lin([g0,gr],[(0,1),(1,1)]))
        f0=lin(ts,K00); fr=poly(xs,ys,K2.tb); l=logT(*lp,p); m=mul(tau,g)
        h=lin([g],[(0,Rg*540)]); s=lin([m,f0,fr,l],[(0,Rg),(1,-Rg),(2,-Rg),(3,-Rg)])
        y=lin([p],[(0,Fr(1,100))])
        for k,z in (('H32',h),('S32',s)):
            w=lin([z,polyB(q[k],y)],[(0,1),(1,-1)])
            if not posv(w): return None,(1,0,0,0)
        return 'a',None
    return f
