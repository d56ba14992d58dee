import os
os.environ['SUB']='1'
from eng11 import *
import eng11
KK=Fr(5,2)
PH=sc2=None
def sc2(T,k):
    T.tb=grp([(I,J,c/k**(I+J)) for I,J,c in T.raw],T.hx,T.hy); return T
PH=sc2(Tb(tab('Bound.lean','h2p_sat_reg3_IJn')),KK); PS=sc2(Tb(tab('Bound.lean','s2p_sat_reg3_IJn')),KK)
def p34(T,z,f,a,b):
    return lin([backn(T,aff(z,KK/f,-KK*a),aff(z,KK/f,-KK*b))],[(0,22)])
MS=Fr(1,10)
def bq(ti,q,m):
    # q(T+m)/Tc ; x=ti+m/Tc
    e=m/Tc; t2=mul(ti,ti)
    b=lin([t2,ti,tone()],[(0,q[0]),(1,q[1]+2*q[0]*e),(2,q[2]+q[1]*e+q[0]*e*e)]); b=mul(b,b); return mul(b,b),t2
LVH=None
def leafS(fam,bi,lp):
    lo,hi=Fr(str(BANDS[bi][0])),Fr(str(BANDS[bi][1])); q=Q[bi]
    def f(*box):
        d,t=base(*box); xs,ys,c,ti,p=stt(d,t)
        if posv(lin([tone(),p],[(0,lo),(1,-1)])): return 'a',None
        if posv(lin([tone(),p],[(0,-hi),(1,1)])): return 'a',None
        sg=1 if fam=='q' else -1
        b4,t2=bq(ti,QL if fam=='q' else QH,MS*sg)
        gs=refresh(lin([p,b4],[(0,sg),(1,-sg)]))   # >=0 inside
        if posv(lin([gs],[(0,-1)])): return 'a',None
        if fam!='w' and posv(lin([t2,ti,tone(),d],[(0,LN[0]),(1,LN[1]),(2,LN[2]+sg),(3,-sg)])): return 'a',None
        g=None
        if fam!='q':
            b=pB(ti); g=refresh(lin([p,b],[(0,1),(1,-1)]))
            if posv(lin([g],[(0,-1)])): return 'a',None
        if lp is None: return None,bd(p)
        h,_=hw(d,t,xs,ys,c,ti,p); s,_=sw(lp,d,t,xs,ys)
        x=lin([p],[(0,Fr(1,100))])
        for k,z in (('H13',h),('S13',s)):
            w=lin([z,polyB(q[k],x)],[(0,1),(1,-1)])
            if not posv(w): return None,bd(w)
        k='b'
        for T,z,fa,a,b in ((PH,h,Fr(2600),Fr(102,100),Fr(608,1000)),(PS,s,Fr(52,10),Fr(103,100),Fr(699,1000))):
            w=lin([p,p34(T,z,fa,a,b)],[(0,1),(1,-1)])
            if not posv(w):
                if gs is None: return None,bd(w)
                w=lin([w,gs],[(0,1),(1,-NU[fam,bi])])
                if not posv(w): return None,bd(w)
                k='d'
        ws=[lin([polyB(q[kk],x),z],[(0,1),(1,-1)]) for kk,z in (('H32',h),('S32',s))]
        if all(posv(w) for w in ws): return k,None
        if k=='d': return None,bd(ws[0])
        if fam=='q': return None,bd(ws[0])
        d2=mul(d,d)
        for w,L in zip(ws,(LH,LS)):
            l=lin([d2,d,tone()],[(0,L[2]),(1,L[1]),(2,L[0])]); w=lin([w,mul(l,g)],[(0,1),(1,-1)])
            if not posv(w): return None,bd(w)
        return 'c',None
    return f
NU={('q',0):Fr(13,10),('q',1):Fr(19,10),('v',0):Fr(22,10),('v',1):Fr(3),('w',0):Fr(22,10),('w',1):Fr(3)}
