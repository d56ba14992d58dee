from eng7 import *
src5=open('/verif/lean/Verif/Model/R5.lean').read()
import re
def lst5(nm):
    i=src5.index("def "+nm+" "); j=src5.index(":=",i); k=src5.index("]",j)
    return [Fr(x) for x in re.findall(r"-?[\d.]+(?:e[\-+]?\d+)?",src5[j:k])]
from gr1 import tab
r5=tab('R5.lean','r5_IJn'); n5=lst5('r5_no'); J5=[int(x) for x in lst5('r5_Jo')]
K5d=Tb([(I,J,c) for I,J,c in r5],ey={J-1 for I,J,c in r5 if J}|{J-2 for I,J,c in r5 if J>1})
g5=lambda f,d:grp([(I,max(J-d,0),c*f(I,J)) for I,J,c in r5],K5d.hx,K5d.hy)
E5p=g5(lambda I,J:I,0); E5pp=g5(lambda I,J:I*(I-1),0); E5pt=g5(lambda I,J:I*J,1); E5tt=g5(lambda I,J:J*(J-1),2)
K50=Tb([(0,J-2,n*J*(J-1)) for n,J in zip(n5,J5)])
def B_det5(p,tau):
    ti=inv(4,tau)
    xs,ys,ts=pows(K5d.chx,[p,tone()]),pows(K5d.chy,[tau,tone()]),pows(K50.chy,[ti,tau,tone()])
    gp=poly(xs,ys,E5p); gpp=poly(xs,ys,E5pp); gpt=poly(xs,ys,E5pt); gtt=lin([lin(ts,K50.tb[0][1]),poly(xs,ys,E5tt)],[(0,1),(1,1)])
    C=refresh(lin([gpp,tone()],[(0,-1),(1,1)])); A=refresh(lin([mul(mul(tau,tau),gtt)],[(0,-1)]))
    B=refresh(lin([gp,tone(),mul(tau,gpt)],[(0,1),(1,1),(2,-1)]))
    BB=mul(B,B); AC=mul(A,C)
    r=[posv(lin([AC,BB],[(0,1),(1,-1)])),posv(lin([A,BB],[(0,1),(1,-1)])),posv(lin([AC,A,BB],[(0,1),(1,-1),(2,1)])),posv(C)]
    return all(r)
if __name__=='__main__':
    print(r5,n5,J5)
    setP(P1)
    print(srch2(lambda *a:B_det5(*base(*a)),25,24597,25,1,68588,100000))
