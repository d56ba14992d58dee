"""region 3 stability: 2 phi_d + d phi_dd > 0 and -phi_tt > 0"""
from eng9 import *
import eng9
r3raw=K3.raw
D3s=grp([(I,J,c*I*(I+1)) for I,J,c in r3raw],K3.hx,K3.hy)
D3c=grp([(I,J,-c*J*(J-1)) for I,J,c in r3raw],K3.hx,K3.hy)
D3b=grp([(I,J,c*I*(1-J)) for I,J,c in r3raw],K3.hx,K3.hy)
KIND='h'  # h (hot, also mid) | q | v
def kO(d,t):
    xs,ys,c,ti,p=stt(d,t)
    t2=mul(ti,ti)
    if KIND=='q':
        if posv(lin([p,tone()],[(0,1),(1,-100)])): return True
    elif posv(lin([t2,ti,tone(),p],[(0,B23[2]*Tc*Tc),(1,B23[1]*Tc),(2,B23[0]),(3,-1)])): return True
    sg=1 if KIND=='q' else -1
    if posv(lin([t2,ti,tone(),d],[(0,LN[0]),(1,LN[1]),(2,LN[2]+sg),(3,-sg)])): return True
    q=QL if KIND=='q' else QH
    b=lin([t2,ti,tone()],[(0,q[0]),(1,q[1]),(2,q[2])]); b=mul(b,b); b=mul(b,b)
    return posv(lin([b,p],[(0,sg),(1,-sg)]))
def inf(e):
    d=dig(e)
    return (sum(abs(c) for (i,j),c in d.items() if i),sum(abs(c) for (i,j),c in d.items() if j),0,0)
def leaf10(*box):
    d,t=base(*box)
    xs=pows(K3.chx,[d,tone()]); ys=pows(K3.chy,[t,tone()])
    s=lin([poly(xs,ys,D3s),tone()],[(0,1),(1,N1)])
    c=poly(xs,ys,D3c); b_=lin([poly(xs,ys,D3b),tone()],[(0,1),(1,N1)])
    l=[posv(s),posv(c),posv(b_)]
    if all(l): return 'a',None
    if KIND=='h':
        if l[0] and l[1]:
            p=stt(d,t)[4]
            if posv(lin([p,tone()],[(0,1),(1,-100)])): return 'b',None
    elif kO(d,t): return 'd',None
    return None,inf([s,c,b_][l.index(False)])
