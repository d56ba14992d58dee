from fans2 import *
def leafQ(q,body):
    def f(*box):
        b,s=base(*box); return body(b,polyB(q,b))
    return f
def kS(b,tau):
    if not posv(lin([b,tone()],[(0,1),(1,-Fr(157,1000))])): return False
    if not posv(lin([b,tone()],[(0,-1),(1,Fr(202,100))])): return False
    if not posv(lin([tau,tone()],[(0,Fr(6233,10)),(1,-540)])): return False
    bb=refresh(lin([b,tone()],[(0,1),(1,-DL)])); ti=inv(4,tau)
    return posv(neg(satQ(540,bb,tau,ti)))
def cS(b,tau):
    if not posv(lin([tau,tone()],[(0,1),(1,-Fr(54000,62315))])): return False
    if not posv(lin([tau,tone()],[(0,-1),(1,Fr(540,273))])): return False
    return kS(b,tau)
def cB(b,tau):
    if not posv(lin([tau,tone()],[(0,1),(1,-Fr(54000,86315))])): return False
    return K_B(b,tau)
def cT(b,tau):
    if not posv(lin([tau,tone()],[(0,-1),(1,Fr(540,273))])): return False
    return kS(b,tau)
def srch(leaf,xr,yr,xc,D,yc,E,d=0):
    if leaf(xr,yr,xc,D,yc,E): return 'a',1
    assert d<12,(xc/D,xr/D)
    a,n=srch(leaf,xr,yr,2*xc-xr,2*D,yc,E,d+1); b,m=srch(leaf,xr,yr,2*xc+xr,2*D,yc,E,d+1)
    return f'x({a})({b})',n+m
if __name__=='__main__':
    setP(P2)
    out={}
    for i,f in enumerate(FA): out[f'A{i}']=('S',)+srch(leafQ(f[1],cS),*root5(f[2],f[3])); print(i,out[f'A{i}'][2],flush=True)
    for i,f in enumerate(FU):
        if i in(0,2,4): k,c='S',cS
        elif i in (6,8,10): k,c='B',cB
        else: continue
        out[f'U{i}']=(k,)+srch(leafQ(f[1],c),*root5(f[2],f[3])); print(i,out[f'U{i}'][2],flush=True)
    out['T']=('T',)+srch(leafQ(FU[6][1],cT),*root5(2.0163,2.01634)); print('T',out['T'][2])
    json.dump(out,open('/tmp/tm/curves.json','w'))
