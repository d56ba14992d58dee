from eng4 import *
sys.path.insert(0,'/tmp/iv')
from proto import psat
def Tsat(p):
    lo,hi=273.0,648.0
    for _ in range(80):
        m=(lo+hi)/2
        if psat(m)<p: lo=m
        else: hi=m
    return lo
def fit(f,a,b,deg,marg,den=10**9):
    n=deg+1
    xs=[Fr((a+b)/2+(b-a)/2*math.cos(math.pi*(i+.5)/n)) for i in range(n)]
    dd=[Fr(f(float(x))) for x in xs]
    for k in range(1,n):
        for i in range(n-1,k-1,-1): dd[i]=(dd[i]-dd[i-1])/(xs[i]-xs[i-k])
    co=[Fr(0)]*n
    for k in range(n-1,-1,-1):
        co=[ (co[i-1] if i else 0)-xs[k]*co[i] for i in range(n)]; co[0]+=dd[k]
    q=[Fr(round(v*den),den) for v in co]
    xx=[a+(b-a)*i/1000 for i in range(1001)]
    d=[f(x)-sum(float(c)*x**i for i,c in enumerate(q)) for x in xx]
    q[0]+=Fr(math.ceil((max(d)+marg)*den),den)
    print('fit',a,b,'err',max(d)-min(d),flush=True)
    return q
def fan(t0,q):
    def f(xr,yr,xc,D,yc,E):
        b,s=base(xr,yr,xc,D,yc,E)
        w=None
        # Horner for q(b)-t0
        acc=lin([b,tone()],[(0,q[-1]),(1,q[-2]-(t0 if len(q)==2 else 0))])
        for i in range(len(q)-3,-1,-1):
            m=mul(acc,b); acc=lin([m,tone()],[(0,1),(1,q[i]-(t0 if i==0 else 0))])
        acc=refresh(acc)
        m=mul(s,acc)
        return b,refresh(lin([m,tone()],[(0,1),(1,t0)]))
    return f
def close2(th,tau,Ts,tol):
    e=lin([mul(th,tau),tone()],[(0,1),(1,-Ts)])
    ok=posv(lin([tau,e],[(0,tol),(1,-1)])) and posv(lin([tau,e],[(0,tol),(1,1)]))
    if ok: return True,None
    d=dig(e); 
    return False,(sum(abs(c) for (i,j),c in d.items() if i),sum(abs(c) for (i,j),c in d.items() if j),0,0)
def B_ph2a(tol,b,tau):
    p=p4(b); g=gt2(p,tau)
    eta=refresh(lin([g,tone()],[(0,RT/2000),(1,Fr(-21,10))]))
    return close2(back(Ph2a,p,eta),tau,540,tol)
if __name__=='__main__':
    from multiprocessing import Pool
    import time
    setP(P1)
    cuts=[0.1572,0.25,0.4,0.6,0.85,1.1,1.414214]
    t0=Fr(54000,62315)
    jobs=[]
    for a,b in zip(cuts,cuts[1:]):
        q=fit(lambda x:540/Tsat(x**4),a,b,5,2e-5)
        D=10**6
        lo,hi=Fl(round(a*D,3)),Ce(round(b*D,3))
        jobs.append((q,(hi-lo,1,hi+lo,2*D,1,2)))
    def job(j):
        q,box=j; f=fan(t0,q); t=time.time()
        try: r=search4(lambda *x:B_ph2a(Fr(1,100),*f(*x)),[],*box,dmax=14)
        except SystemExit as e: r=('?',e)
        print(box[2]/2/10**6,r[1],time.time()-t,flush=True)
    with Pool(4) as po: po.map(job,jobs,chunksize=1)
