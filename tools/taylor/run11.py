import sys
sys.argv=['x','ph','4']
import eng11; from eng11 import *
from multiprocessing import Pool
import time,json
par=Par(*map(int,os.environ.get('PAR','64,192,12,9').split(',')))
D=10**6
CUTS=['0','0.3','0.5','0.8','1.2','1.7','2.5']
def root(a,b,tl='0.749691',th='1.038350'):
    a,b,tl,th=[int(Fr(x)*D) for x in (a,b,tl,th)]
    return (b-a,th-tl,b+a,2*D,th+tl,2*D)
def lp3(i):
    if i==0: return None
    return lpar(float(CUTS[i]),float(CUTS[i+1]))
def job(j):
    bi,i,box=j; setP(par); t=time.time()
    try: r=search9(leaf11(bi,lp3(i)),*box,dmax=22)
    except SystemExit as e: r=('?',10**6); print('FAIL',e,flush=True)
    print(bi,i,r[1],r[0].count('b'),r[0].count('c'),round(time.time()-t,1),flush=True)
    return r
if __name__=='__main__':
    # 1-D
    setP(par)
    SK=[(28,Fr(3,8)),(54,Fr(5,16)),(54,Fr(5,16)) if 0 else (101,Fr(7,32)),(101,Fr(7,32))]
    o1=[]
    for bi,(lo,hi,_,_) in enumerate(BANDS):
        a,b=int(Fr(str(lo))*1000),int(Fr(str(hi))*1000)
        bx=(b-a,0,b+a,2000,27720,12463)
        assert Fr(bx[4],bx[5])==Fr(1386)/Fr('623.15'),(bx,)
        setP(Par(128,448,12,9)); r=search9(leaf13(bi),*bx,dmax=10); print('13',bi,r,flush=True)
        ta,tb=int(TB(lo)/540*10**6)-1,int(TB(hi)/540*10**6)+2
        bx2=(tb-ta,0,tb+ta,2*10**6,1,1)
        setP(par); eng2.setscale(*map(Fr,SK[bi]))
        lp=lpar(lo,hi)
        r2=search9(leaf32(bi,lp),*bx2,dmax=10); print('32',bi,r2,lp,flush=True)
        o1.append((bx,r[0],bx2,r2[0],lp))
    pickle.dump(o1,open('/tmp/tm/o11.pk','wb'))
    jobs=[(bi,i,root(CUTS[i],CUTS[i+1])) for bi in range(len(BANDS)) for i in range(6)]
    with Pool(int(os.environ.get('NP','3'))) as po: rs=po.map(job,jobs,chunksize=1)
    json.dump([dict(b=j[0],i=j[1],root=j[2],tree=r[0],n=r[1]) for j,r in zip(jobs,rs)],open('/tmp/tm/rec11.json','w'))
    print('total',sum(r[1] for r in rs))
