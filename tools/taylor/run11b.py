import sys
sys.argv=['x','ph','4']
import eng11b; from eng11b import *
from multiprocessing import Pool
import time,json
par=Par(*map(int,os.environ.get('PAR','64,192,12,9').split(',')))
D=10**6
FAM={'q':(['1','1.2','1.7','2.5'],'1','1.03835'),'v':(['0','0.3','0.5','0.8','1'],'1','1.03835'),'w':(['0','0.3','0.5','0.8','1.2','1.7','2.5'],'0.976','1')}
LCUT={'1':('0.8','1.2'),'0.8':('0.8','1.2')}
def root(a,b,tl,th):
    a,b,tl,th=[int(Fr(x)*D) for x in (a,b,tl,th)]
    return (b-a,th-tl,b+a,2*D,th+tl,2*D)
def lp3(c,i):
    if c[i]=='0': return None
    a,b=LCUT.get(c[i],(c[i],c[i+1])); return lpar(float(a),float(b))
def job(j):
    fam,bi,i,box=j; setP(par); t=time.time()
    try: r=search9(leafS(fam,bi,lp3(FAM[fam][0],i)),*box,dmax=24)
    except SystemExit as e: r=('?',10**6); print('FAIL',fam,bi,i,e,flush=True)
    print(fam,bi,i,r[1],[r[0].count(k) for k in 'abcd'],round(time.time()-t,1),flush=True)
    return r
if __name__=='__main__':
    setP(par)
    o1=[]
    for bi,(lo,hi,_,_) in enumerate(BANDS):
        a,b=int(Fr(str(lo))*1000),int(Fr(str(hi))*1000)
        bx=(b-a,0,b+a,2000,27720,12463)
        setP(Par(128,448,12,9)); r=search9(leaf13(bi),*bx,dmax=10); print('13',bi,r,flush=True)
        ta,tb=int(TB(lo)/540*10**6)-1,int(TB(hi)/540*10**6)+2
        bx2=(tb-ta,0,tb+ta,2*10**6,1,1)
        setP(par); eng2.setscale(Fr(28),Fr(3,8))
        lp=lpar(lo,hi)
        r2=search9(leaf32(bi,lp),*bx2,dmax=10); print('32',bi,r2,lp,flush=True)
        o1.append((bx,r[0],bx2,r2[0],lp))
    pickle.dump(o1,open('/tmp/tm/o11b.pk','wb'))
    jobs=[(f,bi,i,root(c[i],c[i+1],tl,th)) for f,(c,tl,th) in FAM.items() for bi in range(2) for i in range(len(c)-1)]
    with Pool(int(os.environ.get('NP','3'))) as po: rs=po.map(job,jobs,chunksize=1)
    json.dump([dict(f=j[0],b=j[1],i=j[2],root=j[3],tree=r[0],n=r[1]) for j,r in zip(jobs,rs)],open('/tmp/tm/rec11b.json','w'))
    print('total',sum(r[1] for r in rs))
