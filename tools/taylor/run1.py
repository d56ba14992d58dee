from eng import *
from proto import psat
from multiprocessing import Pool
import json,time
edges=[273.15,283.15,293.15,313.15,333.15,353.15,373.15,393.15,413.15,433.15,453.15,473.15,493.15,513.15,533.15,543.15,553.15,563.15,568.15,573.15,578.15,583.15,585.65,588.15,590.65,593.15,594.65,596.15,599.15,602.15]+[604.15+2*i for i in range(5)]+[613.15+i for i in range(7)]+[619.65+i/2 for i in range(7)]+[622.9,623.15]
edges=[round(x,2) for x in edges]
which=sys.argv[1]; TOL=Fr(25,1000)
f={'ph1':ph1,'ps1':ps1,'hs1':hs1}[which]
def strip(ac):
    a,c=ac
    # tau range outward, E=10^6
    E=10**6; lo=math.floor(1386/c*E); hi=math.ceil(1386/(a-1e-6)*E)
    if (lo+hi)%2: hi+=1
    yc,yr=(lo+hi)//2,(hi-lo)//2
    D=10**6; pl=math.floor((psat(a)*0.9999-2e-7)*D); ph=100*D
    if (pl+ph)%2: pl-=1
    xc,xr=(pl+ph)//2,(ph-pl)//2
    t=time.time()
    try: tr,n=search(lambda *a:f(TOL,*a),xr,yr,xc,D,yc,E,dmax=30)
    except SystemExit as e: print(a,c,'FAIL',e,flush=True); return dict(a=a,c=c,n=10**6)
    print(a,c,n,round(time.time()-t,1),flush=True)
    return dict(a=a,c=c,xr=xr,yr=yr,xc=xc,D=D,yc=yc,E=E,tree=tr,n=n)
if __name__=='__main__':
    with Pool(4) as po: r=po.map(strip,list(zip(edges,edges[1:])),chunksize=1)
    json.dump(r,open(f'/tmp/tm/{which}.json','w'))
    print(which,sum(x['n'] for x in r))
