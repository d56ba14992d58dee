from eng9 import *
from multiprocessing import Pool
import time,json,os
import eng9
eng9.LOW=bool(os.environ.get('LOW'))
eng9.MODE=os.environ.get('MODE','')
if eng9.MODE: eng9.LOW=True
which=sys.argv[1]; K=int(sys.argv[2])
par=Par(*map(int,os.environ.get('PAR','64,192,12,9').split(',')))
cuts=[Fr(x) for x in os.environ.get('CUTS',{'':'0,0.3,0.5,0.8,1.2,1.7,2.5','q':'1,1.2,1.7,2.5','v':'0,0.3,0.5,0.8,1'}[eng9.MODE]).split(',')]
TL,TH=(Fr(1),Fr('1.038428')) if eng9.LOW else (Fr('0.749691'),Fr(1))
def root9(a,b):
    D=10**6; lo,hi=int(a*D),int(b*D); tl,th=int(TL*D),int(TH*D)
    return (hi-lo,th-tl,hi+lo,2*D,th+tl,2*D)
ALL=[0,.3,.5,.8,1.2,1.7,2.5]
def LP(i):
    if not cuts[i]: return None
    if eng9.MODE: k=i+(3 if eng9.MODE=='q' else 0); return lpar(ALL[k],ALL[k+1])
    return lpar(float(cuts[i]),float(cuts[i+1]))
def job(j):
    i,box=j; setP(par); t=time.time(); lp=LP(i); STAT.clear()
    try: r=search9(lambda *bx:leaf(which,lp,*bx),*box,dmax=int(os.environ.get('DM','18')))
    except SystemExit as e: r=('?',10**6); print('FAIL',e,flush=True)
    print(which,i,[round(x,4) for x in [(box[2]-box[0])/box[3],(box[2]+box[0])/box[3],(box[4]-box[1])/box[5],(box[4]+box[1])/box[5]]],r[1],STAT,round(time.time()-t,1),flush=True)
    return r
if __name__=='__main__':
    n=len(cuts)-1
    jobs=[(i,bx) for i in range(n) for bx in pre(root9(cuts[i],cuts[i+1]),K)]
    with Pool(int(os.environ.get("NP","4"))) as po: rs=po.map(job,jobs,chunksize=1)
    out=[]; m=1<<K
    for i in range(n):
        r=rs[i*m:(i+1)*m]
        tr=join([x[0] for x in r],K)
        while True:
            q=tr
            for c in 'xy': tr=tr.replace(c+'(d)(d)','d')
            if q==tr: break
        out.append(dict(root=root9(cuts[i],cuts[i+1]),tree=tr,n=sum(tr.count(c) for c in 'abcd'),s=0,i=i))
        print('band',i,out[-1]['n'],tr.count('d'))
    print('total',sum(x['n'] for x in out))
    json.dump(out,open(os.environ.get('OD','/tmp/tm/')+which+'3'+(eng9.MODE or ('l' if eng9.LOW else ''))+'_9.json','w'))
