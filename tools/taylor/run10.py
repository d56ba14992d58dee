import sys
nm,K=sys.argv[1],int(sys.argv[2]); sys.argv=['x','ph','4']
import eng10
from eng10 import *
from multiprocessing import Pool
import time,json,os

par=Par(*map(int,os.environ.get('PAR','64,192,12,9').split(',')))
R={'st3h':('h','0.749691','0.999994',['0','0.3','0.5','0.8','1.2','1.7','2.5']),
   'st3m':('h','0.99999','1.0017',['0','0.7455']),'st3n':('h','0.99999','1.0017',['1.242','2.5']),
   'st3q':('q','1.001696','1.038428',['1','1.2','1.7','2.5']),'st3v':('v','1.001696','1.038428',['0','0.3','0.5','0.8','1'])}
eng10.KIND,TL,TH,cuts=R[nm][0],Fr(R[nm][1]),Fr(R[nm][2]),[Fr(x) for x in R[nm][3]]
D=10**6
def root(a,b):
    lo,hi=int(a*D),int(b*D); tl,th=int(TL*D),int(TH*D)
    return (hi-lo,th-tl,hi+lo,2*D,th+tl,2*D)
def job(j):
    i,box=j; setP(par); t=time.time()
    try: r=search9(leaf10,*box,dmax=int(os.environ.get('DM','22')))
    except SystemExit as e: r=('?',10**6); print('FAIL',e,flush=True)
    print(nm,i,[round(x,4) for x in [(box[2]-box[0])/box[3],(box[2]+box[0])/box[3],(box[4]-box[1])/box[5],(box[4]+box[1])/box[5]]],r[1],round(time.time()-t,1),flush=True)
    return r
if __name__=='__main__':
    n=len(cuts)-1
    jobs=[(i,bx) for i in range(n) for bx in pre(root(cuts[i],cuts[i+1]),K)]
    with Pool(int(os.environ.get("NP","2"))) as po: rs=po.map(job,jobs,chunksize=1)
    out=[]; m=1<<K
    for i in range(n):
        tr=join([x[0] for x in rs[i*m:(i+1)*m]],K)
        out.append(dict(root=root(cuts[i],cuts[i+1]),tree=tr,n=sum(tr.count(c) for c in 'abcd'),s=0,i=i))
        print('band',i,out[-1]['n'],tr.count('d'))
    print('total',sum(x['n'] for x in out))
    json.dump(out,open('/tmp/tm/'+nm+'_10.json','w'))
