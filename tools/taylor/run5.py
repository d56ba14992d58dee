from fans2 import *
from multiprocessing import Pool
import time
which=sys.argv[1]; K=int(sys.argv[2]) if len(sys.argv)>2 else 0
par,body,skips,fans=cfg[which]
if os.environ.get('PAR'): par=Par(*map(int,os.environ['PAR'].split(',')))
import eng2
SCL=[eng2.scfan(f) for f in fans]
if len(fans)>6:
    SCL=[tuple(max(SCL[k][t] for k in range(len(fans)) if fans[k][2:]==f[2:]) for t in (0,1)) for f in fans]
def job(j):
    i,box=j; setP(par); t=time.time(); A,B,a,b=fans[i]; eng2.setscale(*SCL[i])
    try: r=search4(leafF(A,B,body),[(c,leafF(A,B,k)) for c,k in skips],*box,dmax=18)
    except SystemExit as e: r=('?',10**6,0); print('FAIL',e,flush=True)
    print(which,i,[(box[2]-box[0])/box[3],(box[2]+box[0])/box[3],(box[4]-1)/box[5],(box[4]+1)/box[5]],r[1],r[2],round(time.time()-t,1),flush=True)
    return r
if __name__=='__main__':
    jobs=[(i,bx) for i,f in enumerate(fans) for bx in pre(root5(f[2],f[3]),K)]
    with Pool(int(os.environ.get("NP","4"))) as po: rs=po.map(job,jobs,chunksize=1)
    out=[]; m=1<<K
    for i,f in enumerate(fans):
        r=rs[i*m:(i+1)*m]
        out.append(dict(root=root5(f[2],f[3]),tree=join([x[0] for x in r],K),n=sum(x[1] for x in r),s=sum(x[2] for x in r)))
        print('fan',i,f[2],f[3],out[-1]['n'],out[-1]['s'])
    print('total',sum(x['n'] for x in out),sum(x['s'] for x in out))
    json.dump(out,open(f'/tmp/tm/{which}_5.json','w'))
