import sys,json,os
w=sys.argv[1]; sys.argv=['x',w]
import importlib
run=importlib.import_module('run6' if w[1]=='s' else 'run5')
from gen4 import parse
import eng2
from eng6 import *
import time
par,body,skips,fans=run.par,run.body,run.skips,run.fans
roots=json.load(open(f'/tmp/tm/{w}_{6 if w[1]=="s" else 5}.json'))
def leaves(t,box):
    xr,yr,xc,D,yc,E=box
    if len(t)==3 and t[0] in 'xy':
        if t[0]=='x': a,b=(xr,yr,2*xc-xr,2*D,yc,E),(xr,yr,2*xc+xr,2*D,yc,E)
        else: a,b=(xr,yr,xc,D,2*yc-yr,2*E),(xr,yr,xc,D,2*yc+yr,2*E)
        yield from leaves(t[1],a); yield from leaves(t[2],b)
    else: yield t[0] if not isinstance(t,str) else t,box
L=[]
for n,r in enumerate(roots):
    i=r.get('fan',n)
    for t,b in leaves(parse(r['tree']),tuple(r['root'])): L.append((i,t,b))
import random; random.seed(1)
S=random.sample(L,int(os.environ.get('N','60')))
for ps in sys.stdin.read().split():
    pr=Par(*map(int,ps.split(','))); setP(pr); bad=0; t0=time.time()
    for i,t,b in S:
        A,B,a,bb=fans[i]; eng2.setscale(*run.SCL[i])
        if w[1]=='s':
            lp=lpar(a,bb); f=leafF(A,B,body(lp)) if t=='a' else leafF(A,B,lambda x,y,k=dict(skips)[t]:k(lp,x,y))
        else: f=leafF(A,B,body) if t=='a' else leafF(A,B,dict(skips)[t])
        try: ok=f(*b); ok=ok[0] if isinstance(ok,tuple) else ok
        except Exception as e: ok=False
        bad+=not ok
    print(w,ps,'bad',bad,'of',len(S),round(time.time()-t0,1),flush=True)
