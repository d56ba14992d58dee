from eng7 import *
import re,time,json
s=open('/verif/lean/Verif/Lemmas/Tm/Cover1.lean').read()
st=[tuple(map(int,m)) for m in re.findall(r'⟨(\d+), (\d+), (\d+), (\d+), (\d+), (\d+)⟩',s)][:50]
def leaf(*a): return B_det1(*base(*a))
def srx(xr,yr,xc,D,yc,E,d=0):
    try: ok=leaf(xr,yr,xc,D,yc,E)
    except Fail: ok=False
    if ok: return 'l',1
    if d>=14: raise Fail
    a,b=(xr,yr,2*xc-xr,2*D,yc,E),(xr,yr,2*xc+xr,2*D,yc,E)
    x,n=srx(*a,d+1); y,m=srx(*b,d+1)
    return f"x({x})({y})",n+m
setP(P1)
out=[]
for x in st:
    r=srx(*x); out.append(dict(strip=x,tree=r[0],n=r[1])); print(x[4],r[1],flush=True)
print(len(st),sum(o['n'] for o in out)); json.dump(out,open('det1.json','w'))
