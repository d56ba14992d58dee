# refine the discarded leaves of the trees written by run9.py until each of them checks
import sys,json
nm=sys.argv[1]; sys.argv=['x','ph','4']
from eng9 import *
import eng9
from gen4 import parse
from multiprocessing import Pool
eng9.LOW=nm[-1] in 'lqv'
eng9.MODE=nm[-1] if nm[-1] in 'qv' else ''
par=Par(64,192,12,9)
def okd(b):
    try:
        d,t=base(*b); xs,ys,c,ti,p=stt(d,t); return kOut(p,ti,d)
    except Fail: return False
def ch(b,c):
    xr,yr,xc,D,yc,E=b
    return ((xr,yr,2*xc-xr,2*D,yc,E),(xr,yr,2*xc+xr,2*D,yc,E)) if c=='x' else ((xr,yr,xc,D,2*yc-yr,2*E),(xr,yr,xc,D,2*yc+yr,2*E))
def best(b,lim):
    """smallest tree with at most lim leaves, or None"""
    if lim<1: return None
    if okd(b): return ('d',1)
    if lim<2: return None
    r=None
    for c in 'xy':
        p,q=ch(b,c)
        L=(r[1]-1 if r else lim)
        a=best(p,L-1)
        if not a: continue
        e=best(q,L-a[1])
        if e: r=((c,a[0],e[0]),a[1]+e[1])
    return r
def tree(b):
    for lim in (1,2,3,4,6,8,12,16,24):
        r=best(b,lim)
        if r: return r[0]
    raise Exception(b)
def fix(t,b):
    if t=='d': return tree(b)
    if isinstance(t,str): return t
    p,q=ch(b,t[0]); return (t[0],fix(t[1],p),fix(t[2],q))
def show(t): return t if isinstance(t,str) else f'{t[0]}({show(t[1])})({show(t[2])})'
def job(r):
    setP(par); s=show(fix(parse(r['tree']),tuple(r['root']))); 
    r=dict(r); r['tree']=s; r['n']=sum(s.count(c) for c in 'abcd'); print(nm,r['i'],r['n'],s.count('d'),flush=True); return r
if __name__=='__main__':
    with Pool(3) as po: rs=po.map(job,json.load(open(f'{nm}_9.json')),chunksize=1)
    print(sum(r['n'] for r in rs)); json.dump(rs,open(f'{nm}_9f.json','w'))
