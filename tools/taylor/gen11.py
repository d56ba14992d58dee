# certificates for the recognition of region 3: two modules with the trees, one with the consequences
import sys,json,pickle
sys.path.insert(0,'/tmp/tm'); sys.argv=['x','none']
from gen6 import *
o=pickle.load(open('/tmp/tm/o11.pk','rb'))+pickle.load(open('/tmp/tm/o11b.pk','rb'))
SK=[9,10,11,11,9,9]
hd="import Verif.Lemmas.Tm.Comp.Region3r\n\n/-! Recognition of region 3 (generated subdivisions, checked in the kernel). -/\n\nnamespace If97.Tm\nset_option maxRecDepth 100000\n\n"
b="import Verif.Lemmas.Tm.Rec3_0\nimport Verif.Lemmas.Tm.Rec3_1\nimport Verif.Lemmas.Tm.Leaf3r\nimport Verif.Lemmas.Tm.Logs3\nimport Verif.Lemmas.Tm.Logs3r\nimport Verif.Lemmas.Tm.Scales\n\n/-! Recognition of region 3: the whole bands (generated). -/\n\nnamespace If97.Tm\n\n"
m=[hd,hd]
def add(k,nm,v,args,oks,R,root,tree):
    global b
    bx=' '.join(map(str,root))
    m[k]+=f"def {nm}_t : Tr4 := {lean(parse(tree))}\ntheorem {nm}_c : chk {bx} ({v} {args}{' ' if args else ''}{root[0]} {root[1]} {nm}_t) = true := by decide +kernel\n"
    b+=f"theorem {nm}_root : Good ({R}) {bx} := ok{v[1:]} {oks}{' ' if oks else ''}{nm}_t {nm}_c\n"
for i,(bx,t,bx2,t2,lp) in enumerate(o):
    add(i%2,f'e13_{i}','vE13',f'bd{i}','',f'RE13 bd{i}',bx,t)
    add(i%2,f'e32_{i}','vE32',f'sk{SK[i]} lcB{i} bd{i}',f'sk{SK[i]}_ok lcB{i}_ok',f'RE32 bd{i}',bx2,t2)
for r in json.load(open('/tmp/tm/rec11.json')):
    i=max(r['i'],1); add(0,f"rec_{r['b']}_{r['i']}",'vRec',f"lcR{i} bd{r['b']}",f'lcR{i}_ok',f"RRec bd{r['b']}",r['root'],r['tree'])
LI={'q':[3,4,5],'v':[1,1,2,3],'w':[1,1,2,3,4,5]}
for r in json.load(open('/tmp/tm/rec11b.json')):
    i=LI[r['f']][r['i']]; add(1,f"sub{r['f']}_{r['b']}_{r['i']}",f"vSub{r['f']}",f"lcR{i} bd{r['b']+4}",f'lcR{i}_ok',f"RSub{r['f']} bd{r['b']+4}",r['root'],r['tree'])
for k in (0,1): open(O+f'Rec3_{k}.lean','w').write(m[k]+"\nend If97.Tm\n")
open(O+'Rec3.lean','w').write(b+"\nend If97.Tm\n")
