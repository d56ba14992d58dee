# certificates of the stability of region 3: one module with the trees, one with the consequences
import sys,json
sys.path.insert(0,'/tmp/tm'); sys.argv=['x','none']
from gen6 import *
N=['st3h','st3m','st3n','st3q','st3v']
V={'st3h':'vSt3','st3m':'vSt3','st3n':'vSt3','st3q':'vSt3q','st3v':'vSt3v'}
a="import Verif.Lemmas.Tm.Comp.Region3st\n\n/-! Stability of region 3 (generated subdivisions, checked in the kernel). -/\n\nnamespace If97.Tm\nset_option maxRecDepth 100000\n\n"
b="import Verif.Lemmas.Tm.St3_0\nimport Verif.Lemmas.Tm.Leaf3st\n\n/-! Stability of region 3: the whole bands (generated). -/\n\nnamespace If97.Tm\n\n"
for n in N:
    for r in json.load(open(f'/tmp/tm/{n}_10.json')):
        i=r['i']; bx=' '.join(map(str,r['root'])); v=V[n]
        a+=f"def {n}_t{i} : Tr4 := {lean(parse(r['tree']))}\ntheorem {n}_c{i} : chk {bx} ({v} {r['root'][0]} {r['root'][1]} {n}_t{i}) = true := by decide +kernel\n"
        b+=f"theorem {n}_root{i} : Good R{v[1:]} {bx} := ok{v[1:]} {n}_t{i} {n}_c{i}\n"
open(O+'St3_0.lean','w').write(a+"\nend If97.Tm\n"); open(O+'St3.lean','w').write(b+"\nend If97.Tm\n")
