from eng7 import *
import json
out=[]
for i,(A,B,a,b) in enumerate(FA+[FU[0]]+[(FU[i-1][0],FU[i][1],FU[i][2],FU[i][3]) for i in (2,4,6,8,10)]):
    setP(P1 if i<10 else P2)
    r=srch2(leafF(A,B,B_det2),*root5(a,b)); out.append(dict(root=root5(a,b),tree=r[0],n=r[1])); print(i,r,flush=True)
json.dump(out,open('det2.json','w'))
