from eng5 import *
import json,pickle,os
if os.path.exists('/tmp/tm/fans2.pk'): FA,FU=pickle.load(open('/tmp/tm/fans2.pk','rb'))
else:
    # 2a fans
    cutsA=[0.1572,0.25,0.4,0.6,0.85,1.1,1.41422]
    FA=[(L0,q6(fit(tausat,a,b,5,2e-5)),a,b) for a,b in zip(cutsA,cutsA[1:])]
    # above 4 MPa: 1.4142 .. 1.6 single fan; then lower and upper
    FU=[(L0,q6(fit(tausat,1.4142,1.6,5,2e-5)),1.4142,1.6)]
    c1=[1.6,1.8,2.0163]; c2=[2.0163,2.3,2.7,3.162278]
    for a,b in zip(c1,c1[1:]):
        m=q6(fit(tau2bc,a,b,5,0)); o=q6(fit(tausat,a,b,5,2e-5)); FU+=[(L0,m,a,b),(m,o,a,b)]
    for a,b in zip(c2,c2[1:]):
        m=q6(fit(tau2bc,a,b,5,0)); o=q6(fit(tauB23,a,b,5,2e-5)); FU+=[(L0,m,a,b),(m,o,a,b)]
    pickle.dump((FA,FU),open('/tmp/tm/fans2.pk','wb'))
def root5(a,b):
    D=10**6; lo,hi=round(a*D),round(b*D)
    return (hi-lo,1,hi+lo,2*D,1,2)
cfg=dict(ph2a=(P1,lambda b,t:B_ph2a(Fr(1,100),b,t),[],FA),
 ph2b=(P2,lambda b,t:B_ph2b(Fr(1,100),b,t),[('d',K_C)],FU),
 ph2c=(P2,lambda b,t:B_ph2c(Fr(25,1000),b,t),[('d',K_D)],FU))
