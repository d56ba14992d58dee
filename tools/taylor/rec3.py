import sys; sys.path.insert(0,'/tmp/tm'); sys.path.insert(0,'/tmp/iv')
from tm import tab
import math
def load(f,n): return [(I,J,float(c)) for I,J,c in tab(f,n)]
r3=load('R3.lean','r3_IJn'); N1=1.0658070028513
Rg=0.461526
def st3(T,d):
    D=d/322;t=647.096/T
    fd=N1+sum(c*I*D**I*t**J for I,J,c in r3)
    ft=sum(c*J*D**I*t**J for I,J,c in r3 if J)
    f=sum(c*D**I*t**J for I,J,c in r3)+N1*math.log(D)
    return fd*d*Rg*T/1000, Rg*T*(ft+fd), Rg*(ft-f)
def dens(T,p):
    lo,hi=50,900
    # liquid-like/supercritical: assume monotone for T>=Tc or p>=Pc
    for _ in range(100):
        m=(lo+hi)/2
        if st3(T,m)[0]<p: lo=m
        else: hi=m
    return lo
import re
r1=load('R1.lean','r1_IJn'); r2=load('R2.lean','r2_IJn')
src=open('/verif/lean/Verif/Model/R2.lean').read()
def lst(n):
    m=re.search(r'def '+n+r'[^\[]*\[(.*?)\]',src[src.index('def '+n):].replace('List [','List ') ,re.S)
    return [float(x) for x in re.findall(r'-?\d[\d.e\-+]*',m.group(1))]
J0=[0,1,-5,-4,-3,-2,-1,2,3]
n0=[-9.6927686500217,10.086655968018,-0.005608791128302,0.071452738081455,-0.40710498223928,1.4240819171444,-4.383951131945,-0.28408632460772,0.021268463753307]
def h1(p,T):
    pi=p/16.53;t=1386/T
    return Rg*1386*sum(c*(7.1-pi)**I*J*(t-1.222)**(J-1) for I,J,c in r1 if J)
def s1(p,T):
    pi=p/16.53;t=1386/T
    return Rg*(t*sum(c*(7.1-pi)**I*J*(t-1.222)**(J-1) for I,J,c in r1 if J)-sum(c*(7.1-pi)**I*(t-1.222)**(J) for I,J,c in r1))
def h2(p,T):
    t=540/T
    return Rg*540*(sum(j*n*t**(j-1) for j,n in zip(J0,n0) if j)+sum(c*p**I*J*(t-0.5)**(J-1) for I,J,c in r2 if J))
def s2(p,T):
    t=540/T
    g=math.log(p)+sum(n*t**j for j,n in zip(J0,n0))+sum(c*p**I*(t-0.5)**(J) for I,J,c in r2)
    return Rg*(t*h2(p,T)/(Rg*540)-g)
def TB(p): return 572.54459862746+math.sqrt((p-13.918839778870)/0.0010192970039326)
def pB(T): return 348.05185628969-1.1671859879975*T+0.0010192970039326*T*T
if __name__=='__main__':
    for p in [16.53,17,18,19,20,21,22.064,23,24,25,30,35,40,50,60,70,80,90,100]:
        d=dens(623.15,p); a=st3(623.15,d)
        T=TB(p); d2=dens(T,p) 
        # vapor-like: small root: search from low density
        lo,hi=20,322.
        if p<22.064:
            x=20
            while st3(T,x)[0]<p: x+=1
            lo,hi=x-1,x
            for _ in range(60):
                m=(lo+hi)/2
                if st3(T,m)[0]<p: lo=m
                else: hi=m
            d2=lo
        b=st3(T,d2)
        print(p,'| h3-h1',round(a[1]-h1(p,623.15),4),'s',round(a[2]-s1(p,623.15),6),'h1',round(h1(p,623.15),2),'| TB',round(T,2),'h2-h3',round(h2(p,T)-b[1],4),'s',round(s2(p,T)-b[2],6),'d',round(d2,1))
