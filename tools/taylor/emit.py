import sys; sys.set_int_max_str_digits(0)
sys.path.insert(0,'/tmp/tm'); sys.path.insert(0,'/tmp/iv')
from fractions import Fraction as Fr
import tm
from tm import tab,chain
def par(name,S,b,n,m):
    w=2*n-1
    ones=sum(1<<(b*(w*i+j)) for i in range(m) for j in range(n))
    mask=((1<<b)-(1<<S))*ones; vl=((1<<(b-1))-1)*ones; bias=(1<<(b-1))*ones
    h=lambda x:hex(x)
    return f"""/-- {n} powers of v, {m} powers of u, {S} binary digits after the point -/
def {name} : Par where
  S := {S}
  b := {b}
  w := {w}
  n := {n}
  m := {m}
  B1 := {h((1<<b)-1)}
  H := {h(1<<(b-1))}
  mask := {h(mask)}
  vl := {h(vl)}
  bias := {h(bias)}
  ones := {h(ones)}
  one := {h(1<<S)}
  tU := {h((1<<S)<<(b*w))}
  tV := {h((1<<S)<<b)}

theorem {name}_ok : {name}.Ok where
  b2 := by decide
  n2 := by decide
  w := by decide
  B1 := by decide +kernel
  H := by decide +kernel
  mask := by decide +kernel
  vl := by decide +kernel
  vlH := by decide +kernel
  one := by decide +kernel
  tU := by decide +kernel
  tV := by decide +kernel
  oneH := by decide +kernel
"""
def co(c): c=Fr(c); return "⟨%s, %d, %d⟩"%('true' if c<0 else 'false',abs(c.numerator),c.denominator)
def co10(c,raw=None):
    """keep denominators as powers of ten"""
    return co(c)
def grp(tb,hx,hy):
    g={}
    for I,J,c in tb: g.setdefault(I,[]).append((J,c))
    assert [(I,J,c) for I in g for J,c in g[I]]==tb, "table not grouped"
    return "["+",\n  ".join("(%d, [%s])"%(len(hx)-1-hx.index(I),", ".join("(%d, %s)"%(len(hy)-1-hy.index(J),co(c)) for J,c in l)) for I,l in g.items())+"]"
def chl(start,pr):
    out=[];L=start
    for i,j in pr: out.append("(%d, %d)"%(L-1-i,L-1-j)); L+=1
    return "["+", ".join(out)+"]"
def flatl(tb): return "["+", ".join("(%d, %d, %s)"%(I,J,co(c)) for I,J,c in tb)+"]"
def intl(l): return "["+", ".join(map(str,l))+"]"
