from gr1 import *
import re
src=open('/verif/lean/Verif/Model/R2.lean').read()
def tabf(nm):
    i=src.index("def "+nm+" "); j=src.index(":=",i); k=src.index("]",j)
    return [(int(4*Fr(a)),int(b),Fr(c)) for a,b,c in re.findall(r"\((-?[\d.]+), (-?\d+), (-?[\d.e\-+]+)\)",src[j:k])]
s="""import Verif.Lemmas.Tm.R2

/-! The tables of T(p, s) of region 2 in the form the Taylor models use. -/

namespace If97.Tm
set_option maxRecDepth 100000

/-- a table with quarter powers of p, in powers of β = p^(1/4) -/
def SameF (a : Int × Int × Co) (e : ℝ × Int × ℝ) : Prop :=
  (a.1 : ℝ) / 4 = e.1 ∧ a.2.1 = e.2.1 ∧ a.2.2.val = e.2.2

"""
t=tabl('Ps2a',tabf('ps2T_reg2a_IJn'),0,0,'ps2T_reg2a_IJn','SameF','T(p, s) in 2a').replace("(ps2T_reg2a_IJn : List (Int × Int × ℝ))","(ps2T_reg2a_IJn : List (ℝ × Int × ℝ))")
s+=t
for nm,md,doc in (('Ps2b','ps2T_reg2b_IJn','T(p, s) in 2b'),('Ps2c','ps2T_reg2c_IJn','T(p, s) in 2c')):
    s+=tabl(nm,tab('R2.lean',md),0,0,md,'SameT',doc)
s+="\nend If97.Tm\n"
open('/verif/lean/Verif/Lemmas/Tm/R2s.lean','w').write(s)
