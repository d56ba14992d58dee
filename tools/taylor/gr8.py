"""emit Lemmas/Tm/R3h.lean: tables of region 3"""
from gr1 import *
from eng8 import r3,K3
s="""import Verif.Lemmas.Tm.Rd

/-! Tables of region 3 in the form the Taylor models use. -/

namespace If97.Tm
set_option maxRecDepth 100000

def wO (_ _ : Int) : Int := 1
def wJ (_ J : Int) : Int := J
"""
for nm,f,md,doc in (('V3c','R3vSub.lean','pT2v_3c_IJn','v(p, T) in 3c'),('V3t','R3vSub.lean','pT2v_3t_IJn','v(p, T) in 3t'),('V3a','R3.lean','ph2v_3a_reg3_IJn','v(p, h) in 3a'),('V3b','R3.lean','ph2v_3b_reg3_IJn','v(p, h) in 3b')):
    s+=tabl(nm,tab(f,md),0,0,md,'SameT',doc)
hx,hy=K3.hx,K3.hy
s+=f"\n/-! ### φ, δ φ_δ, φ_τ without the logarithm -/\n\ndef chx3 : List (Nat × Nat) := {[tuple(z) for z in K3.chx]}\ndef chy3 : List (Nat × Nat) := {[tuple(z) for z in K3.chy]}\n"
s+=f"def ex3 : List Int := {intl(hx[::-1])}\ndef ey3 : List Int := {intl(hy[::-1])}\n"
s+=f"theorem ex3_eq : powE chx3 [1, 0] = ex3 := by decide +kernel\ntheorem ey3_eq : powE chy3 [1, 0] = ey3 := by decide +kernel\n"
for n,w,f,b in (('z3','wO',lambda I,J:1,0),('i3','wI',lambda I,J:I,0),('j3','wJ',lambda I,J:J,1)):
    t=[(I,max(J-b,0),c*f(I,J)) for I,J,c in r3]
    s+=f"def t{n} : List (Nat × List (Nat × Co)) :=\n  {grp(t,hx,hy)}\n"
    s+=f"def fl{n} : List (Int × Int × Co) := {flatl(t)}\n"
    s+=f"theorem fl{n}_eq : flat ex3 ey3 t{n} = fl{n} := by decide +kernel\n"
    s+=f"theorem t{n}_ok : tbOk t{n} ex3.length ey3.length = true := by decide +kernel\n"
    s+=f"theorem same_{n} : List.Forall₂ (SameW {w} 0 {b}) fl{n} (r3_IJn : List (Int × Int × ℝ)) := by\n  unfold fl{n} r3_IJn\n"
    s+=f"  repeat' first | exact .nil | refine .cons ⟨by decide, by norm_num [Co.val, {w}]⟩ ?_\n"
s+="\nend If97.Tm\n"
open('/verif/lean/Verif/Lemmas/Tm/R3h.lean','w').write(s)
