from gr1 import *
import re
src=open('/verif/lean/Verif/Model/R2.lean').read()
def lst(nm):
    i=src.index("def "+nm+" "); j=src.index(":=",i); k=src.index("]",j)
    return [Fr(x) for x in re.findall(r"-?[\d.]+(?:e[\-+]?\d+)?",src[j:k])]
r2=tab('R2.lean','r2_IJn'); n0=lst('r2_n0'); J0=[int(x) for x in lst('r2_J0')]
G=[(I,max(J-1,0),c*J) for I,J,c in r2]
hx,px=chain({I for I,J,c in r2}); hy,py=chain({J for I,J,c in r2}|{J-1 for I,J,c in r2 if J})
h0,p0=chain({J-1 for J in J0}|{J for J in J0})
import eng2
assert hx==eng2.K2.hx and hy==eng2.K2.hy
s=f"""import Verif.Lemmas.Tm.Tree4

/-! The region 2 tables of the code in the form the Taylor models use. -/

namespace If97.Tm
set_option maxRecDepth 100000

{par('P19',192,608,12,9)}
/-- the table of a derivative in the second variable; terms without that variable may keep any power -/
def SameK (a : Int × Int × Co) (e : Int × Int × ℝ) : Prop :=
  a.1 = e.1 ∧ (a.2.1 = e.2.1 - 1 ∨ e.2.1 = 0) ∧ a.2.2.val = e.2.2 * e.2.1

theorem sumT_eqK {{l : List (Int × Int × Co)}} {{T : List (Int × Int × ℝ)}} (h : List.Forall₂ SameK l T) (x y : ℝ) :
    sumT x y l = (T.map fun e => e.2.2 * x ^ e.1 * (e.2.1 : ℝ) * y ^ (e.2.1 - 1)).sum := by
  induction h with
  | nil => simp [sumT]
  | cons h1 _ ih =>
    simp only [sumT, List.map_cons, List.sum_cons] at ih ⊢
    rw [ih, h1.1, h1.2.2]
    congr 1
    rcases h1.2.1 with e | e
    · rw [e]; ring
    · rw [e]; simp

/-! ### the Gibbs function: addition chains for π, τ - 0.5 and τ -/

def chx2 : List (Nat × Nat) := {chl(2,px)}
def chy2 : List (Nat × Nat) := {chl(2,py)}
def cht2 : List (Nat × Nat) := {chl(3,p0)}
def ex2 : List Int := {intl(hx[::-1])}
def ey2 : List Int := {intl(hy[::-1])}
def et2 : List Int := {intl(h0[::-1])}
theorem ex2_eq : powE chx2 [1, 0] = ex2 := by decide +kernel
theorem ey2_eq : powE chy2 [1, 0] = ey2 := by decide +kernel
theorem et2_eq : powE cht2 [-1, 1, 0] = et2 := by decide +kernel

/-- γ⁰_τ -/
def ti2 : List (Nat × Co) := [{", ".join("(%d, %s)"%(len(h0)-1-h0.index(J-1),co(n*J)) for n,J in zip(n0,J0))}]
/-- γ⁰ without the logarithm -/
def ti02 : List (Nat × Co) := [{", ".join("(%d, %s)"%(len(h0)-1-h0.index(J),co(n)) for n,J in zip(n0,J0))}]
/-- γʳ_τ -/
def tg2 : List (Nat × List (Nat × Co)) :=
  {grp(G,hx,hy)}
/-- γʳ -/
def t02 : List (Nat × List (Nat × Co)) :=
  {grp(r2,hx,hy)}

"""
s+=gt('g2',G,'r2_IJn','SameK','ex2','ey2')+gt('02',r2,'r2_IJn','SameT','ex2','ey2').replace('theorem 02_same','theorem z2_same')
for nm,md,doc in (('Ph2a','ph2T_reg2a_IJn','T(p, h) in 2a'),('Ph2b','ph2T_reg2b_IJn','T(p, h) in 2b'),('Ph2c','ph2T_reg2c_IJn','T(p, h) in 2c')):
    s+=tabl(nm,tab('R2.lean',md),0,0,md,'SameT',doc)
s+="\nend If97.Tm\n"
open('/verif/lean/Verif/Lemmas/Tm/R2.lean','w').write(s)
