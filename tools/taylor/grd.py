"""emit Lemmas/Tm/Rd.lean: tables of the second derivatives of the Gibbs functions"""
from gr1 import *
import det5,eng7
from det5 import r5,n5,J5
from eng7 import r2,n0,J0,K1d,K2d,K0d
from det5 import K5d,K50
HEAD="""import Verif.Lemmas.Tm.R2

/-! The tables of the derivatives of the Gibbs functions of regions 1, 2, 5 in the form the Taylor models use. -/

namespace If97.Tm
set_option maxRecDepth 100000

/-- the table of a derivative: coefficients times a weight, exponents lowered; a term of weight 0 may keep any power -/
def SameW (w : Int → Int → Int) (dx dy : Int) (a : Int × Int × Co) (e : Int × Int × ℝ) : Prop :=
  (a.1 = e.1 - dx ∧ a.2.1 = e.2.1 - dy ∨ w e.1 e.2.1 = 0) ∧ a.2.2.val = e.2.2 * w e.1 e.2.1

theorem sumT_eqW {w : Int → Int → Int} {dx dy : Int} {l : List (Int × Int × Co)} {T : List (Int × Int × ℝ)}
    (h : List.Forall₂ (SameW w dx dy) l T) (x y : ℝ) :
    sumT x y l = (T.map fun e => e.2.2 * (w e.1 e.2.1 : ℝ) * x ^ (e.1 - dx) * y ^ (e.2.1 - dy)).sum := by
  induction h with
  | nil => simp [sumT]
  | cons h1 _ ih =>
    simp only [sumT, List.map_cons, List.sum_cons] at ih ⊢
    rw [ih, h1.2]
    congr 1
    rcases h1.1 with e | e
    · rw [e.1, e.2]
    · rw [e]; simp

def wI (I _ : Int) : Int := I
def wII (I _ : Int) : Int := I * (I - 1)
def wIJ (I J : Int) : Int := I * J
def wJJ (_ J : Int) : Int := J * (J - 1)
"""
s=HEAD
W=dict(i=('wI',lambda I,J:I,1,0),ii=('wII',lambda I,J:I*(I-1),2,0),ij=('wIJ',lambda I,J:I*J,1,1),jj=('wJJ',lambda I,J:J*(J-1),0,2))
def reg(k,tb,K,model,dx,neg):
    global s
    hx,hy=K.hx,K.hy
    _,px=chain({I for I in hx}) if 0 else (0,0)
    sx=2; sy=3 if neg else 2
    s+=f"\n/-! ### region {k} -/\n\ndef chx{k}d : List (Nat × Nat) := {[tuple(z) for z in K.chx]}\ndef chy{k}d : List (Nat × Nat) := {[tuple(z) for z in K.chy]}\n"
    s+=f"def ex{k}d : List Int := {intl(hx[::-1])}\ndef ey{k}d : List Int := {intl(hy[::-1])}\n"
    s+=f"theorem ex{k}d_eq : powE chx{k}d [1, 0] = ex{k}d := by decide +kernel\ntheorem ey{k}d_eq : powE chy{k}d {'[-1, 1, 0]' if neg else '[1, 0]'} = ey{k}d := by decide +kernel\n"
    for nm,(w,f,a,b) in W.items():
        e=a if dx else 0
        t=[(max(I-e,0), J-b if neg else max(J-b,0), c*f(I,J)) for I,J,c in tb]
        n=f"{nm}{k}d"
        s+=f"def t{n} : List (Nat × List (Nat × Co)) :=\n  {grp(t,hx,hy)}\n"
        s+=f"def fl{n} : List (Int × Int × Co) := {flatl(t)}\n"
        s+=f"theorem fl{n}_eq : flat ex{k}d ey{k}d t{n} = fl{n} := by decide +kernel\n"
        s+=f"theorem t{n}_ok : tbOk t{n} ex{k}d.length ey{k}d.length = true := by decide +kernel\n"
        s+=f"theorem same_{n} : List.Forall₂ (SameW {w} {e} {b}) fl{n} ({model} : List (Int × Int × ℝ)) := by\n  unfold fl{n} {model}\n"
        s+=f"  repeat' first | exact .nil | refine .cons ⟨by decide, by norm_num [Co.val, {w}]⟩ ?_\n"
reg(1,r1,K1d,'r1_IJn',True,True)
reg(2,r2,K2d,'r2_IJn',False,False)
reg(5,r5,K5d,'r5_IJn',False,False)
def ideal(k,n,J,K):
    global s
    h=K.hy
    s+=f"\ndef cht{k}d : List (Nat × Nat) := {[tuple(z) for z in K.chy]}\ndef et{k}d : List Int := {intl(h[::-1])}\ntheorem et{k}d_eq : powE cht{k}d [-1, 1, 0] = et{k}d := by decide +kernel\n"
    s+=f"/-- γ⁰_ττ -/\ndef tz{k}d : List (Nat × Co) := [{', '.join('(%d, %s)'%(len(h)-1-h.index(j-2),co(c*j*(j-1))) for c,j in zip(n,J))}]\n"
ideal(2,n0,J0,K0d); ideal(5,n5,J5,K50)
s+="\nend If97.Tm\n"
open('/verif/lean/Verif/Lemmas/Tm/Rd.lean','w').write(s)
