"""emit Lemmas/Tm/R3st.lean and Lemmas/Tm/Comp/Region3st.lean: the polynomials of the stability conditions of region 3"""
from gr1 import *
from eng8 import r3,K3
O='/verif/lean/Verif/Lemmas/Tm/'
hx,hy=K3.hx,K3.hy
s="""import Verif.Lemmas.Tm.R3h
import Verif.Lemmas.Tm.Comp.Region3st

/-! The polynomials of the stability conditions of region 3 in the form the Taylor models use. -/

namespace If97.Tm
set_option maxRecDepth 100000

def wSt (I _ : Int) : Int := I * (I + 1)
def wCt (_ J : Int) : Int := -(J * (J - 1))
def wBt (I J : Int) : Int := I * (1 - J)
"""
c="""import Verif.Lemmas.Tm.Comp.Region3s

/-! The computations that the kernel runs, without Mathlib: the stability conditions of region 3, in the coordinates
δ = ρ/322 and τ = 647.096/T.  What they establish is in `Lemmas/Tm/Leaf3st.lean`. -/

namespace If97.Tm
"""
for n,w,f,doc in (('st3','wSt',lambda I,J:I*(I+1),'2 δ φ_δ + δ² φ_δδ, less its constant'),('ct3','wCt',lambda I,J:-J*(J-1),'-τ² φ_ττ'),('bt3','wBt',lambda I,J:I*(1-J),'δ (φ_δ - τ φ_δτ), less its constant')):
    t=[(I,J,k*f(I,J)) for I,J,k in r3]
    c+=f"\n/-- {doc} -/\ndef t{n} : List (Nat × List (Nat × Co)) :=\n  {grp(t,hx,hy)}\n"
    s+=f"def fl{n} : List (Int × Int × Co) := {flatl(t)}\n"
    s+=f"theorem fl{n}_eq : flat ex3 ey3 t{n} = fl{n} := by decide +kernel\n"
    s+=f"theorem t{n}_ok : tbOk t{n} ex3.length ey3.length = true := by decide +kernel\n"
    s+=f"theorem same_{n} : List.Forall₂ (SameW {w} 0 0) fl{n} (r3_IJn : List (Int × Int × ℝ)) := by\n  unfold fl{n} r3_IJn\n"
    s+=f"  repeat' first | exact .nil | refine .cons ⟨by decide, by norm_num [Co.val, {w}]⟩ ?_\n"
s+="\nend If97.Tm\n"
z="(nat_lit 0) (nat_lit 0) (nat_lit 0) (nat_lit 0)"
c+=f"""
/-- are 2 φ_δ + δ φ_δδ and -φ_ττ positive on the box? -/
noncomputable def stab3 (P : Par) (d t : TM) (k : List TM → List TM → Bool) : Bool :=
  pows P chx3 (fun xs => pows P chy3 (fun ys => poly P xs ys (fun s =>
    gd (lin P [s, tone P] [(0, ⟨false, 1, 1⟩), (1, ⟨false, 10658070028513, 10000000000000⟩)] fun w => pos P w)
    (poly P xs ys (fun c => gd (pos P c) (k xs ys)) tct3 {z}))
    tst3 {z}) [t, tone P]) [d, tone P]

/-- and φ_δ - τ φ_δτ too? -/
noncomputable def bSt3 (P : Par) (d t : TM) : Bool :=
  stab3 P d t fun xs ys => poly P xs ys (fun b =>
    lin P [b, tone P] [(0, ⟨false, 1, 1⟩), (1, ⟨false, 10658070028513, 10000000000000⟩)] fun w => pos P w)
    tbt3 {z}

/-- or is the pressure above 100 MPa? -/
noncomputable def bSt3h (P : Par) (d t : TM) : Bool :=
  gd (stab3 P d t fun _ _ => true)
    (st3t P d t fun _ _ _ _ p => lin P [p, tone P] [(0, ⟨false, 1, 1⟩), (1, ⟨true, 100, 1⟩)] fun w => pos P w)

/-- does the box lie above 100 MPa, or left of the line δ = 1 + (16 u - u²/3)/322, u = 647.096 (1 - 1/τ), or below the
pressure (2.675/τ² - 1.1753/τ + 0.66744)⁴? -/
noncomputable def kLiqH (P : Par) (d t : TM) : Bool :=
  st3t P d t fun _ _ _ ti p =>
    orB (lin P [p, tone P] [(0, ⟨false, 1, 1⟩), (1, ⟨true, 100, 1⟩)] fun w => pos P w)
    (mul P ti ti fun t2 =>
    orB (lin P [t2, ti, tone P, d] [(0, ⟨true, 6542706769, 15093750⟩), (1, ⟨false, 6300045769, 7546875⟩), (2, ⟨true, 6042291019, 15093750⟩), (3, ⟨true, 1, 1⟩)] fun w => pos P w)
    (lin P [t2, ti, tone P] [(0, ⟨false, 26750, 10000⟩), (1, ⟨true, 11753, 10000⟩), (2, ⟨false, 66744, 100000⟩)] fun b =>
      mul P b b fun b => mul P b b fun b => lin P [b, p] [(0, ⟨false, 1, 1⟩), (1, ⟨true, 1, 1⟩)] fun w => pos P w))

/-- everywhere -/
noncomputable def vSt3 (xr yr : Nat) (t : Tr4) : Nat → Nat → Nat → Nat → Bool :=
  verify4 (leafB P64 (bSt3 P64) xr yr) (leafB P64 (bSt3h P64) xr yr) (leafB P64 (bSt3 P64) xr yr)
    (leafB P64 (bSt3 P64) xr yr) xr yr t
/-- liquid -/
noncomputable def vSt3q (xr yr : Nat) (t : Tr4) : Nat → Nat → Nat → Nat → Bool :=
  verify4 (leafB P64 (bSt3 P64) xr yr) (leafB P64 (bSt3 P64) xr yr) (leafB P64 (bSt3 P64) xr yr)
    (leafB P64 (kLiqH P64) xr yr) xr yr t
/-- vapour -/
noncomputable def vSt3v (xr yr : Nat) (t : Tr4) : Nat → Nat → Nat → Nat → Bool :=
  verify4 (leafB P64 (bSt3 P64) xr yr) (leafB P64 (bSt3 P64) xr yr) (leafB P64 (bSt3 P64) xr yr)
    (leafB P64 (kVap P64) xr yr) xr yr t

end If97.Tm
"""
open(O+'R3st.lean','w').write(s); open(O+'Comp/Region3st.lean','w').write(c)
