import Verif.Lemmas.Tm.Comp.Region3

/-! The computations that the kernel runs, without Mathlib: the checks of region 3 below the critical temperature and the
critical pressure, on the liquid and on the vapour side.  What they establish is in `Lemmas/Tm/Leaf3s.lean`. -/

namespace If97.Tm

noncomputable def orB (a b : Bool) : Bool := Bool.rec (motive := fun _ => Bool) b true a

/-- does the box lie above 22.064 MPa, or left of the line δ = 1 + (16 u - u²/3)/322, u = 647.096 (1 - 1/τ), or below the
pressure (2.675/τ² - 1.1753/τ + 0.66744)⁴? -/
noncomputable def kLiq (P : Par) (d t : TM) : Bool :=
  st3t P d t fun _ _ _ ti p =>
    orB (lin P [p, tone P] [(0, ⟨false, 1, 1⟩), (1, ⟨true, 22064, 1000⟩)] fun w => pos P w)
    (mul P ti ti fun t2 =>
    orB (lin P [t2, ti, tone P, d] [(0, ⟨true, 6542706769, 15093750⟩), (1, ⟨false, 6300045769, 7546875⟩), (2, ⟨true, 6042291019, 15093750⟩), (3, ⟨true, 1, 1⟩)] fun w => pos P w)
    (lin P [t2, ti, tone P] [(0, ⟨false, 26750, 10000⟩), (1, ⟨true, 11753, 10000⟩), (2, ⟨false, 66744, 100000⟩)] fun b =>
      mul P b b fun b => mul P b b fun b => lin P [b, p] [(0, ⟨false, 1, 1⟩), (1, ⟨true, 1, 1⟩)] fun w => pos P w))

/-- does the box lie below B23, or right of the line δ = 1 - (16 u - u²/3)/322, or above the pressure
(2.675/τ² - 1.1753/τ + 0.66763)⁴? -/
noncomputable def kVap (P : Par) (d t : TM) : Bool :=
  st3t P d t fun _ _ _ ti p => mul P ti ti fun t2 =>
    orB (lin P [t2, ti, tone P, p] [(0, ⟨false, 33344807036256208198847, 78125000000000000000⟩), (1, ⟨true, 37764069204461513, 50000000000000⟩), (2, ⟨false, 34805185628969, 100000000000⟩), (3, ⟨true, 1, 1⟩)] fun w => pos P w)
    (orB (lin P [t2, ti, tone P, d] [(0, ⟨true, 6542706769, 15093750⟩), (1, ⟨false, 6300045769, 7546875⟩), (2, ⟨true, 6072478519, 15093750⟩), (3, ⟨false, 1, 1⟩)] fun w => pos P w)
    (lin P [t2, ti, tone P] [(0, ⟨false, 26750, 10000⟩), (1, ⟨true, 11753, 10000⟩), (2, ⟨false, 66763, 100000⟩)] fun b =>
      mul P b b fun b => mul P b b fun b => lin P [b, p] [(0, ⟨true, 1, 1⟩), (1, ⟨false, 1, 1⟩)] fun w => pos P w))

noncomputable def vPh3q (xr yr : Nat) (t : Tr4) : Nat → Nat → Nat → Nat → Bool :=
  verify4 (leafB P64 (bPh3a P64) xr yr) (leafB P64 (bPh3b P64) xr yr) (leafB P64 (bPh3c P64) xr yr)
    (leafB P64 (kLiq P64) xr yr) xr yr t
noncomputable def vPh3v (xr yr : Nat) (t : Tr4) : Nat → Nat → Nat → Nat → Bool :=
  verify4 (leafB P64 (bPh3a P64) xr yr) (leafB P64 (bPh3b P64) xr yr) (leafB P64 (bPh3c P64) xr yr)
    (leafB P64 (kVap P64) xr yr) xr yr t
noncomputable def vPs3q (c : LogC) (xr yr : Nat) (t : Tr4) : Nat → Nat → Nat → Nat → Bool :=
  verify4 (leafB P64 (bPs3a P64 c) xr yr) (leafB P64 (bPs3b P64 c) xr yr) (leafB P64 (bPs3c P64 c) xr yr)
    (leafB P64 (kLiq P64) xr yr) xr yr t
noncomputable def vPs3v (c : LogC) (xr yr : Nat) (t : Tr4) : Nat → Nat → Nat → Nat → Bool :=
  verify4 (leafB P64 (bPs3a P64 c) xr yr) (leafB P64 (bPs3b P64 c) xr yr) (leafB P64 (bPs3c P64 c) xr yr)
    (leafB P64 (kVap P64) xr yr) xr yr t

end If97.Tm
