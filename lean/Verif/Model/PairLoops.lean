import Verif.Model.RegPair1
import Verif.Model.RegPair2
import Verif.Model.RegPair5
set_option linter.unusedVariables false

/-!
# Pair inversions with `while` loops (hand written)

`Option F` results: `none` means that the call does not return.  Loops with a
step counter are recursions on the number of remaining passes (exact).  Loops
without a counter are `partial_fixpoint` definitions in the `Option` monad: no
bound is introduced.
-/

namespace If97
open Flt
variable {F : Type} [Add F] [Sub F] [Mul F] [Div F] [Neg F] [OfScientific F] [Flt F]

/-- `src/r1/region1_pair_ext.rs:60-75` first refinement loop of `pv2T_reg1`.
`inl T`: the function returns `T`; `inr (T, r_error)`: the loop was left because
the step counter exceeded `MAX_STEPS`.  First argument: passes left. -/
def pv2T_reg1_up (p v : F) : Nat → F → F → F ⊕ (F × F)
  | 0, T, r_error => .inr (T, r_error)
  | n + 1, T, _ =>
    let T := T + 0.01
    if T >. T_MAX1 then .inl T
    else
    let f := v - pT2v_reg1 p T
    let r_error := f / v
    if fabs r_error <. 1.0e-8 then .inl T
    else pv2T_reg1_up p v n T r_error

/-- `src/r1/region1_pair_ext.rs:84-98` second refinement loop of `pv2T_reg1` -/
def pv2T_reg1_down (p v : F) : Nat → F → F
  | 0, _ => ofI32 INVALID_VALUE
  | n + 1, T =>
    let T := T - 0.001
    if T <. T_MIN1 then T_MIN1
    else
    let r_error := (v - pT2v_reg1 p T) / v
    if fabs r_error <. 1.0e-8 then T
    else pv2T_reg1_down p v n T

/-- `src/r1/region1_pair_ext.rs:38-100` pv2T_reg1, the part after the secant search.  Each refinement loop makes at
most `MAX_STEPS + 1 = 1000001` passes. -/
def pv2T_reg1_refine (p v T : F) : F :=
  let r_error := (v - pT2v_reg1 p T) / v
  if T >=. T_MIN1 && T <=. T_MAX1 && fabs r_error <. 1.0e-8 then T
  else
  let T := if T <. T_MIN1 then T_MIN1 else T
  let T := if T >. T_MAX1 then T_MAX1 else T
  let f := v - pT2v_reg1 p T
  let r_error := f / v
  let MAX_STEPS : Nat := 1000000
  match (if r_error >. 0.0 then pv2T_reg1_up p v (MAX_STEPS + 1) T r_error else .inr (T, r_error)) with
  | .inl T => T
  | .inr (T, r_error) =>
    if r_error <. 0.0 then pv2T_reg1_down p v (MAX_STEPS + 1) T
    else ofI32 INVALID_VALUE

/-- `src/r1/region1_pair_ext.rs:12-101` pv2T_reg1 -/
def pv2T_reg1 (p v : F) : F :=
  let T1 : F := T_MIN1
  let v1 : F := pT2v_reg1 p T1
  let f1 : F := v - pT2v_reg1 p T1
  let T2 : F := if p >=. 16.5291643 && p <=. 100.0 then T_MAX1 else T_saturation p
  let v2 : F := pT2v_reg1 p T2
  let T2 : F := if (v2 - v1) !=. 0.0 then T1 + (T2 - T1) * (v - v1) / (v2 - v1) else T2
  let v2 : F := pT2v_reg1 p T2
  let f : F := v - v2
  let (T2, f) : F × F := if f >. 0.0 then (T_MAX1, v - pT2v_reg1 p T_MAX1) else (T2, f)
  let T : F := rtsec2 pT2v_reg1 p v T1 T2 f1 f 1.0e-3 100
  pv2T_reg1_refine p v T

/-- `src/r2/region2_pair_ext.rs:79-97` the "zoom" loop of `pv2T_reg2`.  `steps` is
1 after the first pass and `success` is set when `steps < MAX_STEPS`, so the loop
is left after the first pass; the recursion bound (first argument) is never used up. -/
def pv2T_reg2_zoom (p v Tmin2 : F) : Nat → (steps : Nat) → (T v0 : F) → F
  | 0, _, T, _ => T
  | n + 1, steps, T, v0 =>
    let steps := steps + 1
    let (T, v0) : F × F :=
      if v0 >. v then
        let T := T - 0.001
        (T, if T <. Tmin2 then pT2v_reg2 p T else v0)
      else
        let T := T + 0.001
        (T, if T >. T_MAX2 then pT2v_reg2 p T else v0)
    if steps < 1000 then T
    else pv2T_reg2_zoom p v Tmin2 n steps T v0

/-- `src/r2/region2_pair_ext.rs:45-99` pv2T_reg2 -/
def pv2T_reg2 (p v : F) : F :=
  let Tmin2 : F := p2Tmin_reg2 p
  let T1 : F := Tmin2
  let v1 : F := pT2v_reg2 p T1
  let T2 : F := 1.1 * T1
  let v2 : F := pT2v_reg2 p T2
  let f : F := v - v2
  let T1 : F := T1 + (T2 - T1) * (v - v1) / fabs (v2 - v1)
  let v1 : F := pT2v_reg2 p T1
  let f1 : F := v - v1
  if fabs f1 <. ESP then T1
  else
  let T : F := rtsec2 pT2v_reg2 p v T1 T2 f1 f ESP I_MAX
  let T := if T <. Tmin2 then Tmin2 else T
  let T := if T >. T_MAX2 then T_MAX2 else T
  let v0 : F := pT2v_reg2 p T
  if fabs (v0 - v) >. ESP then pv2T_reg2_zoom p v Tmin2 1000 0 T v0
  else T

/-- Result of a pressure bracketing loop: either the loop returns a pressure from
the enclosing function, or it ends with `(p1, y1, p2, y2)`. -/
inductive Bracket (F : Type) where
  | ret (p : F)
  | found (p1 y1 p2 y2 : F)

/-- `src/r2/region2_pair_ext.rs:129-152` (`y = v`) and `:199-219` (`y = h`): the
bracketing loop of `Tv2p_reg2` and `Th2p_reg2` with `bounded = false` on entry.
Both loops have the same text up to the property `y` (`fy p T` is `pT2v_reg2`
resp. `pT2h_reg2`). -/
def bracket_reg2 (fy : F → F → F) (T y pmax2 p1 y1 p2 y2 : F) : Option (Bracket F) :=
  let p1' := p2
  let y1' := y2
  let p2' := if p1' >. 1.0 then p1' + 1.0 else p2
  let p2' := if p1' <. 1.0 then p1' * 5.0 else p2'
  let (p2', bounded) : F × Bool := if p2' >=. pmax2 then (pmax2, true) else (p2', false)
  let y2' := fy p2' T
  if fabs (y - y2') <. ESP then some (.ret p2')
  else
  let bounded := if y >. y2' && y <. y1' then true else bounded
  if bounded then some (.found p1' y1' p2' y2')
  else bracket_reg2 fy T y pmax2 p1' y1' p2' y2'
partial_fixpoint

/-- `src/r2/region2_pair_ext.rs:104-169` Tv2p_reg2 -/
def Tv2p_reg2 (T v : F) : Option F := do
  let p1 : F := P_MIN2
  let v1 : F := pT2v_reg2 p1 T
  if fabs (v - v1) <. ESP then return p1
  let p2 : F := p1 * 5.0
  let v2 : F := pT2v_reg2 p2 T
  if fabs (v - v2) <. ESP then return p2
  let pmax2 : F := T2pmax_reg2 T
  let b ← if v >. v2 && v <. v1 then some (.found p1 v1 p2 v2)
    else bracket_reg2 pT2v_reg2 T v pmax2 p1 v1 p2 v2
  match b with
  | .ret p => return p
  | .found p1 v1 p2 v2 =>
    let f2 : F := v - v2
    let pmid : F := p2 - (p2 - p1) * (v - v2) / (v1 - v2)
    let p1 := if v <. pT2v_reg2 pmid T then pmid else p1
    let p1 := if p1 <. P_MIN2 then P_MIN2 else p1
    let f1 : F := v - pT2v_reg2 p1 T
    if fabs f1 <. ESP then return p1
    let p : F := rtsec1 pT2v_reg2 T v p1 p2 f1 f2 ESP I_MAX
    return (if p <. P_MIN2 then P_MIN2 else if p >. pmax2 then pmax2 else p)

/-- `src/r2/region2_pair_ext.rs:175-243` Th2p_reg2 -/
def Th2p_reg2 (T h : F) : Option F := do
  let pmax2 : F := T2pmax_reg2 T
  let p1 : F := P_MIN2
  let h1 : F := pT2h_reg2 p1 T
  if fabs (h - h1) <. ESP then return p1
  let p2 : F := p1 * 5.0
  let h2 : F := pT2h_reg2 p2 T
  if fabs (h - h2) <. ESP then return p2
  let b ← if h >. h2 && h <. h1 then some (.found p1 h1 p2 h2)
    else bracket_reg2 pT2h_reg2 T h pmax2 p1 h1 p2 h2
  match b with
  | .ret p => return p
  | .found p1 h1 p2 h2 =>
    let f2 : F := h - h2
    let pmid : F := p2 - (p2 - p1) * (h - h2) / (h1 - h2)
    let pmid := if pmid <. P_MIN2 then P_MIN2 else pmid
    let p1 := if h <=. pT2h_reg2 pmid T then pmid else p1
    let h1 := pT2h_reg2 p1 T
    let f1 : F := h - h1
    if fabs f1 <. ESP then return p1
    let p : F := rtsec1 pT2h_reg2 T h p1 p2 f1 f2 ESP I_MAX
    let p := if p <. P_MIN2 then P_MIN2 else p
    let p := if p >. pmax2 then pmax2 else p
    return p

/-- `src/r5/region5_pair_ext.rs:53-69` the bracketing loop of `Tv2p_reg5` with
`vbounded = false` on entry -/
def bracket_reg5 (T v p1 v1 p2 v2 : F) : Option (Bracket F) :=
  let p1' := p2
  let v1' := v2
  let p2' := 5.0 * p1'
  let (p2', vbounded) : F × Bool := if p2' >=. P_MAX5 then (P_MAX5, true) else (p2', false)
  let v2' := pT2v_reg5 p2' T
  if v ==. v2' then some (.ret p2')
  else
  let vbounded := if v >. v2' && v <. v1' then true else vbounded
  if vbounded then some (.found p1' v1' p2' v2')
  else bracket_reg5 T v p1' v1' p2' v2'
partial_fixpoint

/-- `src/r5/region5_pair_ext.rs:31-88` Tv2p_reg5 -/
def Tv2p_reg5 (T v : F) : Option F := do
  let p1 : F := P_MIN5
  let v1 : F := pT2v_reg5 p1 T
  if v ==. v1 then return p1
  let p2 : F := 10.0 * p1
  let p2 := if p2 >. P_MAX5 then P_MAX5 else p2
  let v2 : F := pT2v_reg5 p2 T
  if v ==. v2 then return p2
  let b ← if v >. v2 && v <. v1 then some (.found p1 v1 p2 v2)
    else bracket_reg5 T v p1 v1 p2 v2
  match b with
  | .ret p => return p
  | .found p1 v1 p2 v2 =>
    let f2 : F := v - v2
    let p1 := p2 - (p2 - p1) * (v - v2) / (v1 - v2)
    let p1 := if p1 <. P_MIN5 then P_MIN5 else p1
    let f1 : F := v - pT2v_reg5 p1 T
    if fabs f1 <. ESP then return p1
    let p : F := rtsec1 pT2v_reg5 T v p1 p2 f1 f2 ESP I_MAX
    let p := if p >. P_MAX5 then P_MAX5 else p
    let p := if p <. P_MIN5 then P_MIN5 else p
    return p

end If97
