import Verif.Model.Reg4
set_option linter.unusedVariables false

/-!
# Region 4: iterations (hand written)
-/

namespace If97
open Flt
variable {F : Type} [Add F] [Sub F] [Mul F] [Div F] [Neg F] [OfScientific F] [Flt F]

/-- `src/r4/region4_T_hs.rs:89-98` first `while` loop of `hs2T_reg4`: bisection in p on
the saturated liquid enthalpy; the result is `(p_Low_Bound, p_High_Bound)`. -/
def hs2T_reg4_bisect (h : F) (hL pLow pHigh : F) : Option (F × F) :=
  if fabs (hL - h) >. 1.0e-4 && fabs (pHigh - pLow) >. 1.0e-4 then
    let PL := 0.5 * (pLow + pHigh)
    let Tsat := T_saturation PL
    let hL := pT2h_reg1 PL Tsat
    if hL >. h then hs2T_reg4_bisect h hL pLow PL
    else hs2T_reg4_bisect h hL PL pHigh
  else some (pLow, pHigh)
partial_fixpoint

/-- `src/r4/region4_T_hs.rs:121-136` the entropy of the two-phase state `(p, h)`:
`sss` in one pass of the second `while` loop of `hs2T_reg4` -/
def hs2T_reg4_sss (h p : F) : F :=
  let Tsat := T_saturation p
  let xs := ph_reg4 p h OX
  let (s4v, s4L) : F × F :=
    if p <. Ps_623 then
      (pT2s_reg2 p Tsat, pT2s_reg1 p Tsat)
    else
      let v4v := ph_reg3 p (p2sat_steam p OH) OV
      let s4v := Td2s_reg3 Tsat (1.0 / v4v)
      let v4L := ph_reg3 p (p2sat_water p OH) OV
      let s4L := Td2s_reg3 Tsat (1.0 / v4L)
      (s4v, s4L)
  xs * s4v + (1.0 - xs) * s4L

/-- `src/r4/region4_T_hs.rs:120-145` second `while` loop of `hs2T_reg4`; result: the last `p` -/
def hs2T_reg4_loop (h s : F) (sss p pLow pHigh : F) : Option F :=
  if fabs (s - sss) >. 1.0e-6 then
    let p := 0.5 * (pLow + pHigh)
    let sss := hs2T_reg4_sss h p
    if sss <. s then
      hs2T_reg4_loop h s sss p ((1.0 + (sss - s) / s) * p) p
    else
      hs2T_reg4_loop h s sss p p ((1.0 + (sss - s) / s) * p)
  else some p
partial_fixpoint

/-- `src/r4/region4_T_hs.rs:73-148` hs2T_reg4 -/
def hs2T_reg4 (h s : F) : Option F := do
  if s >. s4V_623 && s <. s4V_273 then return hs2T_reg43 h s
  let (pLow, pHigh) ←
    if s >. s4L_273 && s <=. s4L_623 then hs2T_reg4_bisect h (-1000.0) P_MIN Ps_623
    else some (0.0, 0.0)
  let (pLow, pHigh) : F × F :=
    if s >. s4L_623 && s <=. SC_WATER then (P_MIN, h2p_sat_reg3 h) else (pLow, pHigh)
  let (pLow, pHigh) : F × F :=
    if s >. SC_WATER && s <=. s4V_623 then (P_MIN, h2p_sat_reg3 h) else (pLow, pHigh)
  let p ← hs2T_reg4_loop h s (-1000.0) 0.0 pLow pHigh
  return T_saturation p

/-- `src/r4/region4.rs:49-74` hs_reg4 -/
def hs_reg4 (h s : F) (o_id : Int) : Option F := do
  let T ← hs2T_reg4 h s
  if o_id == OT then return T - K
  let p : F := p_saturation T
  if o_id == OP then return p
  let h1 : F := p2sat_water p OH
  let h2 : F := p2sat_steam p OH
  let x : F := (h - h1) / (h2 - h1)
  if o_id == OX then return x
  if o_id == OT then return px_reg4 p x o_id - 273.15
  else return px_reg4 p x o_id

/-- `src/r4/region4.rs:131-154` the loop of `bisection_reg4`; first argument: passes left.
`fr` is written but never read in the Rust code and is left out. -/
def bisection_reg4_loop (x y : F) (y_id : Int) (tol : F) : Nat → (T Tl Tr fl : F) → F
  | 0, T, _, _, _ => T
  | n + 1, _, Tl, Tr, fl =>
    let T := 0.5 * (Tl + Tr)
    let f := Ty2x_residuals T x y y_id
    if fabs f <. tol then T
    else if f * fl <. 0.0 then bisection_reg4_loop x y y_id tol n T Tl T fl
    else bisection_reg4_loop x y y_id tol n T T Tr f

/-- `src/r4/region4.rs:124-156` bisection_reg4 -/
def bisection_reg4 (x y : F) (y_id : Int) (Tl Tr tol : F) (maxiter : Int) : F :=
  bisection_reg4_loop x y y_id tol maxiter.toNat 0.0 Tl Tr (Ty2x_residuals Tl x y y_id)

/-- `src/r4/region4.rs:159-167` hx_reg4 -/
def hx_reg4 (h x : F) (o_id : Int) : F :=
  let T : F := bisection_reg4 x h OH T_MIN4 T_MAX4 0.00001 1000
  if o_id == OT then T - 273.15
  else Tx_reg4 T x o_id

/-- `src/r4/region4.rs:170-178` sx_reg4 -/
def sx_reg4 (s x : F) (o_id : Int) : F :=
  let T : F := bisection_reg4 x s OS T_MIN4 T_MAX4 0.00001 1000
  if o_id == OT then T - 273.15
  else Tx_reg4 T x o_id

end If97
