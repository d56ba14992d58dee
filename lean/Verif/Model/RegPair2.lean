/-
Generated by tools/rs2lean.py from the Rust sources cited below.
Number type `F` is abstract; see Verif/Model/Num.lean for the conventions.
-/
import Verif.Model.R2
import Verif.Model.Sat
import Verif.Model.Root
import Verif.Model.Bound
set_option linter.unusedVariables false

namespace If97
open Flt
variable {F : Type} [Add F] [Sub F] [Mul F] [Div F] [Neg F] [OfScientific F] [Flt F]

/-! ### src/r2/region2_pair_ext.rs -/

/-- `src/r2/region2_pair_ext.rs:11-23` p2Tmin_reg2 -/
def p2Tmin_reg2 (p : F) : F :=
  let Tmin :=
    if p >. 0.0 && p <. 0.000611213 then
      T_MIN2
    else if p >=. 0.000611213 && p <=. p_saturation 623.15 then
      T_saturation p
    else
      B23_p2T p
  Tmin

/-- `src/r2/region2_pair_ext.rs:25-39` T2pmax_reg2 -/
def T2pmax_reg2 (T : F) : F :=
  let pmax : F := P_MAX2
  let pmax :=
    if T >=. 273.15 && T <=. 623.15 then
      p_saturation T
    else if T >. 623.15 && T <=. 863.15 then
      B23_T2p T
    else if T >. 863.15 && T <=. 1073.15 then
      100.0
    else
      pmax
  pmax

/-- `src/r2/region2_pair_ext.rs:248-273` Ts2p_reg2 -/
def Ts2p_reg2 (T : F) (s : F) : F :=
  let pmax2 : F := T2pmax_reg2 T
  let p1 : F := P_MIN2
  let s1 : F := pT2s_reg2 p1 T
  let p2 : F := pmax2
  let s2 : F := pT2s_reg2 p2 T
  let f2 : F := s - s2
  let p1 := p2 - (p2 - p1) * (s - s2) / (s1 - s2)
  let p1 :=
    if p1 <. P_MIN2 then
      P_MIN2
    else
      p1
  let s1 := pT2s_reg2 p1 T
  let f1 := s - s1
  if fabs f1 <. ESP then
    p1
  else
  let p : F := rtsec1 pT2s_reg2 T s p1 p2 f1 f2 ESP I_MAX
  let p :=
    if p <. P_MIN2 then
      P_MIN2
    else if p >. pmax2 then
      pmax2
    else
      p
  p

end If97
