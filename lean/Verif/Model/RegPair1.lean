/-
Generated by tools/rs2lean.py from the Rust sources cited below.
Number type `F` is abstract; see Verif/Model/Num.lean for the conventions.
-/
import Verif.Model.R1
import Verif.Model.Sat
import Verif.Model.Root
import Verif.Model.Pairs
set_option linter.unusedVariables false

namespace If97
open Flt
variable {F : Type} [Add F] [Sub F] [Mul F] [Div F] [Neg F] [OfScientific F] [Flt F]

/-! ### src/r1/region1_pair_ext.rs -/

/-- `src/r1/region1_pair_ext.rs:106-113` Tv2p_reg1 -/
def Tv2p_reg1 (T : F) (v : F) : F :=
  let p1 : F := 0.3 * (p_saturation T + P_MAX1)
  let p2 : F := 1.05 * p1
  let f1 : F := v - pT2v_reg1 p1 T
  let f : F := v - pT2v_reg1 p2 T
  let p : F := rtsec1 pT2v_reg1 T v p1 p2 f1 f ESP I_MAX
  p

/-- `src/r1/region1_pair_ext.rs:119-143` Th2p_reg1 -/
def Th2p_reg1 (T : F) (h : F) : F :=
  let pmin1 : F := p_saturation T
  let p1 : F := pmin1
  let p2 : F := P_MAX1
  let h1 : F := pT2h_reg1 p1 T
  if fabs (h - h1) <. ESP then
    p1
  else
  let h2 : F := pT2h_reg1 p2 T
  if fabs (h - h2) <. ESP then
    p2
  else
  let f1 : F := h - pT2h_reg1 p1 T
  let f : F := h - pT2h_reg1 p2 T
  let p : F := rtsec1 pT2h_reg1 T h p1 p2 f1 f ESP I_MAX
  let p :=
    if p >. P_MAX1 then
      P_MAX1
    else
      p
  let p :=
    if p <. pmin1 then
      pmin1
    else
      p
  p

/-- `src/r1/region1_pair_ext.rs:149-173` Ts2p_reg1 -/
def Ts2p_reg1 (T : F) (s : F) : F :=
  let pmin1 : F := p_saturation T
  let p1 : F := pmin1
  let s1 : F := pT2s_reg1 p1 T
  let p2 : F := P_MAX1
  let s2 : F := pT2s_reg1 p2 T
  let f2 : F := s - s2
  let p1 := p2 - (p2 - p1) * (s - s2) / (s1 - s2)
  let p1 :=
    if p1 <. pmin1 then
      pmin1
    else
      p1
  let s1 := pT2s_reg1 p1 T
  let f1 := s - s1
  if fabs f1 <. ESP then
    p1
  else
  let p : F := rtsec1 pT2s_reg1 T s p1 p2 f1 f2 ESP I_MAX
  let p :=
    if p >. P_MAX1 then
      P_MAX1
    else if p <. pmin1 then
      pmin1
    else
      p
  p

end If97
