/-
Generated by tools/rs2lean.py from the Rust sources cited below.
Number type `F` is abstract; see Verif/Model/Num.lean for the conventions.
-/
import Verif.Model.R5
set_option linter.unusedVariables false

namespace If97
open Flt
variable {F : Type} [Add F] [Sub F] [Mul F] [Div F] [Neg F] [OfScientific F] [Flt F]

/-! ### src/r5/region5_pair_ext.rs -/

/-- `src/r5/region5_pair_ext.rs:10-29` pv2T_reg5 -/
def pv2T_reg5 (p : F) (v : F) : F :=
  let T1 : F := T_MIN5
  let v1 : F := pT2v_reg5 p T1
  let T2 : F := T_MAX5
  let v2 : F := pT2v_reg5 p T2
  let f : F := v - pT2v_reg5 p T2
  let T1 :=
    if v2 - v1 !=. 0.0 then
      T1 + (T2 - T1) * (v - v1) / (v2 - v1)
    else
      T1
  let f1 : F := v - pT2v_reg5 p T1
  let T : F := rtsec2 pT2v_reg5 p v T1 T2 f1 f ESP I_MAX
  let T :=
    if T <. T_MIN5 then
      T_MIN5
    else if T >. T_MAX5 then
      T_MAX5
    else
      T
  T

/-- `src/r5/region5_pair_ext.rs:91-110` Th2p_reg5 -/
def Th2p_reg5 (T : F) (h : F) : F :=
  let p1 : F := P_MIN5
  let h1 : F := pT2h_reg5 p1 T
  let p2 : F := P_MAX5
  let h2 : F := pT2h_reg5 p2 T
  let f2 : F := h - h2
  let p1 := p2 - (p2 - p1) * fabs ((h - h2) / (h1 - h2))
  let f1 : F := h - pT2h_reg5 p1 T
  if fabs f1 <. ESP then
    p1
  else
  let p : F := rtsec1 pT2h_reg5 T h p1 p2 f1 f2 ESP I_MAX
  let p :=
    if p >. P_MAX5 then
      P_MAX5
    else
      p
  let p :=
    if p <. P_MIN5 then
      P_MIN5
    else
      p
  p

/-- `src/r5/region5_pair_ext.rs:113-136` Ts2p_reg5 -/
def Ts2p_reg5 (T : F) (s : F) : F :=
  let p1 : F := P_MIN5
  let s1 : F := pT2s_reg5 p1 T
  let p2 : F := P_MAX5
  let s2 : F := pT2s_reg5 p2 T
  let f2 : F := s - s2
  let p1 := p2 - (p2 - p1) * (s - s2) / (s1 - s2)
  let p1 :=
    if p1 <. P_MIN5 then
      P_MIN5
    else
      p1
  let s1 := pT2s_reg5 p1 T
  let f1 := s - s1
  if fabs f1 <. ESP then
    p1
  else
  let p : F := rtsec1 pT2s_reg5 T s p1 p2 f1 f2 ESP I_MAX
  let p :=
    if p >. P_MAX5 then
      P_MAX5
    else if p <. P_MIN5 then
      P_MIN5
    else
      p
  p

end If97
