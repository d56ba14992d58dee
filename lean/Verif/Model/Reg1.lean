/-
Generated by tools/rs2lean.py from the Rust sources cited below.
Number type `F` is abstract; see Verif/Model/Num.lean for the conventions.
-/
import Verif.Model.RegPair1
import Verif.Model.PairLoops
set_option linter.unusedVariables false

namespace If97
open Flt
variable {F : Type} [Add F] [Sub F] [Mul F] [Div F] [Neg F] [OfScientific F] [Flt F]

/-! ### src/r1/region1.rs -/

/-- `src/r1/region1.rs:17-29` pT_thermal_reg1 -/
def pT_thermal_reg1 (p : F) (T : F) (o_id : Int) : F :=
  if o_id == OV then
    pT2v_reg1 p T
  else if o_id == OD then
    1.0 / pT2v_reg1 p T
  else if o_id == OH then
    pT2h_reg1 p T
  else if o_id == OS then
    pT2s_reg1 p T
  else if o_id == OU then
    pT2u_reg1 p T
  else if o_id == OCV then
    pT2cv_reg1 p T
  else if o_id == OCP then
    pT2cp_reg1 p T
  else if o_id == OW then
    pT2w_reg1 p T
  else
    pT_ext_reg1 p T o_id

/-- `src/r1/region1.rs:9-14` pT_reg1 -/
def pT_reg1 (p : F) (T : F) (o_id : Int) : F :=
  if o_id == OST || o_id == ODV || o_id == OKV || o_id == OTC || o_id == OSDC || o_id == OPR || o_id == OTD then
    pair_transport_reg p T o_id PAIRS.pT pT_thermal_reg1
  else
    pT_thermal_reg1 p T o_id

/-- `src/r1/region1.rs:31-34` pt_reg1 -/
def pt_reg1 (p : F) (t : F) (o_id : Int) : F :=
  let T : F := t + K
  pT_reg1 p T o_id

/-- `src/r1/region1.rs:36-42` ph_reg1 -/
def ph_reg1 (p : F) (h : F) (o_id : Int) : F :=
  let T : F := ph2T_reg1 p h
  if o_id == OT then
    T - 273.15
  else
  pT_reg1 p T o_id

/-- `src/r1/region1.rs:44-50` ps_reg1 -/
def ps_reg1 (p : F) (s : F) (o_id : Int) : F :=
  let T : F := ps2T_reg1 p s
  if o_id == OT then
    T - 273.15
  else
  pT_reg1 p T o_id

/-- `src/r1/region1.rs:52-58` hs_reg1 -/
def hs_reg1 (h : F) (s : F) (o_id : Int) : F :=
  let p : F := hs2p_reg1 h s
  if o_id == OP then
    p
  else
  ph_reg1 p h o_id

/-- `src/r1/region1.rs:64-70` pv_reg1 -/
def pv_reg1 (p : F) (v : F) (o_id : Int) : F :=
  let T : F := pv2T_reg1 p v
  if o_id == OT then
    T - 273.15
  else
  pT_reg1 p T o_id

/-- `src/r1/region1.rs:73-82` tv_reg1 -/
def tv_reg1 (t : F) (v : F) (o_id : Int) : F :=
  if o_id == OD then
    1.0 / v
  else
  let p : F := Tv2p_reg1 (t + 273.15) v
  if o_id == OP then
    p
  else
  pT_reg1 p (t + 273.15) o_id

/-- `src/r1/region1.rs:85-91` th_reg1 -/
def th_reg1 (t : F) (h : F) (o_id : Int) : F :=
  let p : F := Th2p_reg1 (t + 273.15) h
  if o_id == OP then
    p
  else
  pT_reg1 p (t + 273.15) o_id

/-- `src/r1/region1.rs:94-100` ts_reg1 -/
def ts_reg1 (t : F) (s : F) (o_id : Int) : F :=
  let p : F := Ts2p_reg1 (t + 273.15) s
  if o_id == OP then
    p
  else
  pT_reg1 p (t + 273.15) o_id

end If97
