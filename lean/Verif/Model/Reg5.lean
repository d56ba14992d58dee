/-
Generated by tools/rs2lean.py from the Rust sources cited below.
Number type `F` is abstract; see Verif/Model/Num.lean for the conventions.
-/
import Verif.Model.RegPair5
import Verif.Model.Pairs
import Verif.Model.PairLoops
set_option linter.unusedVariables false

namespace If97
open Flt
variable {F : Type} [Add F] [Sub F] [Mul F] [Div F] [Neg F] [OfScientific F] [Flt F]

/-! ### src/r5/region5.rs -/

/-- `src/r5/region5.rs:15-27` pT_thermal_reg5 -/
def pT_thermal_reg5 (p : F) (T : F) (o_id : Int) : F :=
  if o_id == OV then
    pT2v_reg5 p T
  else if o_id == OD then
    1.0 / pT2v_reg5 p T
  else if o_id == OH then
    pT2h_reg5 p T
  else if o_id == OS then
    pT2s_reg5 p T
  else if o_id == OU then
    pT2u_reg5 p T
  else if o_id == OCV then
    pT2cv_reg5 p T
  else if o_id == OCP then
    pT2cp_reg5 p T
  else if o_id == OW then
    pT2w_reg5 p T
  else
    pT_ext_reg5 p T o_id

/-- `src/r5/region5.rs:8-13` pT_reg5 -/
def pT_reg5 (p : F) (T : F) (o_id : Int) : F :=
  if o_id == OST || o_id == ODV || o_id == OKV || o_id == OTC || o_id == OSDC || o_id == OPR || o_id == OTD then
    pair_transport_reg p T o_id PAIRS.pT pT_thermal_reg5
  else
    pT_thermal_reg5 p T o_id

/-- `src/r5/region5.rs:29-32` pt_reg5 -/
def pt_reg5 (p : F) (t : F) (o_id : Int) : F :=
  let T : F := t + K
  pT_reg5 p T o_id

/-- `src/r5/region5.rs:34-40` ph_reg5 -/
def ph_reg5 (p : F) (h : F) (o_id : Int) : F :=
  let T : F := ph2T_reg5 p h
  if o_id == OT then
    T - 273.15
  else
  pT_reg5 p T o_id

/-- `src/r5/region5.rs:42-48` ps_reg5 -/
def ps_reg5 (p : F) (s : F) (o_id : Int) : F :=
  let T : F := ps2T_reg5 p s
  if o_id == OT then
    T - 273.15
  else
  pT_reg5 p T o_id

/-- `src/r5/region5.rs:50-56` hs_reg5 -/
def hs_reg5 (h : F) (s : F) (o_id : Int) : F :=
  let p : F := hs2p_reg5 h s
  if o_id == OP then
    p
  else
  ph_reg5 p h o_id

/-- `src/r5/region5.rs:61-67` pv_reg5 -/
def pv_reg5 (p : F) (v : F) (o_id : Int) : F :=
  let T : F := pv2T_reg5 p v
  if o_id == OT then
    T - 273.15
  else
  pT_reg5 p T o_id

/-- `src/r5/region5.rs:82-88` th_reg5 -/
def th_reg5 (t : F) (h : F) (o_id : Int) : F :=
  let p : F := Th2p_reg5 (t + 273.15) h
  if o_id == OP then
    p
  else
  pT_reg5 p (t + 273.15) o_id

/-- `src/r5/region5.rs:91-97` ts_reg5 -/
def ts_reg5 (t : F) (s : F) (o_id : Int) : F :=
  let p : F := Ts2p_reg5 (t + 273.15) s
  if o_id == OP then
    p
  else
  pT_reg5 p (t + 273.15) o_id

end If97
