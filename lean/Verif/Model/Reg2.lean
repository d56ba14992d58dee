/-
Generated by tools/rs2lean.py from the Rust sources cited below.
Number type `F` is abstract; see Verif/Model/Num.lean for the conventions.
-/
import Verif.Model.RegPair2
import Verif.Model.Pairs
import Verif.Model.PairLoops
set_option linter.unusedVariables false

namespace If97
open Flt
variable {F : Type} [Add F] [Sub F] [Mul F] [Div F] [Neg F] [OfScientific F] [Flt F]

/-! ### src/r2/region2.rs -/

/-- `src/r2/region2.rs:24-36` pT_thermal_reg2 -/
def pT_thermal_reg2 (p : F) (T : F) (o_id : Int) : F :=
  if o_id == OV then
    pT2v_reg2 p T
  else if o_id == OD then
    1.0 / pT2v_reg2 p T
  else if o_id == OH then
    pT2h_reg2 p T
  else if o_id == OS then
    pT2s_reg2 p T
  else if o_id == OU then
    pT2u_reg2 p T
  else if o_id == OCV then
    pT2cv_reg2 p T
  else if o_id == OCP then
    pT2cp_reg2 p T
  else if o_id == OW then
    pT2w_reg2 p T
  else
    pT_ext_reg2 p T o_id

/-- `src/r2/region2.rs:16-21` pT_reg2 -/
def pT_reg2 (p : F) (T : F) (o_id : Int) : F :=
  if o_id == OST || o_id == ODV || o_id == OKV || o_id == OTC || o_id == OSDC || o_id == OPR || o_id == OTD then
    pair_transport_reg p T o_id PAIRS.pT pT_thermal_reg2
  else
    pT_thermal_reg2 p T o_id

/-- `src/r2/region2.rs:38-41` pt_reg2 -/
def pt_reg2 (p : F) (t : F) (o_id : Int) : F :=
  let T : F := t + 273.15
  pT_reg2 p T o_id

/-- `src/r2/region2.rs:43-49` ph_reg2 -/
def ph_reg2 (p : F) (h : F) (o_id : Int) : F :=
  let T : F := ph2T_reg2 p h
  if o_id == OT then
    T - 273.15
  else
  pT_reg2 p T o_id

/-- `src/r2/region2.rs:51-57` ps_reg2 -/
def ps_reg2 (p : F) (s : F) (o_id : Int) : F :=
  let T : F := ps2T_reg2 p s
  if o_id == OT then
    T - 273.15
  else
  pT_reg2 p T o_id

/-- `src/r2/region2.rs:59-65` hs_reg2 -/
def hs_reg2 (h : F) (s : F) (o_id : Int) : F :=
  let p : F := hs2p_reg2 h s
  if o_id == OP then
    p
  else
  ph_reg2 p h o_id

/-- `src/r2/region2.rs:71-77` pv_reg2 -/
def pv_reg2 (p : F) (v : F) (o_id : Int) : F :=
  let T : F := pv2T_reg2 p v
  if o_id == OT then
    T - 273.15
  else
  pT_reg2 p T o_id

/-- `src/r2/region2.rs:99-105` ts_reg2 -/
def ts_reg2 (t : F) (s : F) (o_id : Int) : F :=
  let p : F := Ts2p_reg2 (t + 273.15) s
  if o_id == OP then
    p
  else
  pT_reg2 p (t + 273.15) o_id

end If97
