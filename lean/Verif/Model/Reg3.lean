/-
Generated by tools/rs2lean.py from the Rust sources cited below.
Number type `F` is abstract; see Verif/Model/Num.lean for the conventions.
-/
import Verif.Model.R3
import Verif.Model.R3v
import Verif.Model.Root
import Verif.Model.Pairs
set_option linter.unusedVariables false

namespace If97
open Flt
variable {F : Type} [Add F] [Sub F] [Mul F] [Div F] [Neg F] [OfScientific F] [Flt F]

/-! ### src/r3/region3_pair_ext.rs -/

/-- `src/r3/region3_pair_ext.rs:11-18` pv2T_reg3 -/
def pv2T_reg3 (p : F) (v : F) : F :=
  let T1 : F := T_MIN3
  let T2 : F := B23_p2T p
  let d : F := 1.0 / v
  let f1 : F := p - Td2p_reg3 T1 d
  let f2 : F := p - Td2p_reg3 T2 d
  rtsec1 Td2p_reg3 d p T1 T2 f1 f2 ESP I_MAX

/-- `src/r3/region3_pair_ext.rs:21-29` Th2d_reg3 -/
def Th2d_reg3 (T : F) (h : F) : F :=
  let p1 : F := B23_T2p T
  let d1 : F := 1.0 / pT2v_reg3 p1 T
  let p2 : F := P_MAX3
  let d2 : F := 1.0 / pT2v_reg3 p2 T
  let f1 : F := h - Td2h_reg3 T d1
  let f2 : F := h - Td2h_reg3 T d2
  rtsec2 Td2h_reg3 T h d1 d2 f1 f2 ESP I_MAX

/-- `src/r3/region3_pair_ext.rs:35-41` Ts2d_reg3 -/
def Ts2d_reg3 (T : F) (s : F) : F :=
  let d1 : F := 100.0
  let d2 : F := 1.1 * d1
  let ft : F := s - Td2s_reg3 T d1
  let f : F := s - Td2s_reg3 T d2
  rtsec2 Td2s_reg3 T s d1 d2 ft f ESP I_MAX

/-! ### src/r3/region3.rs -/

/-- `src/r3/region3.rs:22-34` Td_thermal_reg3 -/
def Td_thermal_reg3 (T : F) (d : F) (o_id : Int) : F :=
  if o_id == OV then
    1.0 / d
  else if o_id == OP then
    Td2p_reg3 T d
  else if o_id == OH then
    Td2h_reg3 T d
  else if o_id == OS then
    Td2s_reg3 T d
  else if o_id == OU then
    Td2u_reg3 T d
  else if o_id == OCV then
    Td2cv_reg3 T d
  else if o_id == OCP then
    Td2cp_reg3 T d
  else if o_id == OW then
    Td2w_reg3 T d
  else
    Td_ext_reg3 T d o_id

/-- `src/r3/region3.rs:14-19` Td_reg3 -/
def Td_reg3 (T : F) (d : F) (o_id : Int) : F :=
  if o_id == OST || o_id == ODV || o_id == OKV || o_id == OTC || o_id == OSDC || o_id == OPR || o_id == OTD then
    pair_transport_reg T d o_id PAIRS.Td Td_thermal_reg3
  else
    Td_thermal_reg3 T d o_id

/-- `src/r3/region3.rs:36-38` td_reg3 -/
def td_reg3 (t : F) (d : F) (o_id : Int) : F :=
  Td_reg3 (t + K) d o_id

/-- `src/r3/region3.rs:40-50` pT_reg3 -/
def pT_reg3 (p : F) (T : F) (o_id : Int) : F :=
  let v : F := pT2v_reg3 p T
  if o_id == OV then
    v
  else
  let d : F := 1.0 / v
  if o_id == OD then
    d
  else
  Td_reg3 T d o_id

/-- `src/r3/region3.rs:52-55` pt_reg3 -/
def pt_reg3 (p : F) (t : F) (o_id : Int) : F :=
  let T : F := t + 273.15
  pT_reg3 p T o_id

/-- `src/r3/region3.rs:57-71` ph_reg3 -/
def ph_reg3 (p : F) (h : F) (o_id : Int) : F :=
  let v : F := ph2v_reg3 p h
  if o_id == OV then
    v
  else
  let d : F := 1.0 / v
  if o_id == OD then
    d
  else
  let T : F := ph2T_reg3 p h
  if o_id == OT then
    T - K
  else
  Td_reg3 T d o_id

/-- `src/r3/region3.rs:73-87` ps_reg3 -/
def ps_reg3 (p : F) (s : F) (o_id : Int) : F :=
  let v : F := ps2v_reg3 p s
  if o_id == OV then
    v
  else
  let d : F := 1.0 / v
  if o_id == OD then
    d
  else
  let T : F := ps2T_reg3 p s
  if o_id == OT then
    T - K
  else
  Td_reg3 T d o_id

/-- `src/r3/region3.rs:89-107` hs_reg3 -/
def hs_reg3 (h : F) (s : F) (o_id : Int) : F :=
  let p : F := hs2p_reg3 h s
  if o_id == OP then
    p
  else
  let T : F := ph2T_reg3 p h
  if o_id == OT then
    T - 273.15
  else
  let v : F := ph2v_reg3 p h
  if o_id == OV then
    v
  else
  let d : F := 1.0 / v
  if o_id == OD then
    d
  else
  Td_reg3 T d o_id

/-- `src/r3/region3.rs:113-123` pv_reg3 -/
def pv_reg3 (p : F) (v : F) (o_id : Int) : F :=
  let d : F := 1.0 / v
  if o_id == OD then
    d
  else
  let T : F := pv2T_reg3 p v
  if o_id == OT then
    T - K
  else
  Td_reg3 T d o_id

/-- `src/r3/region3.rs:126-132` tv_reg3 -/
def tv_reg3 (t : F) (v : F) (o_id : Int) : F :=
  let d : F := 1.0 / v
  if o_id == OD then
    d
  else
  Td_reg3 (t + K) d o_id

/-- `src/r3/region3.rs:135-144` th_reg3 -/
def th_reg3 (t : F) (h : F) (o_id : Int) : F :=
  let d : F := Th2d_reg3 (t + 273.15) h
  if o_id == OD then
    d
  else
  if o_id == OV then
    1.0 / d
  else
  Td_reg3 (t + K) d o_id

/-- `src/r3/region3.rs:147-156` ts_reg3 -/
def ts_reg3 (t : F) (s : F) (o_id : Int) : F :=
  let d : F := Ts2d_reg3 (t + 273.15) s
  if o_id == OD then
    d
  else
  if o_id == OV then
    1.0 / d
  else
  Td_reg3 (t + K) d o_id

end If97
