/-
Generated by tools/rs2lean.py from the Rust sources cited below.
Number type `F` is abstract; see Verif/Model/Num.lean for the conventions.
-/
import Verif.Model.PairProps
set_option linter.unusedVariables false

namespace If97
open Flt
variable {F : Type} [Add F] [Sub F] [Mul F] [Div F] [Neg F] [OfScientific F] [Flt F]

/-! ### src/rust_if97.rs -/

/-- `src/rust_if97.rs:72-83` pt -/
def Rust.pt (p : F) (t : F) (o_id_reg : OIdRegionArgs) : Option F :=
  let (o_id, reg) := o_id_reg_info o_id_reg
  let T : F := t + 273.15
  if o_id == OP then
    some p
  else if o_id == OT then
    some t
  else
    pair_properties p T o_id (liftR pT_sub_region) (liftP pT_reg1) (liftP pT_reg2) (liftP pT_reg3) (liftP pT_reg4) (liftP pT_reg5) reg

/-- `src/rust_if97.rs:101-111` ph -/
def Rust.ph (p : F) (h : F) (o_id_reg : OIdRegionArgs) : Option F :=
  let (o_id, reg) := o_id_reg_info o_id_reg
  if o_id == OP then
    some p
  else if o_id == OH then
    some h
  else
    pair_properties p h o_id (liftR ph_sub_region) (liftP ph_reg1) (liftP ph_reg2) (liftP ph_reg3) (liftP ph_reg4) (liftP ph_reg5) reg

/-- `src/rust_if97.rs:127-137` ps -/
def Rust.ps (p : F) (s : F) (o_id_reg : OIdRegionArgs) : Option F :=
  let (o_id, reg) := o_id_reg_info o_id_reg
  if o_id == OP then
    some p
  else if o_id == OS then
    some s
  else
    pair_properties p s o_id (liftR ps_sub_region) (liftP ps_reg1) (liftP ps_reg2) (liftP ps_reg3) (liftP ps_reg4) (liftP ps_reg5) reg

/-- `src/rust_if97.rs:155-165` hs -/
def Rust.hs (h : F) (s : F) (o_id_reg : OIdRegionArgs) : Option F :=
  let (o_id, reg) := o_id_reg_info o_id_reg
  if o_id == OH then
    some h
  else if o_id == OS then
    some s
  else
    pair_properties h s o_id (liftR hs_sub_region) (liftP hs_reg1) (liftP hs_reg2) (liftP hs_reg3) hs_reg4 (liftP hs_reg5) reg

/-- `src/rust_if97.rs:183-192` px -/
def Rust.px (p : F) (x : F) (o_id : Int) : Option F :=
  if p >. P_MAX4 || p <. P_MIN4 || x >. 1.0 || x <. 0.0 then
    some (ofI32 INVALID_VALUE)
  else
  if o_id == OP then
    some p
  else if o_id == OX then
    some x
  else
    some (px_reg4 p x o_id)

/-- `src/rust_if97.rs:208-220` tx -/
def Rust.tx (t : F) (x : F) (o_id : Int) : Option F :=
  if o_id == OT then
    some t
  else if o_id == OX then
    some x
  else
    let T : F := t + 273.15
    if T >. T_MAX4 || T <. T_MIN4 || x >. 1.0 || x <. 0.0 then
      some (ofI32 INVALID_VALUE)
    else
    some (Tx_reg4 T x o_id)

/-- `src/rust_if97.rs:239-249` pv -/
def Rust.pv (p : F) (v : F) (o_id_reg : OIdRegionArgs) : Option F :=
  let (o_id, reg) := o_id_reg_info o_id_reg
  if o_id == OP then
    some p
  else if o_id == OV then
    some v
  else
    pair_properties p v o_id (liftR pv_sub_region) (liftP pv_reg1) (liftP pv_reg2) (liftP pv_reg3) (liftP pv_reg4) (liftP pv_reg5) reg

/-- `src/rust_if97.rs:266-276` tv -/
def Rust.tv (t : F) (v : F) (o_id_reg : OIdRegionArgs) : Option F :=
  let (o_id, reg) := o_id_reg_info o_id_reg
  if o_id == OT then
    some t
  else if o_id == OV then
    some v
  else
    pair_properties t v o_id (liftR tv_sub_region) (liftP tv_reg1) tv_reg2 (liftP tv_reg3) (liftP tv_reg4) tv_reg5 reg

/-- `src/rust_if97.rs:293-303` th -/
def Rust.th (t : F) (h : F) (o_id_reg : OIdRegionArgs) : Option F :=
  let (o_id, reg) := o_id_reg_info o_id_reg
  if o_id == OT then
    some t
  else if o_id == OH then
    some h
  else
    pair_properties t h o_id th_sub_region (liftP th_reg1) th_reg2 (liftP th_reg3) (liftP th_reg4) (liftP th_reg5) reg

/-- `src/rust_if97.rs:320-330` ts -/
def Rust.ts (t : F) (s : F) (o_id_reg : OIdRegionArgs) : Option F :=
  let (o_id, reg) := o_id_reg_info o_id_reg
  if o_id == OT then
    some t
  else if o_id == OS then
    some s
  else
    pair_properties t s o_id (liftR ts_sub_region) (liftP ts_reg1) (liftP ts_reg2) (liftP ts_reg3) (liftP ts_reg4) (liftP ts_reg5) reg

/-- `src/rust_if97.rs:346-355` hx -/
def Rust.hx (h : F) (x : F) (o_id : Int) : Option F :=
  if h >. H_MAX4 || h <. H_MIN4 || x >. 1.0 || x <. 0.0 then
    some (ofI32 INVALID_VALUE)
  else
  if o_id == OH then
    some h
  else if o_id == OX then
    some x
  else
    some (hx_reg4 h x o_id)

/-- `src/rust_if97.rs:371-380` sx -/
def Rust.sx (s : F) (x : F) (o_id : Int) : Option F :=
  if s >. S_MAX4 || s <. S_MIN4 || x >. 1.0 || x <. 0.0 then
    some (ofI32 INVALID_VALUE)
  else
  if o_id == OS then
    some s
  else if o_id == OX then
    some x
  else
    some (sx_reg4 s x o_id)

/-! ### src/cdecl_c_if97.rs -/

/-- `src/cdecl_c_if97.rs:13-21` pt -/
def Cdecl.pt (p : F) (t : F) (o_id : Int) : Option F :=
  let T : F := t + 273.15
  let reg : Int := REGION_NONE
  if o_id == OP then
    some p
  else if o_id == OT then
    some t
  else
    pair_properties p T o_id (liftR pT_sub_region) (liftP pT_reg1) (liftP pT_reg2) (liftP pT_reg3) (liftP pT_reg4) (liftP pT_reg5) reg

/-- `src/cdecl_c_if97.rs:25-32` ph -/
def Cdecl.ph (p : F) (h : F) (o_id : Int) : Option F :=
  let reg : Int := REGION_NONE
  if o_id == OP then
    some p
  else if o_id == OH then
    some h
  else
    pair_properties p h o_id (liftR ph_sub_region) (liftP ph_reg1) (liftP ph_reg2) (liftP ph_reg3) (liftP ph_reg4) (liftP ph_reg5) reg

/-- `src/cdecl_c_if97.rs:36-43` ps -/
def Cdecl.ps (p : F) (s : F) (o_id : Int) : Option F :=
  let reg : Int := REGION_NONE
  if o_id == OP then
    some p
  else if o_id == OS then
    some s
  else
    pair_properties p s o_id (liftR ps_sub_region) (liftP ps_reg1) (liftP ps_reg2) (liftP ps_reg3) (liftP ps_reg4) (liftP ps_reg5) reg

/-- `src/cdecl_c_if97.rs:47-54` hs -/
def Cdecl.hs (h : F) (s : F) (o_id : Int) : Option F :=
  let reg : Int := REGION_NONE
  if o_id == OH then
    some h
  else if o_id == OS then
    some s
  else
    pair_properties h s o_id (liftR hs_sub_region) (liftP hs_reg1) (liftP hs_reg2) (liftP hs_reg3) hs_reg4 (liftP hs_reg5) reg

/-- `src/cdecl_c_if97.rs:58-67` px -/
def Cdecl.px (p : F) (x : F) (o_id : Int) : Option F :=
  if p >. P_MAX4 || p <. P_MIN4 || x >. 1.0 || x <. 0.0 then
    some (ofI32 INVALID_VALUE)
  else
  if o_id == OP then
    some p
  else if o_id == OX then
    some x
  else
    some (px_reg4 p x o_id)

/-- `src/cdecl_c_if97.rs:71-83` tx -/
def Cdecl.tx (t : F) (x : F) (o_id : Int) : Option F :=
  if o_id == OT then
    some t
  else if o_id == OX then
    some x
  else
    let T : F := t + 273.15
    if T >. T_MAX4 || T <. T_MIN4 || x >. 1.0 || x <. 0.0 then
      some (ofI32 INVALID_VALUE)
    else
    some (Tx_reg4 T x o_id)

/-- `src/cdecl_c_if97.rs:87-94` pv -/
def Cdecl.pv (p : F) (v : F) (o_id : Int) : Option F :=
  let reg : Int := REGION_NONE
  if o_id == OP then
    some p
  else if o_id == OV then
    some v
  else
    pair_properties p v o_id (liftR pv_sub_region) (liftP pv_reg1) (liftP pv_reg2) (liftP pv_reg3) (liftP pv_reg4) (liftP pv_reg5) reg

/-- `src/cdecl_c_if97.rs:98-105` tv -/
def Cdecl.tv (t : F) (v : F) (o_id : Int) : Option F :=
  let reg : Int := REGION_NONE
  if o_id == OT then
    some t
  else if o_id == OV then
    some v
  else
    pair_properties t v o_id (liftR tv_sub_region) (liftP tv_reg1) tv_reg2 (liftP tv_reg3) (liftP tv_reg4) tv_reg5 reg

/-- `src/cdecl_c_if97.rs:109-116` th -/
def Cdecl.th (t : F) (h : F) (o_id : Int) : Option F :=
  let reg : Int := REGION_NONE
  if o_id == OT then
    some t
  else if o_id == OH then
    some h
  else
    pair_properties t h o_id th_sub_region (liftP th_reg1) th_reg2 (liftP th_reg3) (liftP th_reg4) (liftP th_reg5) reg

/-- `src/cdecl_c_if97.rs:120-127` ts -/
def Cdecl.ts (t : F) (s : F) (o_id : Int) : Option F :=
  let reg : Int := REGION_NONE
  if o_id == OT then
    some t
  else if o_id == OS then
    some s
  else
    pair_properties t s o_id (liftR ts_sub_region) (liftP ts_reg1) (liftP ts_reg2) (liftP ts_reg3) (liftP ts_reg4) (liftP ts_reg5) reg

/-- `src/cdecl_c_if97.rs:131-140` hx -/
def Cdecl.hx (h : F) (x : F) (o_id : Int) : Option F :=
  if h >. H_MAX4 || h <. H_MIN4 || x >. 1.0 || x <. 0.0 then
    some (ofI32 INVALID_VALUE)
  else
  if o_id == OH then
    some h
  else if o_id == OX then
    some x
  else
    some (hx_reg4 h x o_id)

/-- `src/cdecl_c_if97.rs:144-153` sx -/
def Cdecl.sx (s : F) (x : F) (o_id : Int) : Option F :=
  if s >. S_MAX4 || s <. S_MIN4 || x >. 1.0 || x <. 0.0 then
    some (ofI32 INVALID_VALUE)
  else
  if o_id == OS then
    some s
  else if o_id == OX then
    some x
  else
    some (sx_reg4 s x o_id)

/-! ### src/stdcall_c_if97.rs -/

/-- `src/stdcall_c_if97.rs:13-21` pt -/
def Stdcall.pt (p : F) (t : F) (o_id : Int) : Option F :=
  let T : F := t + 273.15
  let reg : Int := REGION_NONE
  if o_id == OP then
    some p
  else if o_id == OT then
    some t
  else
    pair_properties p T o_id (liftR pT_sub_region) (liftP pT_reg1) (liftP pT_reg2) (liftP pT_reg3) (liftP pT_reg4) (liftP pT_reg5) reg

/-- `src/stdcall_c_if97.rs:25-32` ph -/
def Stdcall.ph (p : F) (h : F) (o_id : Int) : Option F :=
  let reg : Int := REGION_NONE
  if o_id == OP then
    some p
  else if o_id == OH then
    some h
  else
    pair_properties p h o_id (liftR ph_sub_region) (liftP ph_reg1) (liftP ph_reg2) (liftP ph_reg3) (liftP ph_reg4) (liftP ph_reg5) reg

/-- `src/stdcall_c_if97.rs:36-43` ps -/
def Stdcall.ps (p : F) (s : F) (o_id : Int) : Option F :=
  let reg : Int := REGION_NONE
  if o_id == OP then
    some p
  else if o_id == OS then
    some s
  else
    pair_properties p s o_id (liftR ps_sub_region) (liftP ps_reg1) (liftP ps_reg2) (liftP ps_reg3) (liftP ps_reg4) (liftP ps_reg5) reg

/-- `src/stdcall_c_if97.rs:47-54` hs -/
def Stdcall.hs (h : F) (s : F) (o_id : Int) : Option F :=
  let reg : Int := REGION_NONE
  if o_id == OH then
    some h
  else if o_id == OS then
    some s
  else
    pair_properties h s o_id (liftR hs_sub_region) (liftP hs_reg1) (liftP hs_reg2) (liftP hs_reg3) hs_reg4 (liftP hs_reg5) reg

/-- `src/stdcall_c_if97.rs:58-67` px -/
def Stdcall.px (p : F) (x : F) (o_id : Int) : Option F :=
  if p >. P_MAX4 || p <. P_MIN4 || x >. 1.0 || x <. 0.0 then
    some (ofI32 INVALID_VALUE)
  else
  if o_id == OP then
    some p
  else if o_id == OX then
    some x
  else
    some (px_reg4 p x o_id)

/-- `src/stdcall_c_if97.rs:71-83` tx -/
def Stdcall.tx (t : F) (x : F) (o_id : Int) : Option F :=
  if o_id == OT then
    some t
  else if o_id == OX then
    some x
  else
    let T : F := t + 273.15
    if T >. T_MAX4 || T <. T_MIN4 || x >. 1.0 || x <. 0.0 then
      some (ofI32 INVALID_VALUE)
    else
    some (Tx_reg4 T x o_id)

/-- `src/stdcall_c_if97.rs:87-94` pv -/
def Stdcall.pv (p : F) (v : F) (o_id : Int) : Option F :=
  let reg : Int := REGION_NONE
  if o_id == OP then
    some p
  else if o_id == OV then
    some v
  else
    pair_properties p v o_id (liftR pv_sub_region) (liftP pv_reg1) (liftP pv_reg2) (liftP pv_reg3) (liftP pv_reg4) (liftP pv_reg5) reg

/-- `src/stdcall_c_if97.rs:98-105` tv -/
def Stdcall.tv (t : F) (v : F) (o_id : Int) : Option F :=
  let reg : Int := REGION_NONE
  if o_id == OT then
    some t
  else if o_id == OV then
    some v
  else
    pair_properties t v o_id (liftR tv_sub_region) (liftP tv_reg1) tv_reg2 (liftP tv_reg3) (liftP tv_reg4) tv_reg5 reg

/-- `src/stdcall_c_if97.rs:109-116` th -/
def Stdcall.th (t : F) (h : F) (o_id : Int) : Option F :=
  let reg : Int := REGION_NONE
  if o_id == OT then
    some t
  else if o_id == OH then
    some h
  else
    pair_properties t h o_id th_sub_region (liftP th_reg1) th_reg2 (liftP th_reg3) (liftP th_reg4) (liftP th_reg5) reg

/-- `src/stdcall_c_if97.rs:120-127` ts -/
def Stdcall.ts (t : F) (s : F) (o_id : Int) : Option F :=
  let reg : Int := REGION_NONE
  if o_id == OT then
    some t
  else if o_id == OS then
    some s
  else
    pair_properties t s o_id (liftR ts_sub_region) (liftP ts_reg1) (liftP ts_reg2) (liftP ts_reg3) (liftP ts_reg4) (liftP ts_reg5) reg

/-- `src/stdcall_c_if97.rs:131-140` hx -/
def Stdcall.hx (h : F) (x : F) (o_id : Int) : Option F :=
  if h >. H_MAX4 || h <. H_MIN4 || x >. 1.0 || x <. 0.0 then
    some (ofI32 INVALID_VALUE)
  else
  if o_id == OH then
    some h
  else if o_id == OX then
    some x
  else
    some (hx_reg4 h x o_id)

/-- `src/stdcall_c_if97.rs:144-153` sx -/
def Stdcall.sx (s : F) (x : F) (o_id : Int) : Option F :=
  if s >. S_MAX4 || s <. S_MIN4 || x >. 1.0 || x <. 0.0 then
    some (ofI32 INVALID_VALUE)
  else
  if o_id == OS then
    some s
  else if o_id == OX then
    some x
  else
    some (sx_reg4 s x o_id)

/-! ### src/python_if97.rs -/

/-- `src/python_if97.rs:14-22` pt -/
def Python.pt (p : F) (t : F) (o_id : Int) : Option F :=
  let T : F := t + 273.15
  let reg : Int := REGION_NONE
  if o_id == OP then
    some p
  else if o_id == OT then
    some t
  else
    pair_properties p T o_id (liftR pT_sub_region) (liftP pT_reg1) (liftP pT_reg2) (liftP pT_reg3) (liftP pT_reg4) (liftP pT_reg5) reg

/-- `src/python_if97.rs:25-32` ph -/
def Python.ph (p : F) (h : F) (o_id : Int) : Option F :=
  let reg : Int := REGION_NONE
  if o_id == OP then
    some p
  else if o_id == OH then
    some h
  else
    pair_properties p h o_id (liftR ph_sub_region) (liftP ph_reg1) (liftP ph_reg2) (liftP ph_reg3) (liftP ph_reg4) (liftP ph_reg5) reg

/-- `src/python_if97.rs:35-42` ps -/
def Python.ps (p : F) (s : F) (o_id : Int) : Option F :=
  let reg : Int := REGION_NONE
  if o_id == OP then
    some p
  else if o_id == OS then
    some s
  else
    pair_properties p s o_id (liftR ps_sub_region) (liftP ps_reg1) (liftP ps_reg2) (liftP ps_reg3) (liftP ps_reg4) (liftP ps_reg5) reg

/-- `src/python_if97.rs:45-52` hs -/
def Python.hs (h : F) (s : F) (o_id : Int) : Option F :=
  let reg : Int := REGION_NONE
  if o_id == OH then
    some h
  else if o_id == OS then
    some s
  else
    pair_properties h s o_id (liftR hs_sub_region) (liftP hs_reg1) (liftP hs_reg2) (liftP hs_reg3) hs_reg4 (liftP hs_reg5) reg

/-- `src/python_if97.rs:55-64` px -/
def Python.px (p : F) (x : F) (o_id : Int) : Option F :=
  if p >. P_MAX4 || p <. P_MIN4 || x >. 1.0 || x <. 0.0 then
    some (ofI32 INVALID_VALUE)
  else
  if o_id == OP then
    some p
  else if o_id == OX then
    some x
  else
    some (px_reg4 p x o_id)

/-- `src/python_if97.rs:67-79` tx -/
def Python.tx (t : F) (x : F) (o_id : Int) : Option F :=
  if o_id == OT then
    some t
  else if o_id == OX then
    some x
  else
    let T : F := t + 273.15
    if T >. T_MAX4 || T <. T_MIN4 || x >. 1.0 || x <. 0.0 then
      some (ofI32 INVALID_VALUE)
    else
    some (Tx_reg4 T x o_id)

/-- `src/python_if97.rs:82-89` pv -/
def Python.pv (p : F) (v : F) (o_id : Int) : Option F :=
  let reg : Int := REGION_NONE
  if o_id == OP then
    some p
  else if o_id == OV then
    some v
  else
    pair_properties p v o_id (liftR pv_sub_region) (liftP pv_reg1) (liftP pv_reg2) (liftP pv_reg3) (liftP pv_reg4) (liftP pv_reg5) reg

/-- `src/python_if97.rs:92-99` tv -/
def Python.tv (t : F) (v : F) (o_id : Int) : Option F :=
  let reg : Int := REGION_NONE
  if o_id == OT then
    some t
  else if o_id == OV then
    some v
  else
    pair_properties t v o_id (liftR tv_sub_region) (liftP tv_reg1) tv_reg2 (liftP tv_reg3) (liftP tv_reg4) tv_reg5 reg

/-- `src/python_if97.rs:102-109` th -/
def Python.th (t : F) (h : F) (o_id : Int) : Option F :=
  let reg : Int := REGION_NONE
  if o_id == OT then
    some t
  else if o_id == OH then
    some h
  else
    pair_properties t h o_id th_sub_region (liftP th_reg1) th_reg2 (liftP th_reg3) (liftP th_reg4) (liftP th_reg5) reg

/-- `src/python_if97.rs:112-119` ts -/
def Python.ts (t : F) (s : F) (o_id : Int) : Option F :=
  let reg : Int := REGION_NONE
  if o_id == OT then
    some t
  else if o_id == OS then
    some s
  else
    pair_properties t s o_id (liftR ts_sub_region) (liftP ts_reg1) (liftP ts_reg2) (liftP ts_reg3) (liftP ts_reg4) (liftP ts_reg5) reg

/-- `src/python_if97.rs:122-131` hx -/
def Python.hx (h : F) (x : F) (o_id : Int) : Option F :=
  if h >. H_MAX4 || h <. H_MIN4 || x >. 1.0 || x <. 0.0 then
    some (ofI32 INVALID_VALUE)
  else
  if o_id == OH then
    some h
  else if o_id == OX then
    some x
  else
    some (hx_reg4 h x o_id)

/-- `src/python_if97.rs:134-143` sx -/
def Python.sx (s : F) (x : F) (o_id : Int) : Option F :=
  if s >. S_MAX4 || s <. S_MIN4 || x >. 1.0 || x <. 0.0 then
    some (ofI32 INVALID_VALUE)
  else
  if o_id == OS then
    some s
  else if o_id == OX then
    some x
  else
    some (sx_reg4 s x o_id)

end If97
