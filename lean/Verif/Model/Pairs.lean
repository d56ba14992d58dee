/-
Generated by tools/rs2lean.py from the Rust sources cited below.
Number type `F` is abstract; see Verif/Model/Num.lean for the conventions.
-/
import Verif.Model.Transport
import Verif.Model.Para
set_option linter.unusedVariables false

namespace If97
open Flt
variable {F : Type} [Add F] [Sub F] [Mul F] [Div F] [Neg F] [OfScientific F] [Flt F]

/-! ### src/common/propertry_pairs.rs -/

/-- `src/common/propertry_pairs.rs:40-107` pair_transport_reg -/
def pair_transport_reg (v1 : F) (v2 : F) (o_id : Int) (pair : PAIRS) (fn_thermal : (F → F → Int → F)) : F :=
  if o_id == OST then
    if pair == PAIRS.Td then
      surface_tension v1
    else
      surface_tension v2
  else if o_id == ODV then
    if pair == PAIRS.Td then
      viscosity v2 v1
    else
      viscosity (fn_thermal v1 v2 OD) v2
  else if o_id == OKV then
    if pair == PAIRS.Td then
      v2 * viscosity v2 v1
    else
      let d : F := fn_thermal v1 v2 OD
      viscosity d v2 / d
  else if o_id == OTC then
    if pair == PAIRS.Td then
      thcond v2 v1
    else
      let d : F := fn_thermal v1 v2 OD
      thcond d v2
  else if o_id == OSDC then
    if pair == PAIRS.Td then
      static_dielectric v2 v1
    else
      let d : F := fn_thermal v1 v2 OD
      static_dielectric d v2
  else if o_id == OTD then
    if pair == PAIRS.Td then
      let tc : F := thcond v2 v1
      let cp : F := fn_thermal v1 v2 OCP
      thermal_diffusivity tc cp v2
    else
      let d : F := fn_thermal v1 v2 OD
      let tc : F := thcond d v2
      let cp : F := fn_thermal v1 v2 OCP
      thermal_diffusivity tc cp d
  else if o_id == OPR then
    if pair == PAIRS.Td then
      let tc : F := thcond v2 v1
      let cp : F := fn_thermal v1 v2 OCP
      let dv : F := viscosity v2 v1
      prandtl_number dv cp tc
    else
      let d : F := 1.0 / v2
      let dv : F := viscosity d v2
      let cp : F := fn_thermal v1 v2 OCP
      let tc : F := thcond d v2
      prandtl_number dv cp tc
  else
    ofI32 INVALID_OUTID

end If97
