import Verif.Model.RegionTh
import Verif.Model.Reg4Loops
import Verif.Model.Reg25Loops
set_option linter.unusedVariables false

/-!
# src/common/propertry_pairs.rs pair_properties and the argument conversions of src/rust_if97.rs
-/

namespace If97
open Flt
variable {F : Type} [Add F] [Sub F] [Mul F] [Div F] [Neg F] [OfScientific F] [Flt F]

/-- A region function pointer that always returns, as an `Option`-valued one. -/
def liftR (f : F → F → Int) : F → F → Option Int := fun a b => some (f a b)

/-- A property function pointer that always returns, as an `Option`-valued one. -/
def liftP (f : F → F → Int → F) : F → F → Int → Option F := fun a b o => some (f a b o)

/-- `src/common/propertry_pairs.rs:110-140` pair_properties.  The function pointers
may fail to return (`none`). -/
def pair_properties (v1 v2 : F) (o_id : Int) (fr : F → F → Option Int)
    (f1 f2 f3 f4 f5 : F → F → Int → Option F) (reg : Int) : Option F := do
  let sub_region ← if reg == REGION_NONE then fr v1 v2 else some reg
  if o_id == OR then return ofI32 sub_region
  if o_id == OX then
    if sub_region == 1 then return 0.0
    else if sub_region == 2 || sub_region == 3 || sub_region == 5 then return 1.0
    else if sub_region == 4 then f4 v1 v2 OX
    else return ofI32 INVALID_VALUE
  else if sub_region == 1 then f1 v1 v2 o_id
  else if sub_region == 2 then f2 v1 v2 o_id
  else if sub_region == 3 then f3 v1 v2 o_id
  else if sub_region == 4 then f4 v1 v2 o_id
  else if sub_region == 5 then f5 v1 v2 o_id
  else return ofI32 sub_region

/-- `src/rust_if97.rs` struct o_id_region_args -/
structure OIdRegionArgs where
  o_id : Int
  region : Int

/-- `src/rust_if97.rs` `impl From<i32> for o_id_region_args` (with `Default`: region = REGION_NONE) -/
def OIdRegionArgs.ofId (o_id : Int) : OIdRegionArgs := { o_id := o_id, region := REGION_NONE }

/-- `src/rust_if97.rs` `impl From<(i32, i32)> for o_id_region_args` -/
def OIdRegionArgs.ofPair (a : Int × Int) : OIdRegionArgs := { o_id := a.1, region := a.2 }

/-- `src/rust_if97.rs` o_id_reg_info -/
def o_id_reg_info (a : OIdRegionArgs) : Int × Int := (a.o_id, a.region)

end If97
