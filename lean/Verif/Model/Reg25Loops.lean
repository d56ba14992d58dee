import Verif.Model.Reg2
import Verif.Model.Reg5
set_option linter.unusedVariables false

/-!
# Region 2 and 5 functions that call a loop without a step counter (hand written)
-/

namespace If97
open Flt
variable {F : Type} [Add F] [Sub F] [Mul F] [Div F] [Neg F] [OfScientific F] [Flt F]

/-- `src/r2/region2.rs:80-87` tv_reg2 -/
def tv_reg2 (t v : F) (o_id : Int) : Option F := do
  let T : F := t + K
  let p ← Tv2p_reg2 T v
  if o_id == OP then return p
  return pT_reg2 p T o_id

/-- `src/r2/region2.rs:90-96` th_reg2 -/
def th_reg2 (t h : F) (o_id : Int) : Option F := do
  let p ← Th2p_reg2 (t + 273.15) h
  if o_id == OP then return p
  return pT_reg2 p (t + 273.15) o_id

/-- `src/r5/region5.rs:75-84` tv_reg5 -/
def tv_reg5 (t v : F) (o_id : Int) : Option F := do
  if o_id == OD then return 1.0 / v
  let p ← Tv2p_reg5 (t + 273.15) v
  if o_id == OP then return p
  return pT_reg5 p (t + 273.15) o_id

end If97
