import Verif.Model.Api

/-!
# The executable instance

Lean's `Float` (an IEEE double) makes the model runnable.  It is only used by
`tools/validate.txt`, which compares the model with the reference values in
/repo/tests; no theorem depends on it.
-/

namespace If97

instance : Flt Float where
  lt a b := a < b
  le a b := a ≤ b
  eq a b := a == b
  abs := Float.abs
  exp := Float.exp
  ln := Float.log
  sqrt := Float.sqrt
  powi x n := Float.pow x (Float.ofInt n)
  powf := Float.pow
  ofInt := Float.ofInt

end If97
