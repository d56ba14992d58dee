import Verif.Model.Num
import Mathlib.Analysis.SpecialFunctions.Pow.Real

/-!
# The exact-arithmetic instance

At `F = ℝ` the model says what the formulas of the crate compute in exact real
arithmetic.  Comparisons are the order of ℝ; `powi` is the integer power, `powf`
the real power; `x / 0 = 0`, `Real.log` and `Real.sqrt` are Mathlib's total
functions, so theorems at ℝ carry explicit side conditions wherever Rust would
produce an infinity or a NaN.
-/

namespace If97

noncomputable instance instFltReal : Flt ℝ where
  lt a b := decide (a < b)
  le a b := decide (a ≤ b)
  eq a b := decide (a = b)
  abs x := |x|
  exp := Real.exp
  ln := Real.log
  sqrt := Real.sqrt
  powi x n := x ^ n
  powf x y := x ^ y
  ofInt n := (n : ℝ)

section
variable (a b : ℝ) (n : Int)
@[simp] theorem real_lt : (Flt.lt a b) = decide (a < b) := rfl
@[simp] theorem real_le : (Flt.le a b) = decide (a ≤ b) := rfl
@[simp] theorem real_eq : (Flt.eq a b) = decide (a = b) := rfl
@[simp] theorem real_abs : Flt.abs a = |a| := rfl
@[simp] theorem real_exp : Flt.exp a = Real.exp a := rfl
@[simp] theorem real_ln : Flt.ln a = Real.log a := rfl
@[simp] theorem real_sqrt : Flt.sqrt a = Real.sqrt a := rfl
@[simp] theorem real_powi : Flt.powi a n = a ^ n := rfl
@[simp] theorem real_powf : Flt.powf a b = a ^ b := rfl
@[simp] theorem real_ofInt : (Flt.ofInt n : ℝ) = (n : ℝ) := rfl
end

end If97
