import Verif.Lemmas.Steps
import Verif.Inst.Real
import Mathlib.Analysis.Calculus.Deriv.ZPow
import Mathlib.Tactic.FieldSimp
import Mathlib.Tactic.Ring
import Mathlib.Tactic.NormNum

/-! Helper lemmas: the polynomial evaluators over the reals as sums of terms. -/

namespace If97

theorem foldl_add_sum {α : Type} (f : α → ℝ) (l : List α) (a : ℝ) :
    l.foldl (fun v e => v + f e) a = a + (l.map f).sum := by
  induction l generalizing a with
  | nil => simp
  | cons e l ih => rw [List.foldl_cons, ih, List.map_cons, List.sum_cons]; ring

theorem foldl_add_sum0 {α : Type} (f : α → ℝ) (l : List α) :
    l.foldl (fun v e => v + f e) (0.0 : ℝ) = (l.map f).sum := by
  rw [foldl_add_sum]; norm_num

section
variable (x y : ℝ) (T : List (Int × Int × ℝ))

theorem poly_powi_sum : poly_powi x y T = (T.map fun e => e.2.2 * x ^ e.1 * y ^ e.2.1).sum :=
  foldl_add_sum0 _ _
theorem poly_i_powi_sum :
    poly_i_powi x y T = (T.map fun e => e.2.2 * (e.1 : ℝ) * x ^ (e.1 - 1) * y ^ e.2.1).sum :=
  foldl_add_sum0 _ _
theorem poly_ii_powi_sum :
    poly_ii_powi x y T =
      (T.map fun e => e.2.2 * ((e.1 * (e.1 - 1) : Int) : ℝ) * x ^ (e.1 - 2) * y ^ e.2.1).sum :=
  foldl_add_sum0 _ _
theorem poly_j_powi_sum :
    poly_j_powi x y T = (T.map fun e => e.2.2 * x ^ e.1 * (e.2.1 : ℝ) * y ^ (e.2.1 - 1)).sum :=
  foldl_add_sum0 _ _
theorem poly_jj_powi_sum :
    poly_jj_powi x y T =
      (T.map fun e => e.2.2 * x ^ e.1 * ((e.2.1 * (e.2.1 - 1) : Int) : ℝ) * y ^ (e.2.1 - 2)).sum :=
  foldl_add_sum0 _ _
theorem poly_ij_powi_sum :
    poly_ij_powi x y T =
      (T.map fun e => e.2.2 * (e.1 : ℝ) * x ^ (e.1 - 1) * (e.2.1 : ℝ) * y ^ (e.2.1 - 1)).sum :=
  foldl_add_sum0 _ _
end

/-- A sum of terms divided by a constant. -/
theorem sum_map_div {α : Type} (f : α → ℝ) (l : List α) (c : ℝ) :
    (l.map f).sum / c = (l.map fun e => f e / c).sum := by
  induction l with
  | nil => simp
  | cons e l ih => rw [List.map_cons, List.sum_cons, List.map_cons, List.sum_cons, add_div, ih]

theorem sum_map_congr {α : Type} {f g : α → ℝ} {l : List α} (h : ∀ e ∈ l, f e = g e) :
    (l.map f).sum = (l.map g).sum := by
  rw [List.map_congr_left h]

/-- The derivative of a sum of terms is the sum of the derivatives. -/
theorem hasDerivAt_sum_map {α : Type} (f : α → ℝ → ℝ) (f' : α → ℝ) (l : List α) (x : ℝ)
    (h : ∀ e ∈ l, HasDerivAt (f e) (f' e) x) :
    HasDerivAt (fun x => (l.map fun e => f e x).sum) (l.map f').sum x := by
  induction l with
  | nil => simpa using hasDerivAt_const x (0 : ℝ)
  | cons e l ih =>
    simp only [List.map_cons, List.sum_cons]
    exact (h e (by simp)).add (ih fun e' he' => h e' (by simp [he']))

end If97
