import Verif.Lemmas.PolyReal

/-!
# C10 Recursive multi-derivative evaluation equals separate evaluation

The fused evaluators accumulate `i·item`, `j·item` and divide by the base at the end.
In exact arithmetic, for every table and all non-zero bases, the components of their
results are the individual derivative polynomials.  For the step versions the step list
must visit every row once (C09).
-/

namespace If97

variable (T : List (Int × Int × ℝ)) (x y : ℝ)

/-! fused folds as tuples of sums -/
namespace C10

theorem fold2 {α : Type} (f g : α → ℝ) (l : List α) (a b : ℝ) :
    l.foldl (fun (acc : ℝ × ℝ) e => (acc.1 + f e, acc.2 + g e)) (a, b) =
      (a + (l.map f).sum, b + (l.map g).sum) := by
  induction l generalizing a b with
  | nil => simp
  | cons e l ih => rw [List.foldl_cons, ih]; simp only [List.map_cons, List.sum_cons]; ring_nf

theorem fold4 {α : Type} (f g h k : α → ℝ) (l : List α) (a b c d : ℝ) :
    l.foldl (fun (acc : ℝ × ℝ × ℝ × ℝ) e => (acc.1 + f e, acc.2.1 + g e, acc.2.2.1 + h e, acc.2.2.2 + k e))
        (a, b, c, d) =
      (a + (l.map f).sum, b + (l.map g).sum, c + (l.map h).sum, d + (l.map k).sum) := by
  induction l generalizing a b c d with
  | nil => simp
  | cons e l ih => rw [List.foldl_cons, ih]; simp only [List.map_cons, List.sum_cons]; ring_nf

theorem zpow_sub_two (hx : x ≠ 0) (n : Int) : x ^ (n - 2) = x ^ n / (x * x) := by
  rw [zpow_sub₀ hx]; congr 1; norm_num [pow_two, zpow_ofNat]

end C10

theorem C10_0_j (hy : y ≠ 0) : polys_0_j_powi x y T = (poly_powi x y T, poly_j_powi x y T) := by
  unfold polys_0_j_powi
  have : polys_0_j_body x y = fun (acc : ℝ × ℝ) (e : Int × Int × ℝ) =>
      (acc.1 + e.2.2 * x ^ e.1 * y ^ e.2.1, acc.2 + (e.2.1 : ℝ) * (e.2.2 * x ^ e.1 * y ^ e.2.1)) := rfl
  simp only [this, C10.fold2, poly_powi_sum, poly_j_powi_sum]
  refine Prod.ext (by norm_num) ?_
  simp only
  rw [show (0.0 : ℝ) = 0 by norm_num, zero_add, sum_map_div]
  apply sum_map_congr
  intro e _
  rw [zpow_sub_one₀ hy]; field_simp

theorem C10_i_j (hx : x ≠ 0) (hy : y ≠ 0) :
    polys_i_j_powi x y T = (poly_i_powi x y T, poly_j_powi x y T) := by
  unfold polys_i_j_powi
  have : polys_i_j_body x y = fun (acc : ℝ × ℝ) (e : Int × Int × ℝ) =>
      (acc.1 + (e.1 : ℝ) * (e.2.2 * x ^ e.1 * y ^ e.2.1),
        acc.2 + (e.2.1 : ℝ) * (e.2.2 * x ^ e.1 * y ^ e.2.1)) := rfl
  simp only [this, C10.fold2, poly_i_powi_sum, poly_j_powi_sum]
  rw [show (0.0 : ℝ) = 0 by norm_num, zero_add, zero_add, sum_map_div, sum_map_div]
  refine Prod.ext (sum_map_congr fun e _ => ?_) (sum_map_congr fun e _ => ?_)
  · rw [zpow_sub_one₀ hx]; field_simp
  · rw [zpow_sub_one₀ hy]; field_simp

theorem C10_i_ii_ij_jj (hx : x ≠ 0) (hy : y ≠ 0) :
    polys_i_ii_ij_jj_powi x y T =
      (poly_i_powi x y T, poly_ii_powi x y T, poly_ij_powi x y T, poly_jj_powi x y T) := by
  unfold polys_i_ii_ij_jj_powi
  have : polys_i_ii_ij_jj_body x y = fun (acc : ℝ × ℝ × ℝ × ℝ) (e : Int × Int × ℝ) =>
      (acc.1 + (e.1 : ℝ) * (e.2.2 * x ^ e.1 * y ^ e.2.1),
        acc.2.1 + ((e.1 - 1 : Int) : ℝ) * ((e.1 : ℝ) * (e.2.2 * x ^ e.1 * y ^ e.2.1)),
        acc.2.2.1 + (e.2.1 : ℝ) * ((e.1 : ℝ) * (e.2.2 * x ^ e.1 * y ^ e.2.1)),
        acc.2.2.2 + ((e.2.1 * (e.2.1 - 1) : Int) : ℝ) * (e.2.2 * x ^ e.1 * y ^ e.2.1)) := rfl
  simp only [this, C10.fold4, poly_i_powi_sum, poly_ii_powi_sum, poly_ij_powi_sum, poly_jj_powi_sum]
  rw [show (0.0 : ℝ) = 0 by norm_num, zero_add, zero_add, zero_add, zero_add,
    sum_map_div, sum_map_div, sum_map_div, sum_map_div]
  refine Prod.ext (sum_map_congr fun e _ => ?_) (Prod.ext (sum_map_congr fun e _ => ?_)
    (Prod.ext (sum_map_congr fun e _ => ?_) (sum_map_congr fun e _ => ?_)))
  · rw [zpow_sub_one₀ hx]; field_simp
  · rw [C10.zpow_sub_two x hx]; push_cast; field_simp
  · rw [zpow_sub_one₀ hx, zpow_sub_one₀ hy]; field_simp
  · rw [C10.zpow_sub_two y hy]; push_cast; field_simp

/-! ### the step versions -/

section
variable (steps : List (Nat × Nat)) (hs : visited steps = List.range T.length)
include hs

theorem C10_0_j_steps (hy : y ≠ 0) :
    polys_0_j_powi_steps x y T steps = (poly_powi x y T, poly_j_powi x y T) := by
  rw [← C10_0_j T x y hy, polys_0_j_powi_steps, polys_0_j_powi, stepsFold_eq _ _ _ _ hs]

theorem C10_i_j_steps (hx : x ≠ 0) (hy : y ≠ 0) :
    polys_i_j_powi_steps x y T steps = (poly_i_powi x y T, poly_j_powi x y T) := by
  rw [← C10_i_j T x y hx hy, polys_i_j_powi_steps, polys_i_j_powi, stepsFold_eq _ _ _ _ hs]

theorem C10_i_ii_ij_jj_steps (hx : x ≠ 0) (hy : y ≠ 0) :
    polys_i_ii_ij_jj_powi_steps x y T steps =
      (poly_i_powi x y T, poly_ii_powi x y T, poly_ij_powi x y T, poly_jj_powi x y T) := by
  rw [← C10_i_ii_ij_jj T x y hx hy, polys_i_ii_ij_jj_powi_steps, polys_i_ii_ij_jj_powi,
    stepsFold_eq _ _ _ _ hs]

theorem C10_i_ij_steps (hy : y ≠ 0) :
    polys_i_ij_powi_steps x y T steps = (poly_i_powi x y T, poly_ij_powi x y T) := by
  rw [polys_i_ij_powi_steps, stepsFold_eq _ _ _ _ hs]
  have : polys_i_ij_body x y = fun (acc : ℝ × ℝ) (e : Int × Int × ℝ) =>
      (acc.1 + e.2.2 * (e.1 : ℝ) * x ^ (e.1 - 1) * y ^ e.2.1,
        acc.2 + (e.2.1 : ℝ) * (e.2.2 * (e.1 : ℝ) * x ^ (e.1 - 1) * y ^ e.2.1)) := rfl
  simp only [this, C10.fold2, poly_i_powi_sum, poly_ij_powi_sum]
  rw [show (0.0 : ℝ) = 0 by norm_num, zero_add, zero_add, sum_map_div]
  refine Prod.ext rfl (sum_map_congr fun e _ => ?_)
  rw [zpow_sub_one₀ hy]; field_simp

theorem C10_i_ii_steps (hx : x ≠ 0) :
    polys_i_ii_powi_steps x y T steps = (poly_i_powi x y T, poly_ii_powi x y T) := by
  rw [polys_i_ii_powi_steps, stepsFold_eq _ _ _ _ hs]
  have : polys_i_ii_body x y = fun (acc : ℝ × ℝ) (e : Int × Int × ℝ) =>
      (acc.1 + e.2.2 * (e.1 : ℝ) * x ^ (e.1 - 1) * y ^ e.2.1,
        acc.2 + ((e.1 - 1 : Int) : ℝ) * (e.2.2 * (e.1 : ℝ) * x ^ (e.1 - 1) * y ^ e.2.1)) := rfl
  simp only [this, C10.fold2, poly_i_powi_sum, poly_ii_powi_sum]
  rw [show (0.0 : ℝ) = 0 by norm_num, zero_add, zero_add, sum_map_div]
  refine Prod.ext rfl (sum_map_congr fun e _ => ?_)
  rw [C10.zpow_sub_two x hx, zpow_sub_one₀ hx]; push_cast; field_simp

theorem C10_ij_steps (hx : x ≠ 0) (hy : y ≠ 0) :
    poly_ij_powi_steps x y T steps = poly_ij_powi x y T := by
  rw [poly_ij_powi_steps, stepsFold_eq _ _ _ _ hs, poly_ij_powi_sum]
  have := foldl_add_sum0 (fun e : Int × Int × ℝ => e.2.2 * (e.1 : ℝ) * x ^ e.1 * (e.2.1 : ℝ) * y ^ e.2.1) T
  simp only [ofI32, real_powi, real_ofInt]
  rw [this, sum_map_div, sum_map_div]
  refine sum_map_congr fun e _ => ?_
  rw [zpow_sub_one₀ hx, zpow_sub_one₀ hy]; field_simp

end

/-- A concrete case: two rows, two steps, all four derivatives at (2, 1/2). -/
example : polys_i_ii_ij_jj_powi_steps (2 : ℝ) (1/2) [(2, 1, 3), (0, -1, 1)] [(0, 1), (1, 2)] =
    (6, 3, 12, 16) := by
  rw [C10_i_ii_ij_jj_steps _ _ _ _ rfl (by norm_num) (by norm_num)]
  simp [poly_i_powi_sum, poly_ii_powi_sum, poly_ij_powi_sum, poly_jj_powi_sum]
  norm_num

end If97
