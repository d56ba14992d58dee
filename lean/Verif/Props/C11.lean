import Verif.Lemmas.PolyReal

/-!
# C11 Derivative polynomials are the derivatives

For every table with integer exponents and in exact arithmetic, `poly_i`, `poly_j` are
the first partial derivatives of `poly_powi`, and `poly_ii`, `poly_ij`, `poly_jj` the
second ones.  A base may be zero only where no negative power (after differentiating)
of it occurs.  `HasDerivAt` is Mathlib's derivative; nothing here refers to how the
evaluators are written.
-/

namespace If97

variable (T : List (Int × Int × ℝ)) (x y : ℝ)

/-- d/dx of the polynomial is `poly_i`. -/
theorem C11_i (h : x ≠ 0 ∨ ∀ e ∈ T, 0 ≤ e.1) :
    HasDerivAt (fun x => poly_powi x y T) (poly_i_powi x y T) x := by
  simp only [poly_powi_sum, poly_i_powi_sum]
  apply hasDerivAt_sum_map (fun (e : Int × Int × ℝ) (x : ℝ) => e.2.2 * x ^ e.1 * y ^ e.2.1)
  intro e he
  have hz := hasDerivAt_zpow e.1 x (h.imp_right fun h => h e he)
  have := (hz.const_mul e.2.2).mul_const (y ^ e.2.1)
  exact this.congr_deriv (by ring)

/-- d/dy of the polynomial is `poly_j`. -/
theorem C11_j (h : y ≠ 0 ∨ ∀ e ∈ T, 0 ≤ e.2.1) :
    HasDerivAt (fun y => poly_powi x y T) (poly_j_powi x y T) y := by
  simp only [poly_powi_sum, poly_j_powi_sum]
  apply hasDerivAt_sum_map (fun (e : Int × Int × ℝ) (y : ℝ) => e.2.2 * x ^ e.1 * y ^ e.2.1)
  intro e he
  have hz := hasDerivAt_zpow e.2.1 y (h.imp_right fun h => h e he)
  have := hz.const_mul (e.2.2 * x ^ e.1)
  exact this.congr_deriv (by ring)

/-- A derived power: `c·n·x^(n-1)` differentiates to `c·n(n-1)·x^(n-2)`. -/
private theorem zpow_second (n : Int) (x : ℝ) (h : x ≠ 0 ∨ 0 ≤ n) :
    HasDerivAt (fun x : ℝ => (n : ℝ) * x ^ (n - 1)) (((n * (n - 1) : Int) : ℝ) * x ^ (n - 2)) x := by
  by_cases hn : n = 0
  · subst hn; simpa using hasDerivAt_const x (0 : ℝ)
  · have hz := hasDerivAt_zpow (n - 1) x (h.imp_right fun h => by omega)
    have := hz.const_mul (n : ℝ)
    refine this.congr_deriv ?_
    rw [show n - 1 - 1 = n - 2 by ring]
    push_cast
    ring

/-- d/dx of `poly_i` is `poly_ii`. -/
theorem C11_ii (h : x ≠ 0 ∨ ∀ e ∈ T, 0 ≤ e.1) :
    HasDerivAt (fun x => poly_i_powi x y T) (poly_ii_powi x y T) x := by
  simp only [poly_i_powi_sum, poly_ii_powi_sum]
  apply hasDerivAt_sum_map (fun (e : Int × Int × ℝ) (x : ℝ) => e.2.2 * (e.1 : ℝ) * x ^ (e.1 - 1) * y ^ e.2.1)
  intro e he
  have hz := zpow_second e.1 x (h.imp_right fun h => h e he)
  have := (hz.const_mul e.2.2).mul_const (y ^ e.2.1)
  refine (this.congr_of_eventuallyEq (Filter.Eventually.of_forall fun x => ?_)).congr_deriv ?_ <;> ring

/-- d/dy of `poly_j` is `poly_jj`. -/
theorem C11_jj (h : y ≠ 0 ∨ ∀ e ∈ T, 0 ≤ e.2.1) :
    HasDerivAt (fun y => poly_j_powi x y T) (poly_jj_powi x y T) y := by
  simp only [poly_j_powi_sum, poly_jj_powi_sum]
  apply hasDerivAt_sum_map (fun (e : Int × Int × ℝ) (y : ℝ) => e.2.2 * x ^ e.1 * (e.2.1 : ℝ) * y ^ (e.2.1 - 1))
  intro e he
  have hz := zpow_second e.2.1 y (h.imp_right fun h => h e he)
  have := hz.const_mul (e.2.2 * x ^ e.1)
  refine (this.congr_of_eventuallyEq (Filter.Eventually.of_forall fun y => ?_)).congr_deriv ?_ <;> ring

/-- d/dy of `poly_i` is `poly_ij`. -/
theorem C11_ij (h : y ≠ 0 ∨ ∀ e ∈ T, 0 ≤ e.2.1) :
    HasDerivAt (fun y => poly_i_powi x y T) (poly_ij_powi x y T) y := by
  simp only [poly_i_powi_sum, poly_ij_powi_sum]
  apply hasDerivAt_sum_map (fun (e : Int × Int × ℝ) (y : ℝ) => e.2.2 * (e.1 : ℝ) * x ^ (e.1 - 1) * y ^ e.2.1)
  intro e he
  have hz := hasDerivAt_zpow e.2.1 y (h.imp_right fun h => h e he)
  have := hz.const_mul (e.2.2 * (e.1 : ℝ) * x ^ (e.1 - 1))
  exact this.congr_deriv (by ring)

/-- d/dx of `poly_j` is `poly_ij` (the mixed derivative does not depend on the order). -/
theorem C11_ji (h : x ≠ 0 ∨ ∀ e ∈ T, 0 ≤ e.1) :
    HasDerivAt (fun x => poly_j_powi x y T) (poly_ij_powi x y T) x := by
  simp only [poly_j_powi_sum, poly_ij_powi_sum]
  apply hasDerivAt_sum_map (fun (e : Int × Int × ℝ) (x : ℝ) => e.2.2 * x ^ e.1 * (e.2.1 : ℝ) * y ^ (e.2.1 - 1))
  intro e he
  have hz := hasDerivAt_zpow e.1 x (h.imp_right fun h => h e he)
  have := ((hz.const_mul e.2.2).mul_const (e.2.1 : ℝ)).mul_const (y ^ (e.2.1 - 1))
  exact this.congr_deriv (by ring)

/-- The hypotheses are met and the derivative is not trivial: for the one-row table
2·x³·y⁻¹ the derivative in x at (1, 2) is 3. -/
example : poly_i_powi (1 : ℝ) 2 [(3, -1, 2)] = 3 ∧ ((2 : ℝ) ≠ 0 ∨ ∀ e ∈ [((3 : Int), (-1 : Int), (2 : ℝ))], 0 ≤ e.1) := by
  constructor
  · simp [poly_i_powi]; norm_num
  · left; norm_num

/-- The side condition matters: x⁻¹ is not differentiable at 0. -/
example : ¬ DifferentiableAt ℝ (fun x : ℝ => poly_powi x 1 [(-1, 0, 1)]) 0 := by
  have : (fun x : ℝ => poly_powi x 1 [(-1, 0, 1)]) = fun x => x ^ (-1 : Int) := by
    funext x; simp [poly_powi_sum]
  rw [this, differentiableAt_zpow]
  norm_num

end If97
