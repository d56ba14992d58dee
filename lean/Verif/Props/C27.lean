import Verif.Spec.Thermo
import Mathlib.Analysis.SpecialFunctions.Pow.Real

/-!
# C27 The boundary between regions 2 and 3

Exact arithmetic.  The two forms of the boundary equation, `B23_T2p` and `B23_p2T`, are strictly
increasing and inverse to each other up to 1e-9 K and 1e-10 MPa.  (They are not exactly inverse: the
published coefficients are rounded.)
-/

namespace If97

private theorem T2p (T : ℝ) : B23_T2p T = 348.05185628969 + (-1.1671859879975 + 0.0010192970039326 * T) * T := by
  simp only [B23_T2p, nthF, B23_T2p_n23, List.getD_cons_succ, List.getD_cons_zero]

private theorem p2T (p : ℝ) : B23_p2T p = 572.54459862746 + Real.sqrt ((p - 13.91883977887) / 0.0010192970039326) := by
  simp only [B23_p2T, nthF, B23_p2T_n23, List.getD_cons_succ, List.getD_cons_zero, real_powf, Real.sqrt_eq_rpow]
  norm_num

theorem C27_T2p_increasing (T₁ T₂ : ℝ) (h1 : 623.15 ≤ T₁) (h : T₁ < T₂) : B23_T2p T₁ < B23_T2p T₂ := by
  rw [T2p, T2p]; norm_num at *; nlinarith

theorem C27_p2T_increasing (p₁ p₂ : ℝ) (h1 : 13.91883977887 ≤ p₁) (h : p₁ < p₂) : B23_p2T p₁ < B23_p2T p₂ := by
  rw [p2T, p2T]
  have : Real.sqrt ((p₁ - 13.91883977887) / 0.0010192970039326) < Real.sqrt ((p₂ - 13.91883977887) / 0.0010192970039326) := by
    apply Real.sqrt_lt_sqrt
    · exact div_nonneg (by linarith) (by norm_num)
    · exact div_lt_div_of_pos_right (by linarith) (by norm_num)
  linarith

/-- T → p → T -/
theorem C27_T_p_T (T : ℝ) (h1 : 623.15 ≤ T) (h2 : T ≤ 863.15) : |B23_p2T (B23_T2p T) - T| ≤ 1e-9 := by
  rw [p2T, T2p]
  set q := (348.05185628969 + (-1.1671859879975 + 0.0010192970039326 * T) * T - 13.91883977887) / 0.0010192970039326 with hq
  have e : q = (T - 572.54459862746) ^ 2 + ((348.05185628969 - 13.91883977887) / 0.0010192970039326 - 572.54459862746 ^ 2 +
      (-1.1671859879975 / 0.0010192970039326 + 2 * 572.54459862746) * T) := by
    rw [hq]; norm_num; ring
  have hT : 50 ≤ T - 572.54459862746 := by norm_num at h1 ⊢; linarith
  have hε : |q - (T - 572.54459862746) ^ 2| ≤ 1e-7 := by
    rw [e, abs_le]; constructor <;> norm_num at * <;> linarith
  have hε' := abs_le.mp hε
  have hq0 : 0 ≤ q := by norm_num at *; nlinarith
  have hs := Real.sq_sqrt hq0
  have hs0 := Real.sqrt_nonneg q
  rw [abs_le]
  norm_num at hT hε' ⊢
  constructor
  · nlinarith
  · nlinarith

/-- p → T → p -/
theorem C27_p_T_p (p : ℝ) (h1 : 16.5 ≤ p) (h2 : p ≤ 100) : |B23_T2p (B23_p2T p) - p| ≤ 1e-10 := by
  rw [p2T, T2p]
  have hq0 : 0 ≤ (p - 13.91883977887) / 0.0010192970039326 := div_nonneg (by norm_num at *; linarith) (by norm_num)
  have hs := Real.sq_sqrt hq0
  have hs0 := Real.sqrt_nonneg ((p - 13.91883977887) / 0.0010192970039326)
  have hs1 : Real.sqrt ((p - 13.91883977887) / 0.0010192970039326) ≤ 300 := by
    apply Real.sqrt_le_iff.mpr
    refine ⟨by norm_num, ?_⟩
    rw [div_le_iff₀ (by norm_num)]; norm_num at *; linarith
  set s := Real.sqrt ((p - 13.91883977887) / 0.0010192970039326)
  have hp : p = 13.91883977887 + 0.0010192970039326 * s ^ 2 := by
    rw [hs]; field_simp; ring
  rw [hp, abs_le]
  norm_num at *
  constructor <;> nlinarith

/-- A concrete state: 650 K. -/
example : |B23_p2T (B23_T2p (650 : ℝ)) - 650| ≤ 1e-9 := C27_T_p_T 650 (by norm_num) (by norm_num)

end If97
