import Verif.Props.C46
import Mathlib.Analysis.Calculus.Deriv.MeanValue
import Mathlib.Analysis.SpecialFunctions.Pow.Deriv

/-!
# C43 Surface tension

Exact arithmetic.  `sigma` is the IAPWS R1-76(2014) equation in N/m.  Through the API (`pt` in regions 1, 2, 3
and 5, `tv` in region 3) the surface tension is `sigma` of the temperature between −25 °C and the critical
temperature and −9999 elsewhere; it is positive below the critical point, zero there, and strictly
decreasing.
-/

namespace If97
open Set

/-- R1-76(2014): σ = 235.8 mN/m · τ^1.256 (1 − 0.625 τ), τ = 1 − T/647.096; here in N/m -/
noncomputable def sigma (T : ℝ) : ℝ :=
  0.2358 * (1 - T / 647.096) ^ (1.256 : ℝ) * (1 - 0.625 * (1 - T / 647.096))

private theorem code (T : ℝ) :
    surface_tension T = if 248.15 ≤ T ∧ T ≤ 647.096 then sigma T else -9999 := by
  unfold surface_tension
  simp only [real_le, Bool.and_eq_true, decide_eq_true_eq, TC_WATER, real_powf, ofI32, real_ofInt, INVALID_VALUE]
  refine if_congr Iff.rfl ?_ (by norm_num)
  unfold sigma; norm_num; ring

/-- **Which function is returned**, in every single-phase region of `pt`. -/
theorem C43_pt (p t : ℝ) (r : Int) (hr : r = 1 ∨ r = 2 ∨ r = 3 ∨ r = 5) :
    Fn.pt.call p t Doc.idSt r =
      some (if 248.15 ≤ t + 273.15 ∧ t + 273.15 ≤ 647.096 then sigma (t + 273.15) else -9999) := by
  rw [← code]; rcases hr with rfl | rfl | rfl | rfl <;> rfl

theorem C43_tv (t v : ℝ) : Fn.tv.call t v Doc.idSt 3 =
      some (if 248.15 ≤ t + 273.15 ∧ t + 273.15 ≤ 647.096 then sigma (t + 273.15) else -9999) := by
  rw [← code]; rfl

/-- Every pair function: the surface tension belongs to the temperature the same call returns. -/
theorem C43_all (f : Fn) (r : Int) (hr : r = 1 ∨ r = 2 ∨ r = 3 ∨ r = 5) (a b : ℝ) :
    ∃ t, f.call a b Doc.idT r = some t ∧ f.call a b Doc.idSt r =
      some (if 248.15 ≤ t + 273.15 ∧ t + 273.15 ≤ 647.096 then sigma (t + 273.15) else -9999) := by
  by_cases h3 : r = 3
  · subst h3
    obtain ⟨t, v, h⟩ := C46_region3 f a b
    exact ⟨t, (h _ f.not_given3_T).trans rfl, (h _ (f.not_given3 _ (by decide))).trans (C43_tv t v)⟩
  · have hg : GibbsRegion r := by rcases hr with h | h | h | h <;> first | exact .inl h | exact .inr (.inl h) | exact .inr (.inr h) | exact absurd h h3
    obtain ⟨p, t, h⟩ := C46_gibbs f r hg a b
    exact ⟨t, (h _ (f.not_given_T r)).trans rfl, (h _ (f.not_given r _ (by decide))).trans (C43_pt p t r hr)⟩

/-- Zero at the critical point. -/
theorem C43_critical : sigma 647.096 = 0 := by
  unfold sigma; rw [div_self (by norm_num), sub_self, Real.zero_rpow (by norm_num)]; norm_num

private theorem mono : StrictMonoOn (fun u : ℝ => u ^ (1.256 : ℝ) * (1 - 0.625 * u)) (Icc 0 0.85) := by
  refine strictMonoOn_of_deriv_pos (convex_Icc _ _) ?_ ?_
  · exact ((Real.continuous_rpow_const (by norm_num)).mul (by fun_prop)).continuousOn
  · intro u hu
    rw [interior_Icc] at hu
    have hd : HasDerivAt (fun u : ℝ => u ^ (1.256 : ℝ) * (1 - 0.625 * u))
        (1.256 * u ^ (1.256 - 1 : ℝ) * (1 - 0.625 * u) + u ^ (1.256 : ℝ) * (-0.625)) u := by
      refine (Real.hasDerivAt_rpow_const (.inl hu.1.ne')).mul ?_
      exact (((hasDerivAt_id u).const_mul (0.625 : ℝ)).const_sub 1).congr_deriv (by ring)
    rw [hd.deriv]
    have e : u ^ (1.256 : ℝ) = u ^ (1.256 - 1 : ℝ) * u := by
      rw [← Real.rpow_add_one hu.1.ne']; norm_num
    rw [e]
    have hp : 0 < u ^ (1.256 - 1 : ℝ) := Real.rpow_pos_of_pos hu.1 _
    have : 1.256 * u ^ (1.256 - 1 : ℝ) * (1 - 0.625 * u) + u ^ (1.256 - 1 : ℝ) * u * (-0.625) =
        u ^ (1.256 - 1 : ℝ) * (1.256 - 1.41 * u) := by ring
    rw [this]
    have := hu.2
    refine mul_pos hp ?_
    norm_num at this ⊢; linarith

/-- Strictly decreasing on the whole range of the equation. -/
theorem C43_decreasing : StrictAntiOn sigma (Icc 248.15 647.096) := by
  intro T hT T' hT' h
  have m : ∀ x ∈ Icc (248.15 : ℝ) 647.096, 1 - x / 647.096 ∈ Icc (0 : ℝ) 0.85 := fun x hx => by
    have := hx.1; have := hx.2
    constructor
    · rw [sub_nonneg, div_le_one (by norm_num)]; assumption
    · have : 0.15 ≤ x / 647.096 := by rw [le_div_iff₀ (by norm_num)]; norm_num at *; linarith
      norm_num at *; linarith
  have := mono (m _ hT') (m _ hT) (by
    have : T / 647.096 < T' / 647.096 := div_lt_div_of_pos_right h (by norm_num)
    linarith)
  unfold sigma
  simp only at this
  linarith

/-- Positive below the critical point. -/
theorem C43_positive (T : ℝ) (h1 : 248.15 ≤ T) (h2 : T < 647.096) : 0 < sigma T := by
  rw [← C43_critical]; exact C43_decreasing ⟨h1, h2.le⟩ ⟨by norm_num, le_rfl⟩ h2

/-- In API terms: never negative inside the range, and decreasing from call to call. -/
theorem C43_api (p p' t t' : ℝ) (r r' : Int) (hr : r = 1 ∨ r = 2 ∨ r = 3 ∨ r = 5) (hr' : r' = 1 ∨ r' = 2 ∨ r' = 3 ∨ r' = 5)
    (h1 : -25 ≤ t) (h : t < t') (h2 : t' ≤ 373.946) :
    ∃ s s', Fn.pt.call p t Doc.idSt r = some s ∧ Fn.pt.call p' t' Doc.idSt r' = some s' ∧ 0 ≤ s' ∧ s' < s := by
  have a1 : 248.15 ≤ t + 273.15 := by norm_num; linarith
  have a4 : t' + 273.15 ≤ 647.096 := by norm_num at h2 ⊢; linarith
  have a2 : t + 273.15 ≤ 647.096 := by linarith
  have a3 : 248.15 ≤ t' + 273.15 := by linarith
  refine ⟨_, _, C43_pt p t r hr, C43_pt p' t' r' hr', ?_, ?_⟩
  · rw [if_pos ⟨a3, a4⟩]
    rcases a4.eq_or_lt with e | e
    · rw [e, C43_critical]
    · exact (C43_positive _ a3 e).le
  · rw [if_pos ⟨a3, a4⟩, if_pos ⟨a1, a2⟩]
    exact C43_decreasing ⟨a1, a2⟩ ⟨a3, a4⟩ (by linarith)

/-- Concrete: 20 °C against 350 °C. -/
example : ∃ s s', Fn.pt.call (1 : ℝ) 20 Doc.idSt 1 = some s ∧ Fn.pt.call (20 : ℝ) 350 Doc.idSt 1 = some s' ∧
    0 ≤ s' ∧ s' < s := C43_api 1 20 20 350 1 1 (.inl rfl) (.inl rfl) (by norm_num) (by norm_num) (by norm_num)

end If97
