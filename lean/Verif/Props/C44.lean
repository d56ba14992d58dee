import Verif.Props.C46

/-!
# C44 Viscosity and thermal conductivity are positive

Exact arithmetic.  For every temperature from 0 °C up and every density, on the equations themselves,
and through the API for all outputs ODV and OTC of all functions in the single-phase regions.
-/

namespace If97

namespace Transport
/-- the dilute-gas factors -/
noncomputable def v0 (T : ℝ) : ℝ := 100.0 * Real.sqrt (T / 647.096) /
  (1.67752 + 2.20462 / (T / 647.096) + 0.6366564 / (T / 647.096) ^ 2 + -0.241605 / (T / 647.096) ^ 3)
noncomputable def c0 (T : ℝ) : ℝ := Real.sqrt (T / 647.096) /
  (2.443221e-3 + 1.323095e-2 / (T / 647.096) + 6.770357e-3 / (T / 647.096) ^ 2 + -3.454586e-3 / (T / 647.096) ^ 3 +
    4.096266e-4 / (T / 647.096) ^ 4)
/-- the exponents of the residual factors -/
noncomputable def vA (d T : ℝ) : ℝ := d / 322.0 * poly_powi (1.0 / (T / 647.096) - 1.0) (d / 322.0 - 1.0) viscosity_ijH
noncomputable def cA (d T : ℝ) : ℝ :=
  d / 322.0 * ((List.range' 0 5).foldl (fun suma i =>
      suma + (1.0 / (T / 647.096) - 1.0) ^ i *
        (List.range' 0 6).foldl (fun suma2 j => suma2 + nthF (nthL thcond_nij i) j * (d / 322.0 - 1.0) ^ j) 0.0) 0.0)

theorem viscosity_eq (d T : ℝ) : viscosity d T = 1e-6 * (v0 T * Real.exp (vA d T)) := by
  simp only [viscosity, v0, vA, show List.range' 0 4 = [0, 1, 2, 3] from rfl, List.foldl_cons, List.foldl_nil, nthF,
    viscosity_no, List.getD_cons_succ, List.getD_cons_zero, real_powi, real_exp, real_sqrt, TC_WATER, DC_WATER]
  norm_num; ring

theorem thcond_eq (d T : ℝ) : thcond d T = 1e-3 * (c0 T * Real.exp (cA d T)) := by
  simp only [thcond, c0, cA, show List.range' 0 5 = [0, 1, 2, 3, 4] from rfl, List.foldl_cons, List.foldl_nil,
    real_powi, real_exp, real_sqrt, TC_WATER, DC_WATER, zpow_natCast]
  simp only [nthF, thcond_no, List.getD_cons_succ, List.getD_cons_zero]
  norm_num

theorem v0_pos {T : ℝ} (h : 273.15 ≤ T) : 0 < v0 T := by
  have hT : 0 < T := by norm_num at h; linarith
  have hx : 0 < T / 647.096 := by positivity
  have hx2 : 273.15 / 647.096 ≤ T / 647.096 := div_le_div_of_nonneg_right h (by norm_num)
  unfold v0
  generalize T / 647.096 = x at *
  refine div_pos (mul_pos (by norm_num) (Real.sqrt_pos.mpr hx)) ?_
  have e : 1.67752 + 2.20462 / x + 0.6366564 / x ^ 2 + -0.241605 / x ^ 3 =
      (1.67752 * x ^ 3 + 2.20462 * x ^ 2 + 0.6366564 * x - 0.241605) / x ^ 3 := by field_simp; ring
  rw [e]
  refine div_pos ?_ (by positivity)
  norm_num at *
  nlinarith [pow_pos hx 3, pow_pos hx 2]

theorem c0_pos {T : ℝ} (h : 273.15 ≤ T) : 0 < c0 T := by
  have hT : 0 < T := by norm_num at h; linarith
  have hx : 0 < T / 647.096 := by positivity
  have hx2 : 273.15 / 647.096 ≤ T / 647.096 := div_le_div_of_nonneg_right h (by norm_num)
  unfold c0
  generalize T / 647.096 = x at *
  refine div_pos (Real.sqrt_pos.mpr hx) ?_
  have e : 2.443221e-3 + 1.323095e-2 / x + 6.770357e-3 / x ^ 2 + -3.454586e-3 / x ^ 3 + 4.096266e-4 / x ^ 4 =
      (2.443221e-3 * x ^ 4 + 1.323095e-2 * x ^ 3 + 6.770357e-3 * x ^ 2 - 3.454586e-3 * x + 4.096266e-4) / x ^ 4 := by
    field_simp; ring
  rw [e]
  refine div_pos ?_ (by positivity)
  norm_num at *
  nlinarith [pow_pos hx 3, pow_pos hx 4, sq_nonneg (x - 1 / 4)]

end Transport
open Transport

/-- The equation for the dynamic viscosity. -/
theorem C44_viscosity (d T : ℝ) (h : 273.15 ≤ T) : 0 < viscosity d T := by
  rw [viscosity_eq]; exact mul_pos (by norm_num) (mul_pos (v0_pos h) (Real.exp_pos _))

/-- The equation for the thermal conductivity. -/
theorem C44_conductivity (d T : ℝ) (h : 273.15 ≤ T) : 0 < thcond d T := by
  rw [thcond_eq]; exact mul_pos (by norm_num) (mul_pos (c0_pos h) (Real.exp_pos _))

/-- Through `pt` in regions 1, 2, 5: ODV and OTC. -/
theorem C44_pt (r : Int) (hr : GibbsRegion r) (p t : ℝ) (h : 0 ≤ t) :
    ∃ dv tc, Fn.pt.call p t Doc.idDv r = some dv ∧ Fn.pt.call p t Doc.idTc r = some tc ∧ 0 < dv ∧ 0 < tc := by
  have h' : 273.15 ≤ t + 273.15 := by linarith
  rcases hr with rfl | rfl | rfl <;> exact ⟨_, _, rfl, rfl, C44_viscosity _ _ h', C44_conductivity _ _ h'⟩

/-- Through `tv` in region 3. -/
theorem C44_tv (t v : ℝ) (h : 0 ≤ t) :
    ∃ dv tc, Fn.tv.call t v Doc.idDv 3 = some dv ∧ Fn.tv.call t v Doc.idTc 3 = some tc ∧ 0 < dv ∧ 0 < tc :=
  have h' : 273.15 ≤ t + 273.15 := by linarith
  ⟨_, _, rfl, rfl, C44_viscosity _ _ h', C44_conductivity _ _ h'⟩

/-- Through every function and every single-phase region: if the temperature of the state (the returned
OT) is not below 0 °C, the returned viscosity and conductivity are positive. -/
theorem C44_all (f : Fn) (r : Int) (hr : r ∈ [1, 2, 3, 5]) (a b t : ℝ)
    (ht : f.call a b Doc.idT r = some t) (h : 0 ≤ t) :
    ∃ dv tc, f.call a b Doc.idDv r = some dv ∧ f.call a b Doc.idTc r = some tc ∧ 0 < dv ∧ 0 < tc := by
  have hT := Fn.not_given_T f r
  have hT3 := Fn.not_given3_T f
  by_cases h3 : r = 3
  · subst h3
    obtain ⟨t', v, hs⟩ := C46_region3 f a b
    rw [hs _ hT3] at ht
    have : t' = t := Option.some.inj ht
    rw [hs _ (Fn.not_given3 f _ (by decide)), hs _ (Fn.not_given3 f _ (by decide))]
    exact C44_tv t' v (this ▸ h)
  · have hg : GibbsRegion r := by
      simp only [List.mem_cons, List.not_mem_nil, or_false] at hr
      rcases hr with rfl | rfl | rfl | rfl
      exacts [.inl rfl, .inr (.inl rfl), absurd rfl h3, .inr (.inr rfl)]
    obtain ⟨p, t', hs⟩ := C46_gibbs f r hg a b
    rw [hs _ hT] at ht
    have : t' = t := Option.some.inj ht
    rw [hs _ (Fn.not_given f r _ (by decide)), hs _ (Fn.not_given f r _ (by decide))]
    exact C44_pt r hg p t' (this ▸ h)

/-- Concrete: `pt(10, 25)` in region 1. -/
example : ∃ dv tc, Fn.pt.call (10 : ℝ) 25 Doc.idDv 1 = some dv ∧ Fn.pt.call (10 : ℝ) 25 Doc.idTc 1 = some tc ∧ 0 < dv ∧ 0 < tc :=
  C44_all .pt 1 (by decide) 10 25 25 rfl (by norm_num)

end If97
