import Verif.Props.C23
import Verif.Lemmas.ApiVal

/-!
# C24 Prandtl number and thermal diffusivity

OTD = OTC / (1000·OCP·OD) in all single-phase regions (exact arithmetic, all functions, except `tv` in
regions 1 and 5 where OD is computed from the input).  OPR = 1000·ODV·OCP/OTC in region 3.  In regions
1, 2 and 5 the Prandtl number is computed with the density 1/T: `C24_prandtl_actual`, and the
property fails: `C24_prandtl_violated`.
-/

namespace If97
open Transport

private theorem td_eq (tc cp d : ℝ) : thermal_diffusivity tc cp d = tc / (1000 * cp * d) := by
  unfold thermal_diffusivity
  rw [mul_assoc 1000, ← div_div _ (1000 : ℝ)]
  congr 1
  norm_num
  ring
private theorem pr_eq (dv cp tc : ℝ) : prandtl_number dv cp tc = 1000 * dv * cp / tc := by
  unfold prandtl_number; norm_num

private theorem td_pt (r : Int) (hr : GibbsRegion r) (p t : ℝ) :
    ∃ tc cp d, Fn.pt.call p t Doc.idTc r = some tc ∧ Fn.pt.call p t Doc.idCp r = some cp ∧ Fn.pt.call p t Doc.idD r = some d ∧
      Fn.pt.call p t Doc.idTd r = some (tc / (1000 * cp * d)) := by
  rcases hr with rfl | rfl | rfl <;>
    exact ⟨_, _, _, rfl, rfl, rfl, congrArg some (td_eq _ _ _)⟩

private theorem td_tv (t v : ℝ) :
    ∃ tc cp d, Fn.tv.call t v Doc.idTc 3 = some tc ∧ Fn.tv.call t v Doc.idCp 3 = some cp ∧ Fn.tv.call t v Doc.idD 3 = some d ∧
      Fn.tv.call t v Doc.idTd 3 = some (tc / (1000 * cp * d)) := by
  exact ⟨_, _, _, rfl, rfl, rfl, congrArg some (td_eq _ _ _)⟩

/-- Thermal diffusivity, all functions, regions 1, 2, 5. -/
theorem C24_diffusivity_gibbs (f : Fn) (r : Int) (hr : GibbsRegion r) (hf : f = .tv → r = 2) (a b : ℝ) :
    ∃ tc cp d, f.call a b Doc.idTc r = some tc ∧ f.call a b Doc.idCp r = some cp ∧ f.call a b Doc.idD r = some d ∧
      f.call a b Doc.idTd r = some (tc / (1000 * cp * d)) := by
  obtain ⟨p, t, h⟩ := C46_gibbs f r hr a b
  rw [h _ (f.not_given_D r hf), h _ (f.not_given r _ (by decide)), h _ (f.not_given r _ (by decide)),
    h _ (f.not_given r _ (by decide))]
  exact td_pt r hr p t

/-- Thermal diffusivity, all functions, region 3. -/
theorem C24_diffusivity_region3 (f : Fn) (a b : ℝ) :
    ∃ tc cp d, f.call a b Doc.idTc 3 = some tc ∧ f.call a b Doc.idCp 3 = some cp ∧ f.call a b Doc.idD 3 = some d ∧
      f.call a b Doc.idTd 3 = some (tc / (1000 * cp * d)) := by
  obtain ⟨t, v, h⟩ := C46_region3 f a b
  rw [h _ f.not_given3_D, h _ (f.not_given3 _ (by decide)), h _ (f.not_given3 _ (by decide)),
    h _ (f.not_given3 _ (by decide))]
  exact td_tv t v

/-- Prandtl number, all functions, region 3. -/
theorem C24_prandtl_region3_partial (f : Fn) (a b : ℝ) :
    ∃ dv cp tc, f.call a b Doc.idDv 3 = some dv ∧ f.call a b Doc.idCp 3 = some cp ∧ f.call a b Doc.idTc 3 = some tc ∧
      f.call a b Doc.idPr 3 = some (1000 * dv * cp / tc) := by
  obtain ⟨t, v, h⟩ := C46_region3 f a b
  rw [h _ (f.not_given3 _ (by decide)), h _ (f.not_given3 _ (by decide)), h _ (f.not_given3 _ (by decide)),
    h _ (f.not_given3 _ (by decide))]
  exact ⟨_, _, _, rfl, rfl, rfl, congrArg some (pr_eq _ _ _)⟩

/-- Regions 1, 2, 5: the code evaluates viscosity and conductivity at the density 1/T. -/
theorem C24_prandtl_actual (r : Int) (hr : GibbsRegion r) (p t : ℝ) :
    ∃ cp, Fn.pt.call p t Doc.idCp r = some cp ∧
      Fn.pt.call p t Doc.idPr r = some (1000 * viscosity (1 / (t + 273.15)) (t + 273.15) * cp /
        thcond (1 / (t + 273.15)) (t + 273.15)) := by
  rw [show (1 : ℝ) / (t + 273.15) = 1.0 / (t + 273.15) by norm_num]
  rcases hr with rfl | rfl | rfl <;>
    exact ⟨_, rfl, congrArg some (pr_eq _ _ _)⟩

private theorem ratio_eq (d T : ℝ) : viscosity d T / thcond d T =
    1e-3 * (v0 T / c0 T) * Real.exp (vA d T - cA d T) := by
  rw [viscosity_eq, thcond_eq, Real.exp_sub]
  have := Real.exp_pos (cA d T)
  by_cases h : c0 T = 0
  · simp [h]
  · field_simp; norm_num; ring

/-- The value returned is the documented ratio if and only if the exponents of the two residual factors
have the same difference at the two densities (unless cp = 0). -/
theorem C24_prandtl_iff (r : Int) (hr : GibbsRegion r) (p t : ℝ) (ht : 0 ≤ t) :
    ∃ dv cp tc pr d, Fn.pt.call p t Doc.idDv r = some dv ∧ Fn.pt.call p t Doc.idCp r = some cp ∧
      Fn.pt.call p t Doc.idTc r = some tc ∧ Fn.pt.call p t Doc.idPr r = some pr ∧ Fn.pt.call p t Doc.idD r = some d ∧
      (pr = 1000 * dv * cp / tc ↔ cp = 0 ∨ vA d (t + 273.15) - cA d (t + 273.15) =
        vA (1 / (t + 273.15)) (t + 273.15) - cA (1 / (t + 273.15)) (t + 273.15)) := by
  obtain ⟨cp, h1, h2⟩ := C24_prandtl_actual r hr p t
  have key : ∀ d cp : ℝ, 1000 * viscosity (1 / (t + 273.15)) (t + 273.15) * cp / thcond (1 / (t + 273.15)) (t + 273.15) =
      1000 * viscosity d (t + 273.15) * cp / thcond d (t + 273.15) ↔ cp = 0 ∨ vA d (t + 273.15) - cA d (t + 273.15) =
        vA (1 / (t + 273.15)) (t + 273.15) - cA (1 / (t + 273.15)) (t + 273.15) := by
    intro d cp
    have e : ∀ x : ℝ, 1000 * viscosity x (t + 273.15) * cp / thcond x (t + 273.15) =
        cp * (1000 * (viscosity x (t + 273.15) / thcond x (t + 273.15))) := fun x => by ring
    have e2 : ∀ a b c : ℝ, a * (b * c) = a * b * c := fun a b c => by ring
    have hT : 273.15 ≤ t + 273.15 := by linarith
    have hk : 1000 * (1e-3 * (v0 (t + 273.15) / c0 (t + 273.15))) ≠ 0 := by
      have := v0_pos hT; have := c0_pos hT; positivity
    rw [e, e, ratio_eq, ratio_eq, mul_eq_mul_left_iff, e2 1000 _ (Real.exp _), e2 1000 _ (Real.exp _), mul_right_inj' hk, Real.exp_eq_exp]
    constructor
    · rintro (h | h); exacts [.inr h.symm, .inl h]
    · rintro (h | h); exacts [.inr h, .inl h.symm]
  rcases hr with rfl | rfl | rfl <;>
    exact ⟨_, _, _, _, _, rfl, h1, rfl, h2, rfl, key _ _⟩

private theorem cp_ne : (Gr 2).Cp 1 647.096 ≠ 0 := by
  simp only [Gr_2, Gibbs.Cp, G2, gasR, idealGibbs, poly_jj_powi_sum, r2_IJn, idealSum2, r2_n0, r2_J0, nthF, nthI,
    show List.range' 0 9 = [0, 1, 2, 3, 4, 5, 6, 7, 8] from rfl]
  norm_num

private theorem d_bound : 3.3 < 1.0 / (Gr 2).V 1 647.096 ∧ 1.0 / (Gr 2).V 1 647.096 < 3.5 := by
  simp only [Gr_2, Gibbs.V, G2, gasR, idealGibbs, poly_i_powi_sum, r2_IJn]
  norm_num

private theorem expo (d : ℝ) : vA d 647.096 - cA d 647.096 =
    d / 322 * (-119009394301 / 50000000000) + (d / 322) ^ 2 * (691576659 / 400000000) +
    (d / 322) ^ 3 * (-501664911 / 1250000000) + (d / 322) ^ 4 * (-183927341 / 2500000000) +
    (d / 322) ^ 5 * (483681263 / 10000000000) + (d / 322) ^ 6 * (-304929629 / 50000000000) := by
  have e1 : vA d 647.096 = d / 322 * (5.20094e-1 + 2.22531e-1 * (d / 322 - 1) + -2.81378e-1 * (d / 322 - 1) ^ 2 +
      1.61913e-1 * (d / 322 - 1) ^ 3 + -3.25372e-2 * (d / 322 - 1) ^ 4) := by
    simp only [vA, poly_powi_sum, viscosity_ijH, List.map_cons, List.map_nil, List.sum_cons, List.sum_nil]
    norm_num
    left; ring
  have e2 : cA d 647.096 = d / 322 * (1.60397357 + -0.646013523 * (d / 322 - 1) + 0.111443906 * (d / 322 - 1) ^ 2 +
      0.102997357 * (d / 322 - 1) ^ 3 + -0.0504123634 * (d / 322 - 1) ^ 4 + 0.00609859258 * (d / 322 - 1) ^ 5) := by
    simp only [cA, show List.range' 0 5 = [0, 1, 2, 3, 4] from rfl,
      show List.range' 0 6 = [0, 1, 2, 3, 4, 5] from rfl, thcond_nij, nthF, nthL, List.foldl_cons, List.foldl_nil,
      List.getD_cons_succ, List.getD_cons_zero]
    norm_num
  rw [e1, e2]; norm_num; ring

private theorem exponents_differ (d : ℝ) (hd : 3.3 < d ∧ d < 3.5) :
    ¬ vA d 647.096 - cA d 647.096 = vA (1 / 647.096) 647.096 - cA (1 / 647.096) 647.096 := by
  rw [expo, expo]
  have h1 : 0.01 < d / 322 := by rw [lt_div_iff₀ (by norm_num)]; norm_num at *; linarith
  have h2 : d / 322 < 0.014 := by rw [div_lt_iff₀ (by norm_num)]; norm_num at *; linarith
  generalize d / 322 = x at *
  have hr : -0.001 < (1 / 647.096 : ℝ) / 322 * (-119009394301 / 50000000000) + ((1 / 647.096 : ℝ) / 322) ^ 2 * (691576659 / 400000000) +
    ((1 / 647.096 : ℝ) / 322) ^ 3 * (-501664911 / 1250000000) + ((1 / 647.096 : ℝ) / 322) ^ 4 * (-183927341 / 2500000000) +
    ((1 / 647.096 : ℝ) / 322) ^ 5 * (483681263 / 10000000000) + ((1 / 647.096 : ℝ) / 322) ^ 6 * (-304929629 / 50000000000) := by norm_num
  intro h
  rw [← h] at hr
  norm_num at h1 h2 hr
  have p0 : 0 < x := by linarith
  have q2 : x ^ 2 ≤ 0.014 * x := by norm_num; nlinarith
  have q5 : x ^ 5 ≤ 0.014 * x := by
    have : x ^ 4 ≤ 0.014 := by
      calc x ^ 4 ≤ 0.014 ^ 4 := pow_le_pow_left₀ p0.le (by norm_num; linarith) 4
        _ ≤ 0.014 := by norm_num
    calc x ^ 5 = x ^ 4 * x := by ring
      _ ≤ 0.014 * x := mul_le_mul_of_nonneg_right this p0.le
  norm_num at q2 q5
  have := pow_pos p0 3
  have := pow_pos p0 4
  have := pow_pos p0 6
  linarith

/-- The property fails: region 2, 1 MPa and 647.096 K. -/
theorem C24_prandtl_violated : ∃ dv cp tc pr, Fn.pt.call (1 : ℝ) 373.946 Doc.idDv 2 = some dv ∧
    Fn.pt.call (1 : ℝ) 373.946 Doc.idCp 2 = some cp ∧ Fn.pt.call (1 : ℝ) 373.946 Doc.idTc 2 = some tc ∧
    Fn.pt.call (1 : ℝ) 373.946 Doc.idPr 2 = some pr ∧ pr ≠ 1000 * dv * cp / tc := by
  obtain ⟨dv, cp, tc, pr, d, h1, h2, h3, h4, h5, h⟩ := C24_prandtl_iff 2 (.inr (.inl rfl)) 1 373.946 (by norm_num)
  refine ⟨dv, cp, tc, pr, h1, h2, h3, h4, ?_⟩
  rw [Ne, h, not_or]
  have hreg : Regular 2 1 (373.946 + 273.15) := ⟨by norm_num, by norm_num, by norm_num, by norm_num⟩
  have hc : cp = (Gr 2).Cp 1 (373.946 + 273.15) := by
    rw [← val_Cp (.inr (.inl rfl)) hreg]; exact (Option.some.inj h2).symm
  have hd : d = 1.0 / (Gr 2).V 1 (373.946 + 273.15) := by
    rw [← val_D (.inr (.inl rfl)) hreg]; exact (Option.some.inj h5).symm
  rw [show (373.946 + 273.15 : ℝ) = 647.096 by norm_num] at *
  exact ⟨hc ▸ cp_ne, exponents_differ d (hd ▸ d_bound)⟩

end If97
