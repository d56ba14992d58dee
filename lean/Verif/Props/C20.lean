import Verif.Lemmas.ApiVal

/-!
# C20 Exergy definition is the same in all regions

Exact arithmetic.  Regions 1, 2, 5 return OE = OH − 273.16·OS.  Region 3 does not: its formula
has the extra term R (T − 273.16)(1 − τ) φ, which vanishes only for T = 273.16 K, T = T_c or φ = 0.
φ = OF/(R T), so the extra term is written with the returned OF.
-/

namespace If97

/-- Regions 1, 2, 5. -/
theorem C20_gibbs_partial (r : Int) (hr : GibbsRegion r) (p t : ℝ) (h : Regular r p (t + 273.15)) :
    valPT r Doc.idE p t = valPT r Doc.idH p t - 273.16 * valPT r Doc.idS p t := by
  rw [val_E hr h, val_H hr h, val_S hr h]

/-- What region 3 returns. -/
theorem C20_region3_actual (t v : ℝ) (hT : 0 < t + 273.15) (hv : 0 < v) :
    valTV Doc.idE t v = valTV Doc.idH t v - 273.16 * valTV Doc.idS t v +
      (t + 273.15 - 273.16) * (1 - 647.096 / (t + 273.15)) * valTV Doc.idF t v / (t + 273.15) := by
  rw [tv_E hT hv, tv_H hT hv, tv_S hT hv, tv_F hT hv]
  have hy : R3.yt (t + 273.15) = 647.096 / (t + 273.15) := rfl
  simp only [R3.Fh]
  generalize R3.f (R3.xd (1 / v)) (R3.yt (t + 273.15)) = f
  rw [hy]
  field_simp

/-- The relation holds in region 3 exactly where the extra term vanishes. -/
theorem C20_region3_iff (t v : ℝ) (hT : 0 < t + 273.15) (hv : 0 < v) :
    valTV Doc.idE t v = valTV Doc.idH t v - 273.16 * valTV Doc.idS t v ↔
    t = 0.01 ∨ t = 373.946 ∨ valTV Doc.idF t v = 0 := by
  rw [C20_region3_actual t v hT hv, add_eq_left, div_eq_zero_iff, mul_eq_zero, mul_eq_zero]
  have e1 : t + 273.15 - 273.16 = 0 ↔ t = 0.01 := by
    constructor <;> intro h
    · norm_num at h ⊢; linarith
    · rw [h]; norm_num
  have e2 : 1 - 647.096 / (t + 273.15) = 0 ↔ t = 373.946 := by
    rw [sub_eq_zero, eq_div_iff hT.ne']
    constructor <;> intro h
    · norm_num at h ⊢; linarith
    · rw [h]; norm_num
  rw [e1, e2]
  simp [hT.ne', or_assoc]

/-- The relation is false at the critical density and 647.096/0.9 K (445.8 °C). -/
theorem C20_region3_violated :
    valTV Doc.idE (647.096 / 0.9 - 273.15) (1 / 322) ≠
    valTV Doc.idH (647.096 / 0.9 - 273.15) (1 / 322) - 273.16 * valTV Doc.idS (647.096 / 0.9 - 273.15) (1 / 322) := by
  have hT : (0 : ℝ) < 647.096 / 0.9 - 273.15 + 273.15 := by norm_num
  have hv : (0 : ℝ) < 1 / 322 := by norm_num
  rw [Ne, C20_region3_iff _ _ hT hv]
  have hF : valTV Doc.idF (647.096 / 0.9 - 273.15) (1 / 322) ≠ 0 := by
    rw [tv_F hT hv]
    simp only [R3.Fh, R3.f, R3.xd, R3.yt, gasR, poly_powi_sum, r3_IJn]
    norm_num
  norm_num at hF ⊢
  exact hF

/-- A concrete state for `C20_gibbs_partial`. -/
example : valPT 5 Doc.idE 30 1226.85 = valPT 5 Doc.idH 30 1226.85 - 273.16 * valPT 5 Doc.idS 30 1226.85 :=
  C20_gibbs_partial 5 (.inr (.inr rfl)) 30 1226.85 ⟨by norm_num, by norm_num, by norm_num, by norm_num⟩

end If97
