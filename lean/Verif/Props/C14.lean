import Verif.Lemmas.ApiVal

/-!
# C14 Energy bookkeeping

Exact arithmetic; relations between the numbers returned for OH, OU, OG, OF, OS, OV
at one state.
-/

namespace If97

/-- Regions 1, 2, 5. -/
theorem C14_gibbs (r : Int) (hr : GibbsRegion r) (p t : ℝ) (h : Regular r p (t + 273.15)) :
    valPT r Doc.idH p t = valPT r Doc.idU p t + 1000 * p * valPT r Doc.idV p t ∧
    valPT r Doc.idG p t = valPT r Doc.idH p t - (t + 273.15) * valPT r Doc.idS p t ∧
    valPT r Doc.idF p t = valPT r Doc.idU p t - (t + 273.15) * valPT r Doc.idS p t := by
  rw [val_H hr h, val_U hr h, val_V hr h, val_G hr h, val_S hr h, val_F hr h]
  have hT := h.2.1.ne'
  have hps := (h.smooth hr).ps
  simp only [Gibbs.H, Gibbs.U, Gibbs.V, Gibbs.Gf, Gibbs.S, Gibbs.Ff]
  refine ⟨?_, ?_, ?_⟩
  · norm_num; field_simp; ring
  · field_simp; ring
  · field_simp; ring

/-- Region 3, with the pressure returned for the same state. -/
theorem C14_region3 (t v : ℝ) (hT : 0 < t + 273.15) (hv : 0 < v) :
    valTV Doc.idH t v = valTV Doc.idU t v + 1000 * valTV Doc.idP t v * v ∧
    valTV Doc.idG t v = valTV Doc.idH t v - (t + 273.15) * valTV Doc.idS t v ∧
    valTV Doc.idF t v = valTV Doc.idU t v - (t + 273.15) * valTV Doc.idS t v := by
  rw [tv_H hT hv, tv_U hT hv, tv_P hT hv, tv_G hT hv, tv_S hT hv, tv_F hT hv]
  have hy : (647.096 : ℝ) = (t + 273.15) * R3.yt (t + 273.15) := by unfold R3.yt; field_simp
  simp only [R3.H, R3.U, R3.P, R3.Gf, R3.S, R3.Fh]
  generalize hyy : R3.yt (t + 273.15) = y at hy ⊢
  rw [hy]
  refine ⟨?_, ?_, ?_⟩
  · norm_num; field_simp
  · ring
  · ring

/-- A concrete state of region 2 and one of region 3. -/
example : valPT 2 Doc.idH 3 26.85 = valPT 2 Doc.idU 3 26.85 + 1000 * 3 * valPT 2 Doc.idV 3 26.85 :=
  (C14_gibbs 2 (.inr (.inl rfl)) 3 26.85 ⟨by norm_num, by norm_num, by norm_num, by norm_num⟩).1
example : valTV Doc.idH 376.85 0.002 = valTV Doc.idU 376.85 0.002 + 1000 * valTV Doc.idP 376.85 0.002 * 0.002 :=
  (C14_region3 376.85 0.002 (by norm_num) (by norm_num)).1

end If97
