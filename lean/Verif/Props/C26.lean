import Verif.Lemmas.Saturation
import Verif.Spec.Domain

/-!
# C26 The saturation curve

Exact arithmetic, through the API: the saturation pressure returned by `tx` satisfies the IF97
saturation equation, is positive, continuous and strictly increasing; the saturation temperature
returned by `px` is strictly increasing; outside the range both calls return −9999.
-/

namespace If97
open Set

theorem C26_equation (t x p : ℝ) (h1 : 0 ≤ t) (h2 : t ≤ 373.946) (hx : x ∈ Icc (0 : ℝ) 1)
    (hp : FnX.tx.call t x Doc.idP = some p) : SatEq p (t + 273.15) := by
  rw [Sat.tx_P h1 h2 hx, Option.some_inj] at hp
  have hm := Sat.th_mem (Sat.mem h1 h2)
  refine ⟨Sat.bt (Sat.th (t + 273.15)), Sat.th (t + 273.15), (Sat.bt_pos _).le, hp, rfl, ?_⟩
  have := Sat.bt_root hm.1 hm.2
  rw [← this]; unfold Sat.Qf Sat.qA Sat.qB Sat.qC; norm_num; ring

/-- Positive, and strictly increasing in t whatever the qualities. -/
theorem C26_pressure_increasing (t₁ t₂ x₁ x₂ : ℝ) (h1 : 0 ≤ t₁) (h : t₁ < t₂) (h2 : t₂ ≤ 373.946)
    (hx1 : x₁ ∈ Icc (0 : ℝ) 1) (hx2 : x₂ ∈ Icc (0 : ℝ) 1) :
    ∃ p₁ p₂, FnX.tx.call t₁ x₁ Doc.idP = some p₁ ∧ FnX.tx.call t₂ x₂ Doc.idP = some p₂ ∧ 0 < p₁ ∧ p₁ < p₂ :=
  ⟨_, _, Sat.tx_P h1 (by linarith) hx1, Sat.tx_P (by linarith) h2 hx2, Sat.psat_pos _,
    Sat.psat_strictMonoOn (Sat.mem h1 (by linarith)) (Sat.mem (by linarith) h2) (by linarith)⟩

/-- Continuous in t. -/
theorem C26_pressure_continuous (x : ℝ) (hx : x ∈ Icc (0 : ℝ) 1) :
    ContinuousOn (fun t => (FnX.tx.call t x Doc.idP).getD 0) (Icc 0 373.946) := by
  refine ContinuousOn.congr (f := fun t => Sat.psat (t + 273.15)) ?_ fun t ht => by
    simp only [Sat.tx_P ht.1 ht.2 hx, Option.getD_some]
  exact Sat.psat_continuousOn.comp (by fun_prop) fun t ht => Sat.mem ht.1 ht.2

/-- Strictly increasing in p whatever the qualities. -/
theorem C26_temperature_increasing (p₁ p₂ x₁ x₂ : ℝ) (h1 : 0.000611212677444 ≤ p₁) (h : p₁ < p₂) (h2 : p₂ ≤ 22.064)
    (hx1 : x₁ ∈ Icc (0 : ℝ) 1) (hx2 : x₂ ∈ Icc (0 : ℝ) 1) :
    ∃ t₁ t₂, FnX.px.call p₁ x₁ Doc.idT = some t₁ ∧ FnX.px.call p₂ x₂ Doc.idT = some t₂ ∧ t₁ < t₂ := by
  refine ⟨_, _, Sat.px_T h1 (by linarith) hx1, Sat.px_T (by linarith) h2 hx2, ?_⟩
  have h3 : (0.000611212677 : ℝ) ≤ p₁ := le_trans (by norm_num) h1
  obtain ⟨T1, m1, rfl⟩ := Sat.exists_T h3 (by linarith)
  obtain ⟨T2, m2, rfl⟩ := Sat.exists_T (p := p₂) (by linarith) h2
  rw [Sat.T_saturation_psat m1 h3 (by linarith), Sat.T_saturation_psat m2 (by linarith) h2]
  have := (Sat.psat_strictMonoOn.lt_iff_lt m1 m2).mp h
  linarith

/-- Outside the range of the saturation curve both calls return −9999. -/
theorem C26_outside (a x : ℝ) :
    ((a < 0 ∨ 373.946 < a) → FnX.tx.call a x Doc.idP = some (-9999)) ∧
    ((a < 0.000611212677444 ∨ 22.064 < a) → FnX.px.call a x Doc.idT = some (-9999)) := by
  constructor
  · intro h
    have hg : ((a + 273.15 >. (T_MAX4 : ℝ)) || (a + 273.15 <. T_MIN4) || (x >. 1.0) || (x <. 0.0)) = true := by
      simp only [T_MAX4, T_MIN4, real_lt, Bool.or_eq_true, decide_eq_true_eq]
      rcases h with h | h
      · exact .inl (.inl (.inr (by linarith)))
      · exact .inl (.inl (.inl (by norm_num at h ⊢; linarith)))
    show (if (_ : Bool) = true then _ else _) = _
    rw [if_pos hg]; simp [INVALID_VALUE]
  · intro h
    have hg : ((a >. (P_MAX4 : ℝ)) || (a <. P_MIN4) || (x >. 1.0) || (x <. 0.0)) = true := by
      simp only [P_MAX4, P_MIN4, real_lt, Bool.or_eq_true, decide_eq_true_eq]
      rcases h with h | h
      · exact .inl (.inl (.inr h))
      · exact .inl (.inl (.inl h))
    show (if (_ : Bool) = true then _ else _) = _
    rw [if_pos hg]; simp [INVALID_VALUE]

/-- A concrete pair of states. -/
example : ∃ p₁ p₂ : ℝ, FnX.tx.call 100 0 Doc.idP = some p₁ ∧ FnX.tx.call 200 1 Doc.idP = some p₂ ∧ 0 < p₁ ∧ p₁ < p₂ :=
  C26_pressure_increasing 100 200 0 1 (by norm_num) (by norm_num) (by norm_num) (by norm_num) (by norm_num)

end If97
