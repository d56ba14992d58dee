import Verif.Lemmas.Saturation

/-!
# C25 Saturation temperature inverts saturation pressure

Exact arithmetic, through the API: `tx(t, x, OP)` is the saturation pressure and `px(p, x, OT)` the
saturation temperature, for every quality.  Both round trips hold wherever the other call accepts the
value.  The accepted ranges do not match exactly: at t = 373.946 °C `tx` returns a pressure above
22.064 MPa, which `px` rejects, and at the lowest pressure accepted by `px` the temperature is below
0 °C, which `tx` rejects (`C25_top_mismatch`, `C25_bottom_mismatch`).
-/

namespace If97
open Set

/-- t → p → t: whenever `px` accepts the pressure returned by `tx`. -/
theorem C25_t_p_t (t x x' : ℝ) (h1 : 0 ≤ t) (h2 : t ≤ 373.946) (hx : x ∈ Icc (0 : ℝ) 1) (hx' : x' ∈ Icc (0 : ℝ) 1)
    (p : ℝ) (hp : FnX.tx.call t x Doc.idP = some p) (hmax : p ≤ 22.064) :
    FnX.px.call p x' Doc.idT = some t := by
  rw [Sat.tx_P h1 h2 hx, Option.some_inj] at hp
  subst hp
  have hge := Sat.psat_ge h1 h2
  rw [Sat.px_T hge hmax hx', Sat.T_saturation_psat (Sat.mem h1 h2) (le_trans (by norm_num) hge) hmax]
  congr 1; ring

/-- `px` accepts the pressure of every temperature up to 373.9459 °C. -/
theorem C25_accepted (t x : ℝ) (h1 : 0 ≤ t) (h2 : t ≤ 373.9459) (hx : x ∈ Icc (0 : ℝ) 1) :
    ∃ p, FnX.tx.call t x Doc.idP = some p ∧ 0.000611212677444 ≤ p ∧ p ≤ 22.064 := by
  have h2' : t ≤ 373.946 := le_trans h2 (by norm_num)
  refine ⟨_, Sat.tx_P h1 h2' hx, Sat.psat_ge h1 h2', ?_⟩
  have hm := Sat.psat_strictMonoOn.monotoneOn (Sat.mem h1 h2') (show (647.0959 : ℝ) ∈ Icc (273 : ℝ) 648 by norm_num)
    (by norm_num at h2 ⊢; linarith)
  refine le_trans hm (le_trans (Sat.psat_lt (b := 2.16731) (by norm_num) ?_ ?_).le ?_)
  · unfold Sat.qA Sat.qB Sat.th; norm_num
  · unfold Sat.Qf Sat.qA Sat.qB Sat.qC Sat.th; norm_num
  · norm_num

/-- p → t → p: whenever `tx` accepts the temperature returned by `px`. -/
theorem C25_p_t_p (p x x' : ℝ) (h1 : 0.000611212677444 ≤ p) (h2 : p ≤ 22.064) (hx : x ∈ Icc (0 : ℝ) 1)
    (hx' : x' ∈ Icc (0 : ℝ) 1) (t : ℝ) (ht : FnX.px.call p x Doc.idT = some t) (hmin : 0 ≤ t) :
    FnX.tx.call t x' Doc.idP = some p := by
  rw [Sat.px_T h1 h2 hx, Option.some_inj] at ht
  obtain ⟨T, hT, rfl⟩ := Sat.exists_T (le_trans (by norm_num) h1) h2
  rw [Sat.T_saturation_psat hT (le_trans (by norm_num) h1) h2] at ht
  have hmax : T < 647.096 := by
    by_contra h
    push Not at h
    have := Sat.psat_strictMonoOn.monotoneOn (show (647.096 : ℝ) ∈ Icc (273 : ℝ) 648 by norm_num) hT h
    linarith [Sat.psat_max.1]
  have h3 : t ≤ 373.946 := by rw [← ht]; norm_num at hmax ⊢; linarith
  rw [Sat.tx_P hmin h3 hx', ← ht]
  congr 2; ring

/-- `tx` accepts the temperature of every pressure from 0.000611212677445 MPa on. -/
theorem C25_accepted_p (p x : ℝ) (h1 : 0.000611212677445 ≤ p) (h2 : p ≤ 22.064) (hx : x ∈ Icc (0 : ℝ) 1) :
    ∃ t, FnX.px.call p x Doc.idT = some t ∧ 0 ≤ t ∧ t ≤ 373.946 := by
  have h1' : 0.000611212677444 ≤ p := le_trans (by norm_num) h1
  refine ⟨_, Sat.px_T h1' h2 hx, ?_⟩
  obtain ⟨T, hT, rfl⟩ := Sat.exists_T (le_trans (by norm_num) h1) h2
  rw [Sat.T_saturation_psat hT (le_trans (by norm_num) h1) h2]
  constructor
  · by_contra h
    push Not at h
    have := Sat.psat_strictMonoOn hT (show (273.15 : ℝ) ∈ Icc (273 : ℝ) 648 by norm_num) (by linarith)
    linarith [Sat.psat_min.2]
  · by_contra h
    push Not at h
    have := Sat.psat_strictMonoOn.monotoneOn (show (647.096 : ℝ) ∈ Icc (273 : ℝ) 648 by norm_num) hT
      (by norm_num at h ⊢; linarith)
    linarith [Sat.psat_max.1]

/-- At the critical temperature the round trip fails: `px` rejects the pressure `tx` returns. -/
theorem C25_top_mismatch (x x' : ℝ) (hx : x ∈ Icc (0 : ℝ) 1) (o : Int) :
    ∃ p, FnX.tx.call 373.946 x Doc.idP = some p ∧ 22.064 < p ∧ FnX.px.call p x' o = some (-9999) := by
  have e : (373.946 : ℝ) + 273.15 = 647.096 := by norm_num
  refine ⟨_, Sat.tx_P (by norm_num) le_rfl hx, by rw [e]; exact Sat.psat_max.1, ?_⟩
  have hg : ((Sat.psat (373.946 + 273.15) >. (P_MAX4 : ℝ)) || (Sat.psat (373.946 + 273.15) <. P_MIN4) ||
      (x' >. 1.0) || (x' <. 0.0)) = true := by
    have : (Sat.psat (373.946 + 273.15) >. (P_MAX4 : ℝ)) = true := by
      rw [e]; simpa [P_MAX4] using Sat.psat_max.1
    rw [this]; simp
  show (if (_ : Bool) = true then _ else _) = _
  rw [if_pos hg]
  simp [INVALID_VALUE]

/-- At the lowest accepted pressure the temperature is below 0 °C, which `tx` rejects. -/
theorem C25_bottom_mismatch (x x' : ℝ) (hx : x ∈ Icc (0 : ℝ) 1) :
    ∃ t, FnX.px.call 0.000611212677444 x Doc.idT = some t ∧ t < 0 ∧ FnX.tx.call t x' Doc.idP = some (-9999) := by
  refine ⟨_, Sat.px_T le_rfl (by norm_num) hx, ?_⟩
  obtain ⟨T, hT, e⟩ := Sat.exists_T (p := 0.000611212677444) (by norm_num) (by norm_num)
  have hlt : T < 273.15 := by
    by_contra h
    push Not at h
    have := Sat.psat_strictMonoOn.monotoneOn (show (273.15 : ℝ) ∈ Icc (273 : ℝ) 648 by norm_num) hT h
    linarith [Sat.psat_min.1]
  have hT' : T_saturation (0.000611212677444 : ℝ) = T := by
    rw [← e]; exact Sat.T_saturation_psat hT (by rw [e]; norm_num) (by rw [e]; norm_num)
  rw [hT']
  refine ⟨by linarith, ?_⟩
  have hg : ((T - 273.15 + 273.15 >. (T_MAX4 : ℝ)) || (T - 273.15 + 273.15 <. T_MIN4) ||
      (x' >. 1.0) || (x' <. 0.0)) = true := by
    have : (T - 273.15 + 273.15 <. (T_MIN4 : ℝ)) = true := by
      simp [T_MIN4]; exact hlt
    rw [this]; simp
  show (if (_ : Bool) = true then _ else _) = _
  rw [if_pos hg]
  simp [INVALID_VALUE]

/-- A concrete round trip at 100 °C. -/
example : ∃ p, FnX.tx.call 100 0.5 Doc.idP = some p ∧ FnX.px.call p 0.5 Doc.idT = some (100 : ℝ) := by
  obtain ⟨p, hp, _, h⟩ := C25_accepted 100 0.5 (by norm_num) (by norm_num) (by norm_num)
  exact ⟨p, hp, C25_t_p_t 100 0.5 0.5 (by norm_num) (by norm_num) (by norm_num) (by norm_num) p hp h⟩

end If97
