import Verif.Lemmas.DomainSat

/-!
# C05 The (p, t) region map

Exact arithmetic, through the API (`pt(p, t, OR)`), against the region map of `Spec/Domain.lean`.
The one place where the code departs from the map is p = 0.000611212677444 MPa exactly, with
t ≤ 350 °C below the saturation pressure: `C05_gap`.
-/

namespace If97
open Set Domain

/-- the call is the region function followed by a conversion to a number -/
private theorem call_eq (p t : ℝ) :
    Fn.pt.call0 p t Doc.idR = some ((pT_sub_region p (t + 273.15) : Int) : ℝ) := rfl

private theorem B23_eq (T : ℝ) : B23_T2p T = pB23 T := by
  simp only [B23_T2p, nthF, B23_T2p_n23, List.getD_cons_succ, List.getD_cons_zero, pB23]; norm_num; ring

private theorem psat_code {T : ℝ} (h1 : 273.15 ≤ T) (h2 : T ≤ 647.096) : p_saturation T = Sat.psat T := by
  rw [Sat.p_saturation_eq, if_neg]; push Not; exact ⟨h1, h2⟩

/-- the gap -/
def Gap (p T : ℝ) : Prop := p = pMin ∧ T ≤ 623.15 ∧ ¬ NearSat p T ∧ ∃ ps, IsSat ps T ∧ p < ps

private theorem getD_ite {α : Type} (c : Prop) [Decidable c] (a d : α) :
    Option.getD (if c then some a else none) d = if c then a else d := by split <;> rfl

open Classical in
private theorem form (p T : ℝ) (hp : PressureOk p T) (ht : TemperatureOk T) :
    pT_sub_region p T =
      if NearSat p T then 4
      else if T = 647.096 ∧ p = 22.064 then 3
      else if T ≤ 623.15 then
        if Sat.psat T ≤ p then 1 else if p ≠ pMin then 2 else -9999
      else if T ≤ 863.15 then if p ≤ pB23 T then 2 else 3
      else if T ≤ 1073.15 then 2 else 5 := by
  obtain ⟨h1, h2, h3⟩ := hp
  obtain ⟨t1, t2⟩ := ht
  unfold pMin at h1
  have hn := nearSat_iff (p := p) t1
  unfold pT_sub_region
  simp only [real_lt, real_le, real_eq, P_MIN, pT_sub_region_psatTol, TC_WATER, PC_WATER, B23_eq,
    real_abs]
  have hm : p ≠ pMin ↔ (0.000611212677444 : ℝ) < p := by
    unfold pMin; constructor
    · intro h; exact lt_of_le_of_ne h1 (Ne.symm h)
    · intro h; exact ne_of_gt h
  have h3' : ¬ (T > 1073.15 ∧ p > 50) := by rintro ⟨a, b⟩; linarith [h3 a]
  rw [if_neg (by simp; exact ⟨h1, by norm_num at h2 ⊢; exact h2⟩), if_neg (by simp; exact ⟨t1, t2⟩),
    if_neg (by simp; intro a b; have := h3 (by norm_num at *; exact a); norm_num at *; exact this)]
  simp only [t1, t2, h1, decide_true, Bool.true_and, decide_eq_true_eq, Bool.and_eq_true,
    and_true]
  by_cases hN : NearSat p T
  · have hN' := hn.mp hN
    rw [if_pos hN, if_pos hN'.1, psat_code t1 hN'.1.le, if_pos (by norm_num at *; exact hN'.2)]
    rfl
  · rw [if_neg hN]
    have e : ∀ d : Int, (if T < 647.096 then if |p - p_saturation T| / p_saturation T < 1.0e-6 then some (4 : Int) else none
      else none).getD d = d := by
      intro d
      by_cases hT : T < 647.096
      · rw [if_pos hT, psat_code t1 hT.le, if_neg]
        · rfl
        · intro h; exact hN (hn.mpr ⟨hT, by norm_num at *; exact h⟩)
      · rw [if_neg hT]; rfl
    rw [e]
    congr 1
    by_cases a1 : T ≤ 623.15
    · have hp100 : p ≤ 100.0 := by norm_num; exact h2
      simp only [if_pos a1, hm, psat_code t1 (show T ≤ 647.096 by norm_num at *; linarith)]
      by_cases a : Sat.psat T ≤ p
      · simp [a, hp100]
      · simp only [not_le] at a
        simp only [hp100, and_true, if_neg (not_le.mpr a), a, true_and]
        by_cases b : (0.000611212677444 : ℝ) < p
        · simp [b]
        · simp only [b, if_false]
          have c1 : ¬ (623.15 : ℝ) < T := by linarith
          have c2 : ¬ (863.15 : ℝ) < T := by norm_num at *; linarith
          have c3 : ¬ (1073.15 : ℝ) < T := by norm_num at *; linarith
          simp [c1, c2, c3, INVALID_VALUE]
    · have c1 : (623.15 : ℝ) < T := by linarith
      simp only [if_neg a1, c1, true_and]
      by_cases a2 : T ≤ 863.15
      · simp only [if_pos a2]
        by_cases b : p ≤ pB23 T
        · simp [b]
        · simp [b, not_le.mp b, show p ≤ 100.0 by norm_num; exact h2]
      · simp only [if_neg a2]
        by_cases a3 : T ≤ 1073.15
        · simp [a3, not_le.mp a2, show p ≤ 100.0 by norm_num; exact h2]
        · simp [a3, not_le.mp a3, show p ≤ 50.0 by norm_num; exact h3 (not_le.mp a3)]

private theorem crit_B23 : pB23 647.096 < 22.064 := by unfold pB23; norm_num

private theorem not_near_of_gt {p T : ℝ} (h : 647.096 ≤ T) : ¬ NearSat p T := fun hn => absurd hn.1 (not_lt.mpr h)

private theorem code_spec (p T : ℝ) (hp : PressureOk p T) (ht : TemperatureOk T) (hg : ¬ Gap p T) :
    Region p T (pT_sub_region p T) := by
  rw [form p T hp ht]
  split_ifs with h1 h2 h3 h4 h5 h6 h7 h8
  · exact .r4 h1
  · obtain ⟨rfl, rfl⟩ := h2
    exact .r3 (by norm_num) (by norm_num) crit_B23 h1
  · exact .r1 h3 (isSat_psat ⟨ht.1, by norm_num at *; linarith⟩) h4 h1
  · exact .r2_below_sat h3 (isSat_psat ⟨ht.1, by norm_num at *; linarith⟩) (not_le.mp h4) h1
  · exfalso
    apply hg
    refine ⟨not_not.mp h5, h3, h1, _, isSat_psat ⟨ht.1, by norm_num at *; linarith⟩, not_le.mp h4⟩
  · exact .r2_below_B23 (not_le.mp h3) h6 h7 h1
  · exact .r3 (not_le.mp h3) h6 (not_le.mp h7) h1
  · exact .r2_hot (not_le.mp h6) h8
  · exact .r5 (not_le.mp h8)

private theorem code_gap (p T : ℝ) (hp : PressureOk p T) (ht : TemperatureOk T) (hg : Gap p T) :
    pT_sub_region p T = -9999 := by
  obtain ⟨h1, h2, h3, ps, h4, h5⟩ := hg
  have h6 := h4.eq ⟨ht.1, by norm_num at *; linarith⟩
  rw [form p T hp ht, if_neg h3, if_neg (by rintro ⟨rfl, -⟩; norm_num at h2), if_pos h2,
    if_neg (by rw [← h6]; exact not_le.mpr h5), if_neg (by simpa using h1)]

/-- The regions of the map are disjoint. -/
private theorem region_unique {p T : ℝ} {j k : Int} (ht : TemperatureOk T)
    (h : Region p T j) (h' : Region p T k) : j = k := by
  obtain ⟨t1, t2⟩ := ht
  have us : ∀ {a b : ℝ}, T ≤ 623.15 → IsSat a T → IsSat b T → a = b := fun h ha hb =>
    (ha.eq ⟨t1, by norm_num at *; linarith⟩).trans (hb.eq ⟨t1, by norm_num at *; linarith⟩).symm
  have excl : ∀ {a b : ℝ}, a ≤ p → p < b → T ≤ 623.15 → IsSat a T → IsSat b T → False := fun h1 h2 h ha hb => by
    have := us h ha hb; linarith
  cases h <;> cases h' <;> first
    | rfl
    | contradiction
    | (exfalso; exact excl ‹_› ‹_› ‹_› ‹_› ‹_›)
    | (rename_i ps hs h1 _ ps' _ hs' h2 _; exact (excl h1 h2 ‹_› hs hs').elim)
    | (rename_i ps hs h1 _ ps' _ hs' h2 _; exact (excl h2 h1 ‹_› hs' hs).elim)
    | (exfalso; norm_num at *; linarith)
    | (exfalso; have hN : NearSat p T := by assumption
       have := hN.1; norm_num at *; linarith)

/-- **C05.**  Inside the limits and outside the gap, the region returned for (p, t) is the region of
the map, and it is the only one. -/
theorem C05_map_partial (p t : ℝ) (hp : PressureOk p (t + 273.15)) (ht : TemperatureOk (t + 273.15))
    (hg : ¬ Gap p (t + 273.15)) (k : Int) :
    Fn.pt.call0 p t Doc.idR = some (k : ℝ) ↔ Region p (t + 273.15) k := by
  rw [call_eq]
  have := code_spec p _ hp ht hg
  constructor
  · intro h
    rw [Option.some_inj, Int.cast_inj] at h
    rwa [← h]
  · intro h
    rw [region_unique ht h this]

/-- The map is total: every state inside the limits, other than the gap, has a region. -/
theorem C05_total (p T : ℝ) (hp : PressureOk p T) (ht : TemperatureOk T) : ∃ k, Region p T k := by
  by_cases hg : Gap p T
  · obtain ⟨h1, h2, h3, ps, h4, h5⟩ := hg
    exact ⟨2, .r2_below_sat h2 h4 h5 h3⟩
  · exact ⟨_, code_spec p T hp ht hg⟩

/-- The gap: the state is in region 2, the code answers −9999. -/
theorem C05_gap (p t : ℝ) (hp : PressureOk p (t + 273.15)) (ht : TemperatureOk (t + 273.15))
    (hg : Gap p (t + 273.15)) :
    Fn.pt.call0 p t Doc.idR = some (-9999) ∧ Region p (t + 273.15) 2 := by
  refine ⟨?_, .r2_below_sat hg.2.1 hg.2.2.2.choose_spec.1 hg.2.2.2.choose_spec.2 hg.2.2.1⟩
  rw [call_eq, code_gap p _ hp ht hg]; norm_num

/-- Outside the pressure limits the answer is −2100. -/
theorem C05_bad_pressure (p t : ℝ) (h : p < pMin ∨ 100 < p) :
    Fn.pt.call0 p t Doc.idR = some (-2100) := by
  rw [call_eq]
  have : pT_sub_region p (t + 273.15) = -2100 := by
    unfold pT_sub_region
    rw [if_pos (by simp [P_MIN]; unfold pMin at h; norm_num at *; exact h)]; rfl
  rw [this]; norm_num

/-- Inside them, with a temperature outside its limits, −2101. -/
theorem C05_bad_temperature (p t : ℝ) (h : pMin ≤ p ∧ p ≤ 100) (ht : ¬ TemperatureOk (t + 273.15)) :
    Fn.pt.call0 p t Doc.idR = some (-2101) := by
  rw [call_eq]
  have : pT_sub_region p (t + 273.15) = -2101 := by
    unfold pT_sub_region
    unfold TemperatureOk at ht
    rw [if_neg (by simp [P_MIN]; unfold pMin at h; norm_num at *; exact h), if_pos]; rfl
    simp only [real_lt, Bool.or_eq_true, decide_eq_true_eq]
    by_contra hc; push Not at hc; exact ht hc
  rw [this]; norm_num

/-- Above 800 °C with a pressure above 50 MPa, −2100. -/
theorem C05_bad_pressure_hot (p t : ℝ) (h : 50 < p ∧ p ≤ 100) (ht : 1073.15 < t + 273.15) (ht' : t + 273.15 ≤ 2273.15) :
    Fn.pt.call0 p t Doc.idR = some (-2100) := by
  rw [call_eq]
  have : pT_sub_region p (t + 273.15) = -2100 := by
    unfold pT_sub_region
    rw [if_neg, if_neg, if_pos]; rfl
    · simp only [real_lt, real_le, Bool.and_eq_true, decide_eq_true_eq]
      exact ⟨⟨ht, ht'⟩, by norm_num; exact h.1⟩
    · simp only [real_lt, Bool.or_eq_true, decide_eq_true_eq]
      push Not; exact ⟨by norm_num at *; linarith, ht'⟩
    · simp only [real_lt, Bool.or_eq_true, decide_eq_true_eq, P_MIN]
      push Not; exact ⟨by norm_num at *; linarith, by norm_num; exact h.2⟩
  rw [this]; norm_num

/-! Concrete cases: 1 MPa and 20 °C satisfies the hypotheses; and the gap is not empty: it contains
p = 0.000611212677444 MPa, t = 100 °C. -/

example : PressureOk 1 (20 + 273.15) ∧ TemperatureOk (20 + 273.15) ∧ ¬ Gap 1 (20 + 273.15) := by
  refine ⟨⟨by unfold pMin; norm_num, by norm_num, by norm_num⟩, ⟨by norm_num, by norm_num⟩, ?_⟩
  rintro ⟨h, -⟩; unfold pMin at h; norm_num at h

theorem C05_gap_inhabited : ∃ p t : ℝ, PressureOk p (t + 273.15) ∧ TemperatureOk (t + 273.15) ∧ Gap p (t + 273.15) := by
  have hlt : 0.0007 < Sat.psat (100 + 273.15) := by
    refine lt_trans ?_ (Sat.lt_psat (b := 0.2) (by norm_num) ?_ (by norm_num) ?_)
    · norm_num
    · unfold Sat.qA Sat.qB Sat.th; norm_num
    · unfold Sat.Qf Sat.qA Sat.qB Sat.qC Sat.th; norm_num
  have hm : (100 + 273.15 : ℝ) ∈ Icc (273.15 : ℝ) 647.096 := by norm_num
  refine ⟨pMin, 100, ⟨le_rfl, by unfold pMin; norm_num, by norm_num⟩, ⟨by norm_num, by norm_num⟩, rfl, by norm_num, ?_,
    _, isSat_psat hm, by unfold pMin; linarith⟩
  rw [nearSat_iff (by norm_num)]
  rintro ⟨-, h⟩
  rw [div_lt_iff₀ (Sat.psat_pos _), abs_lt] at h
  unfold pMin at h
  norm_num at *
  linarith

end If97
