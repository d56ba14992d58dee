import Verif.Lemmas.Detect
import Verif.Lemmas.Iv.R1b
import Verif.Lemmas.Iv.R2Z
import Verif.Lemmas.Iv.R5

/-! Helper lemmas for C47, C48, C49: sign of (∂h/∂p)_T, and the detector for (t,h) in exact arithmetic. -/

namespace If97
open Set Iv

section
variable (x y : ℝ)
theorem l1z_eq : evS l1z (7.1 - x) (y - 1.222) y = G1.gpt x y := by
  simp only [l1z, dX_dY, evS_ng, G1, t1_eq, tab_ij _ _ y noZ_1]
theorem l2z_eq : evS l2z x (y - 0.5) y = -G2.gpt x y := by
  simp only [l2z, dX_dY, evS_ng, G2, idealGibbs, t2_eq, tab_ij _ _ y noZ_2]
theorem l5z_eq : evS l5z x y y = -G5.gpt x y := by
  simp only [l5z, dX_dY, evS_ng, G5, idealGibbs, t5_eq, tab_ij _ _ y noZ_5, sub_zero]
end

/-- steam: enthalpy decreases with pressure -/
theorem InRange.Dhdp_neg {r p T} (h : InRange r p T) (hr : r ≠ 1) : (Gr r).Dhdp p T < 0 := by
  have hR := gasR_pos
  rcases h.gibbs with rfl | rfl | rfl
  · exact absurd rfl hr
  · have key : 0 < evS l2z p (540 / T - 0.5) (540 / T - 0.5 + 0.5) := by
      rcases cover2 h with ⟨B, hB, hm⟩ | ⟨B, hB, hm⟩
      exacts [pos_l2z_2a hB hm, pos_l2z_2b hB hm]
    rw [sub_add_cancel, l2z_eq] at key
    rw [Gr_2]
    simp only [Gibbs.Dhdp, show G2.ps = 1 from rfl, show G2.Ts = 540 from rfl, div_one]
    nlinarith
  · rcases h with h | h | h
    · omega
    · omega
    · obtain ⟨B, hB, hm⟩ := cover5 h.2.2.2.1 h.2.2.2.2 h.2.1.le h.2.2.1
      have e := pos_l5z_5 hB hm
      simp only [sub_zero, add_zero] at e
      rw [l5z_eq] at e
      rw [Gr_5]
      simp only [Gibbs.Dhdp, show G5.ps = 1 from rfl, show G5.Ts = 1000 from rfl, div_one]
      nlinarith

/-- water up to 200 °C: enthalpy increases with pressure -/
theorem InRange.Dhdp_pos {p T} (h : InRange 1 p T) (hT : T ≤ 473.15) : 0 < (Gr 1).Dhdp p T := by
  have hR := gasR_pos
  rcases h with h | h | h
  · obtain ⟨B, hB, hm⟩ := cover1c h.2.2.1 hT h.2.1.le h.2.2.2.2.2
    have e := pos_l1z_1c hB hm
    rw [sub_add_cancel, l1z_eq] at e
    rw [Gr_1]
    simp only [Gibbs.Dhdp, show G1.ps = 16.53 from rfl, show G1.Ts = 1386 from rfl]
    positivity
  all_goals omega

theorem InRange.H_lt_p {r p p' T} (h : InRange r p T) (h' : InRange r p' T) (hr : r ≠ 1) (hlt : p < p') :
    (Gr r).H p' T < (Gr r).H p T := by
  have := strictMono_of_deriv (f := fun p => -(Gr r).H p T) hlt
    (fun x hx => (Gibbs.dH_dp ((h.between_p h' hx.1 hx.2).regular.smooth h.gibbs)).neg)
    fun x hx => by have := (h.between_p h' hx.1 hx.2).Dhdp_neg hr; linarith
  linarith

theorem InRange.H_lt_p1 {r p p' T} (h : InRange r p T) (h' : InRange r p' T) (hr : r = 1) (hT : T ≤ 473.15) (hlt : p < p') :
    (Gr r).H p T < (Gr r).H p' T :=
  strictMono_of_deriv hlt (fun x hx => Gibbs.dH_dp ((h.between_p h' hx.1 hx.2).regular.smooth h.gibbs))
    fun x hx => by
      have k := h.between_p h' hx.1 hx.2
      subst hr
      exact k.Dhdp_pos hT

/-- saturated water from 0 °C has an entropy inside the accepted range of (t,s) -/
theorem S_sat_lower {T : ℝ} (h1 : 273.15 ≤ T) (h2 : T ≤ 623.15) : -0.008583 ≤ (Gr 1).S (Sat.psat T) T := by
  have k : InRange 1 (Sat.psat T) T := inRange1 h1 h2 le_rfl
    (by have := Iv.psat_mono (T := T) (T' := 623.15) (by norm_num at *; linarith) h2 le_rfl
        have := Sat.psat_623.2; norm_num at *; linarith)
  have a : Sat.psat 273.15 ≤ Sat.psat T := Iv.psat_mono (by norm_num) h1 h2
  have b := Sat.psat_min.1
  rcases le_total T 278.15 with h | h
  · have c : Sat.psat T ≤ 0.001 := by
      refine le_trans (Iv.psat_mono (T' := 278.15) (by norm_num at *; linarith) h (by norm_num)) ?_
      refine (lt_trans (Sat.psat_lt (b := 0.175) (by norm_num) ?_ ?_) ?_).le
      · unfold Sat.qA Sat.qB Sat.th; norm_num
      · unfold Sat.Qf Sat.qA Sat.qB Sat.qC Sat.th; norm_num
      · norm_num
    obtain ⟨B, hB, hm⟩ := cover1n h1 h (by norm_num at *; linarith) c
    have e := pos_l1n_1n hB hm
    rw [l1n, evS_cons, cst_ev, sub_add_cancel, l1m_eq _ _ (div_ne_zero (by norm_num) (by norm_num at *; linarith))] at e
    rw [Gr_1, Gibbs.S, show G1.ps = 16.53 from rfl, show G1.Ts = 1386 from rfl]
    generalize 1386 / T * G1.gt (Sat.psat T / 16.53) (1386 / T) - G1.g (Sat.psat T / 16.53) (1386 / T) = z at *
    unfold gasR; norm_num at *; linarith
  · exact (k.S_bounds (by norm_num at *; linarith) (fun _ => h)).1

theorem T2sat_H {T : ℝ} (h1 : 273.15 ≤ T) (h2 : T ≤ 623.15) :
    T2sat_water T OH = pT2h_reg1 (Sat.psat T) T ∧ T2sat_steam T OH = pT2h_reg2 (Sat.psat T) T := by
  have a : (fabs (T - TC_WATER) <. (FLOAT_ERROR : ℝ)) = false := by
    simp only [real_abs, real_lt, TC_WATER, FLOAT_ERROR, decide_eq_false_iff_not, not_lt]
    rw [le_abs]; right; norm_num at *; linarith
  have b : (T <=. (623.15 : ℝ)) = true := by simp only [real_le, decide_eq_true_eq]; exact h2
  unfold T2sat_water T2sat_steam
  simp only [a, b, T1_facts h1 h2, Bool.false_eq_true, if_false, if_true]
  exact ⟨rfl, rfl⟩

/-- the detector for (t,h) up to 350 °C, above the saturated liquid line -/
theorem th_low {t h : ℝ} (h1 : 0 ≤ t) (h2 : t ≤ 350) (hh : T2sat_water (t + 273.15) OH ≤ h) :
    th_sub_region t h = some (
      if t < 250 ∧ T2sat_water (t + 273.15) OH < h ∧ h ≤ pT2h_reg1 100 (t + 273.15) then 1
      else if T2sat_steam (t + 273.15) OH < h ∧ h < pT2h_reg2 1e-8 (t + 273.15) then 2
      else if h ≤ T2sat_steam (t + 273.15) OH then 4 else INVALID_VALUE) := by
  unfold th_sub_region
  have k1 : (273.15 : ℝ) ≤ t + 273.15 := by linarith
  have k2 : t + 273.15 ≤ (623.15 : ℝ) := by norm_num at *; linarith
  have k3 : t < 250 ↔ t + 273.15 < 250 + 273.15 := by constructor <;> intro h <;> linarith
  simp only [k3]
  generalize t + 273.15 = T at *
  have g : (T <. (273.15 : ℝ) || T >. (2273.15 : ℝ)) = false := by
    simp only [real_lt, Bool.or_eq_false_iff, decide_eq_false_iff_not, not_lt]; norm_num at *; constructor <;> linarith
  have a0 : (T >=. (T_MIN2 : ℝ)) = true := by simp only [T_MIN2, real_le, decide_eq_true_eq]; exact k1
  have a1 : (T >=. (T_MIN1 : ℝ)) = true := by simp only [T_MIN1, real_le, decide_eq_true_eq]; exact k1
  have a2 : (T >. (T_MIN5 : ℝ)) = false := by
    simp only [T_MIN5, real_lt, decide_eq_false_iff_not, not_lt]; norm_num at *; linarith
  have a3 : (T <=. (T_MAX1 : ℝ)) = true := by simp only [T_MAX1, real_le, decide_eq_true_eq]; exact k2
  have a4 : (T >. (T_MIN3 : ℝ)) = false := by
    simp only [T_MIN3, real_lt, decide_eq_false_iff_not, not_lt]; exact k2
  have a6 : (T <=. (T_MAX2 : ℝ)) = true := by simp only [T_MAX2, real_le, decide_eq_true_eq]; norm_num at *; linarith
  have a7 : (T >. (T_MAX1 : ℝ)) = false := by
    simp only [T_MAX1, real_lt, decide_eq_false_iff_not, not_lt]; exact k2
  have a8 : (T >. (TC_WATER : ℝ)) = false := by
    simp only [TC_WATER, real_lt, decide_eq_false_iff_not, not_lt]; norm_num at *; linarith
  have a9 : (T <=. (TC_WATER : ℝ)) = true := by
    simp only [TC_WATER, real_le, decide_eq_true_eq]; norm_num at *; linarith
  have b1 : (h <. T2sat_water T OH) = false := by simp only [real_lt, decide_eq_false_iff_not, not_lt]; exact hh
  have b2 : (h >=. T2sat_water T OH) = true := by simp only [real_le, decide_eq_true_eq]; exact hh
  have c1 : (250.0 + T_MIN1 : ℝ) = 250 + 273.15 := by norm_num [T_MIN1]
  have c2 : (1.0e-8 : ℝ) = 1e-8 := by norm_num
  have c3 : (100.0 : ℝ) = 100 := by norm_num
  simp only [g, a0, a1, a2, a3, a4, a6, a7, a8, a9, b1, b2, c1, c2, c3, P_MIN2, if_true, Bool.and_false, Bool.false_and,
    Bool.or_false, Bool.true_and, Bool.false_eq_true, if_false]
  simp only [real_le, real_lt, Bool.and_eq_true, decide_eq_true_eq, and_assoc]
  split_ifs <;> rfl

theorem th_23 {t h : ℝ} (h1 : 623.15 < t + 273.15) (h2 : t + 273.15 ≤ 863.15)
    (h3 : pT2h_reg2 (B23_T2p (t + 273.15)) (t + 273.15) ≤ h) (h4 : h < pT2h_reg2 1e-8 (t + 273.15)) :
    th_sub_region t h = some 2 := by
  unfold th_sub_region
  generalize t + 273.15 = T at *
  have g : (T <. (273.15 : ℝ) || T >. (2273.15 : ℝ)) = false := by
    simp only [real_lt, Bool.or_eq_false_iff, decide_eq_false_iff_not, not_lt]; norm_num at *; constructor <;> linarith
  have a1 : (T >=. (T_MIN2 : ℝ) && T <=. T_MAX2) = true := by
    simp only [T_MIN2, T_MAX2, real_le, Bool.and_eq_true, decide_eq_true_eq]; norm_num at *; constructor <;> linarith
  have a3 : (T <=. (T_MAX1 : ℝ)) = false := by
    simp only [T_MAX1, real_le, decide_eq_false_iff_not, not_le]; exact h1
  have a4 : (T >. (T_MIN3 : ℝ)) = true := by
    simp only [T_MIN3, real_lt, decide_eq_true_eq]; exact h1
  have a5 : (T <=. (T_MAX3 : ℝ)) = true := by
    simp only [T_MAX3, real_le, decide_eq_true_eq]; exact h2
  have a7 : (T >. (T_MAX1 : ℝ)) = true := by
    simp only [T_MAX1, real_lt, decide_eq_true_eq]; exact h1
  have a8 : (T <. (250.0 + T_MIN1 : ℝ)) = false := by
    simp only [T_MIN1, real_lt, decide_eq_false_iff_not, not_lt]; norm_num at *; linarith
  have c : (1.0e-8 : ℝ) = 1e-8 := by norm_num
  by_cases e : (T <=. (TC_WATER : ℝ)) = true
  all_goals
    simp only [g, a1, a3, a4, a5, a7, a8, e, if_true, Bool.and_false, Bool.false_and, Bool.false_or, Bool.true_and, Bool.false_eq_true,
      if_false, P_MIN2, c, Bool.not_eq_true]
    simp only [real_le, real_lt, Bool.and_eq_true, decide_eq_true_eq, h3, h4, and_self, if_true]

theorem th_5 {t h : ℝ} (h1 : 1073.15 < t + 273.15) (h2 : t + 273.15 ≤ 2273.15)
    (h3 : pT2h_reg5 50 (t + 273.15) ≤ h) (h4 : h ≤ pT2h_reg5 0.000611212677444 (t + 273.15)) : th_sub_region t h = some 5 := by
  unfold th_sub_region
  generalize t + 273.15 = T at *
  have g : (T <. (273.15 : ℝ) || T >. (2273.15 : ℝ)) = false := by
    simp only [real_lt, Bool.or_eq_false_iff, decide_eq_false_iff_not, not_lt]; norm_num at *; constructor <;> linarith
  have a1 : (T <=. (T_MAX2 : ℝ)) = false := by
    simp only [T_MAX2, real_le, decide_eq_false_iff_not, not_le]; exact h1
  have a3 : (T <=. (T_MAX1 : ℝ)) = false := by
    simp only [T_MAX1, real_le, decide_eq_false_iff_not, not_le]; norm_num at *; linarith
  have a5 : (T <=. (T_MAX3 : ℝ)) = false := by
    simp only [T_MAX3, real_le, decide_eq_false_iff_not, not_le]; norm_num at *; linarith
  have a6 : (T <=. (TC_WATER : ℝ)) = false := by
    simp only [TC_WATER, real_le, decide_eq_false_iff_not, not_le]; norm_num at *; linarith
  have a7 : (T >. (T_MIN5 : ℝ) && T <=. T_MAX5) = true := by
    simp only [T_MIN5, T_MAX5, real_lt, real_le, Bool.and_eq_true, decide_eq_true_eq]; exact ⟨h1, h2⟩
  have a8 : (T <. (250.0 + T_MIN1 : ℝ)) = false := by
    simp only [T_MIN1, real_lt, decide_eq_false_iff_not, not_lt]; norm_num at *; linarith
  have c : (P_MAX5 : ℝ) = 50 := by norm_num [P_MAX5]
  simp only [g, a1, a3, a5, a6, a7, a8, if_true, Bool.and_false, Bool.false_and, Bool.or_self, Bool.true_and, Bool.false_eq_true,
      if_false, P_MIN5, c]
  simp only [real_le, real_lt, Bool.and_eq_true, decide_eq_true_eq, h3, h4, and_self, if_true]

end If97
