import Verif.Lemmas.Order
import Verif.Lemmas.Iv.R5
import Verif.Lemmas.Iv.R2a
import Verif.Lemmas.Iv.R1b

/-! Helper lemmas for C29, C47, C48: the region detectors for (p,h), (p,s), (p,v), (t,v), (t,s) in exact
arithmetic, in terms of the Gibbs functions. -/

namespace If97
open Set

section
variable {p T : ℝ}
theorem v1_eq (h : Regular 1 p T) : pT2v_reg1 p T = G1.V p T := by
  have := val_V (t := T - 273.15) (.inl rfl) (by rwa [sub_add_cancel])
  rw [sub_add_cancel] at this; rw [← Gr_1, ← this]
  show _ = pT2v_reg1 p (T - 273.15 + 273.15); rw [sub_add_cancel]
theorem h1_eq (h : Regular 1 p T) : pT2h_reg1 p T = G1.H p T := by
  have := val_H (t := T - 273.15) (.inl rfl) (by rwa [sub_add_cancel])
  rw [sub_add_cancel] at this; rw [← Gr_1, ← this]
  show _ = pT2h_reg1 p (T - 273.15 + 273.15); rw [sub_add_cancel]
theorem s1_eq (h : Regular 1 p T) : pT2s_reg1 p T = G1.S p T := by
  have := val_S (t := T - 273.15) (.inl rfl) (by rwa [sub_add_cancel])
  rw [sub_add_cancel] at this; rw [← Gr_1, ← this]
  show _ = pT2s_reg1 p (T - 273.15 + 273.15); rw [sub_add_cancel]
theorem v2_eq (h : Regular 2 p T) : pT2v_reg2 p T = G2.V p T := by
  have := val_V (t := T - 273.15) (.inr (.inl rfl)) (by rwa [sub_add_cancel])
  rw [sub_add_cancel] at this; rw [← Gr_2, ← this]
  show _ = pT2v_reg2 p (T - 273.15 + 273.15); rw [sub_add_cancel]
theorem h2_eq (h : Regular 2 p T) : pT2h_reg2 p T = G2.H p T := by
  have := val_H (t := T - 273.15) (.inr (.inl rfl)) (by rwa [sub_add_cancel])
  rw [sub_add_cancel] at this; rw [← Gr_2, ← this]
  show _ = pT2h_reg2 p (T - 273.15 + 273.15); rw [sub_add_cancel]
theorem s2_eq (h : Regular 2 p T) : pT2s_reg2 p T = G2.S p T := by
  have := val_S (t := T - 273.15) (.inr (.inl rfl)) (by rwa [sub_add_cancel])
  rw [sub_add_cancel] at this; rw [← Gr_2, ← this]
  show _ = pT2s_reg2 p (T - 273.15 + 273.15); rw [sub_add_cancel]
theorem v5_eq (h : Regular 5 p T) : pT2v_reg5 p T = G5.V p T := by
  have := val_V (t := T - 273.15) (.inr (.inr rfl)) (by rwa [sub_add_cancel])
  rw [sub_add_cancel] at this; rw [← Gr_5, ← this]
  show _ = pT2v_reg5 p (T - 273.15 + 273.15); rw [sub_add_cancel]
theorem h5_eq (h : Regular 5 p T) : pT2h_reg5 p T = G5.H p T := by
  have := val_H (t := T - 273.15) (.inr (.inr rfl)) (by rwa [sub_add_cancel])
  rw [sub_add_cancel] at this; rw [← Gr_5, ← this]
  show _ = pT2h_reg5 p (T - 273.15 + 273.15); rw [sub_add_cancel]
theorem s5_eq (h : Regular 5 p T) : pT2s_reg5 p T = G5.S p T := by
  have := val_S (t := T - 273.15) (.inr (.inr rfl)) (by rwa [sub_add_cancel])
  rw [sub_add_cancel] at this; rw [← Gr_5, ← this]
  show _ = pT2s_reg5 p (T - 273.15 + 273.15); rw [sub_add_cancel]
end

/-! the decision structure of the detectors -/

theorem ph_low {p h : ℝ} (h1 : 0.000611212677444 ≤ p) (h2 : p ≤ 16.5291642526045) :
    ph_sub_region p h =
      if pT2h_reg1 p 273.15 ≤ h ∧ h ≤ pT2h_reg1 p (T_saturation p) then 1
      else if pT2h_reg1 p (T_saturation p) < h ∧ h < pT2h_reg2 p (T_saturation p) then 4
      else if pT2h_reg2 p (T_saturation p) ≤ h ∧ h ≤ pT2h_reg2 p 1073.15 then 2
      else if pT2h_reg2 p 1073.15 < h ∧ h ≤ pT2h_reg5 p 2273.15 then 5 else INVALID_VALUE := by
  unfold ph_sub_region
  have a : ((P_MIN : ℝ) <=. p && p <=. Ps_623) = true := by
    simp only [P_MIN, Ps_623, real_le, Bool.and_eq_true, decide_eq_true_eq]; exact ⟨h1, h2⟩
  have b : ((Ps_623 : ℝ) <. p && p <. PC_WATER) = false := by
    simp only [Ps_623, real_lt, Bool.and_eq_false_iff, decide_eq_false_iff_not]; left; exact not_lt.2 h2
  have c : ((PC_WATER : ℝ) <=. p && p <=. 100.0) = false := by
    simp only [PC_WATER, real_le, Bool.and_eq_false_iff, decide_eq_false_iff_not]; left
    norm_num at *; linarith
  rw [a, b, c]
  simp only [real_le, real_lt, Bool.and_eq_true, decide_eq_true_eq, if_true, Bool.false_eq_true, if_false, Option.getD_none]
  split_ifs <;> rfl

theorem ps_low {p s : ℝ} (h1 : 0.000611212677444 ≤ p) (h2 : p ≤ 16.5291642526045) :
    ps_sub_region p s =
      if pT2s_reg1 p 273.15 ≤ s ∧ s ≤ pT2s_reg1 p (T_saturation p) then 1
      else if pT2s_reg1 p (T_saturation p) < s ∧ s < pT2s_reg2 p (T_saturation p) then 4
      else if pT2s_reg2 p (T_saturation p) ≤ s ∧ s ≤ pT2s_reg2 p 1073.15 then 2
      else if pT2s_reg2 p 1073.15 < s ∧ s ≤ pT2s_reg5 p 2273.15 then 5 else INVALID_VALUE := by
  unfold ps_sub_region
  have a : ((P_MIN : ℝ) <=. p && p <=. Ps_623) = true := by
    simp only [P_MIN, Ps_623, real_le, Bool.and_eq_true, decide_eq_true_eq]; exact ⟨h1, h2⟩
  have b : ((Ps_623 : ℝ) <. p && p <. PC_WATER) = false := by
    simp only [Ps_623, real_lt, Bool.and_eq_false_iff, decide_eq_false_iff_not]; left; exact not_lt.2 h2
  have c : ((PC_WATER : ℝ) <=. p && p <=. 100.0) = false := by
    simp only [PC_WATER, real_le, Bool.and_eq_false_iff, decide_eq_false_iff_not]; left
    norm_num at *; linarith
  rw [a, b, c]
  simp only [real_le, real_lt, Bool.and_eq_true, decide_eq_true_eq, if_true, Bool.false_eq_true, if_false, Option.getD_none]
  split_ifs <;> rfl

/-- above the 350 °C saturation pressure: `p34` is the region 3 saturation boundary in (p,h) -/
theorem ph_high {p h : ℝ} (h1 : 16.5291642526045 < p) (h2 : p ≤ 100)
    (hle : pT2h_reg2 p (B23_p2T p) ≤ pT2h_reg2 p 1073.15) :
    ph_sub_region p h =
      if pT2h_reg1 p 273.15 ≤ h ∧ h ≤ pT2h_reg1 p 623.15 then 1
      else if pT2h_reg1 p 623.15 < h ∧ h < pT2h_reg2 p (B23_p2T p) then (if p < 22.064 ∧ p < h2p_sat_reg3 h then 4 else 3)
      else if pT2h_reg2 p (B23_p2T p) ≤ h ∧ h ≤ pT2h_reg2 p 1073.15 then 2
      else if p ≤ 50 ∧ pT2h_reg2 p 1073.15 < h ∧ h ≤ pT2h_reg5 p 2273.15 then 5
      else INVALID_VALUE := by
  unfold ph_sub_region
  have a : ((P_MIN : ℝ) <=. p && p <=. Ps_623) = false := by
    simp only [P_MIN, Ps_623, real_le, Bool.and_eq_false_iff, decide_eq_false_iff_not]; right; exact not_le.2 h1
  rw [a]
  rcases lt_or_ge p 22.064 with hp | hp
  · have b : ((Ps_623 : ℝ) <. p && p <. PC_WATER) = true := by
      simp only [Ps_623, PC_WATER, real_lt, Bool.and_eq_true, decide_eq_true_eq]; exact ⟨h1, hp⟩
    have c : ((PC_WATER : ℝ) <=. p && p <=. 100.0) = false := by
      simp only [PC_WATER, real_le, Bool.and_eq_false_iff, decide_eq_false_iff_not]; left; exact not_le.2 hp
    have d : p ≤ 50 := by norm_num at *; linarith
    rw [b, c]
    simp only [real_le, real_lt, Bool.and_eq_true, decide_eq_true_eq, if_true, Bool.false_eq_true, if_false, Option.getD_none,
      hp, d, true_and]
    split_ifs <;> rfl
  · have b : ((Ps_623 : ℝ) <. p && p <. PC_WATER) = false := by
      simp only [PC_WATER, real_lt, Bool.and_eq_false_iff, decide_eq_false_iff_not]; right; exact not_lt.2 hp
    have c : ((PC_WATER : ℝ) <=. p && p <=. 100.0) = true := by
      simp only [PC_WATER, real_le, Bool.and_eq_true, decide_eq_true_eq]; norm_num at *; exact ⟨hp, h2⟩
    rw [b, c]
    simp only [real_le, real_lt, Bool.and_eq_true, decide_eq_true_eq, if_true, Bool.false_eq_true, if_false, Option.getD_none,
      not_lt.2 hp, false_and, show (50.0 : ℝ) = 50 by norm_num, and_assoc]
    by_cases e : h = pT2h_reg2 p 1073.15
    · rw [e]; simp only [hle, le_refl, and_self, if_true]
    · have : pT2h_reg2 p 1073.15 ≤ h ↔ pT2h_reg2 p 1073.15 < h := ⟨fun h => lt_of_le_of_ne h (Ne.symm e), le_of_lt⟩
      simp only [this]

/-- above the 350 °C saturation pressure: `p34` is the region 3 saturation boundary in (p,s) -/
theorem ps_high {p s : ℝ} (h1 : 16.5291642526045 < p) (h2 : p ≤ 100)
    (hle : pT2s_reg2 p (B23_p2T p) ≤ pT2s_reg2 p 1073.15) :
    ps_sub_region p s =
      if pT2s_reg1 p 273.15 ≤ s ∧ s ≤ pT2s_reg1 p 623.15 then 1
      else if pT2s_reg1 p 623.15 < s ∧ s < pT2s_reg2 p (B23_p2T p) then (if p < 22.064 ∧ p < s2p_sat_reg3 s then 4 else 3)
      else if pT2s_reg2 p (B23_p2T p) ≤ s ∧ s ≤ pT2s_reg2 p 1073.15 then 2
      else if p ≤ 50 ∧ pT2s_reg2 p 1073.15 < s ∧ s ≤ pT2s_reg5 p 2273.15 then 5
      else INVALID_VALUE := by
  unfold ps_sub_region
  have a : ((P_MIN : ℝ) <=. p && p <=. Ps_623) = false := by
    simp only [P_MIN, Ps_623, real_le, Bool.and_eq_false_iff, decide_eq_false_iff_not]; right; exact not_le.2 h1
  rw [a]
  rcases lt_or_ge p 22.064 with hp | hp
  · have b : ((Ps_623 : ℝ) <. p && p <. PC_WATER) = true := by
      simp only [Ps_623, PC_WATER, real_lt, Bool.and_eq_true, decide_eq_true_eq]; exact ⟨h1, hp⟩
    have c : ((PC_WATER : ℝ) <=. p && p <=. 100.0) = false := by
      simp only [PC_WATER, real_le, Bool.and_eq_false_iff, decide_eq_false_iff_not]; left; exact not_le.2 hp
    have d : p ≤ 50 := by norm_num at *; linarith
    rw [b, c]
    simp only [real_le, real_lt, Bool.and_eq_true, decide_eq_true_eq, if_true, Bool.false_eq_true, if_false, Option.getD_none,
      hp, d, true_and]
    split_ifs <;> rfl
  · have b : ((Ps_623 : ℝ) <. p && p <. PC_WATER) = false := by
      simp only [PC_WATER, real_lt, Bool.and_eq_false_iff, decide_eq_false_iff_not]; right; exact not_lt.2 hp
    have c : ((PC_WATER : ℝ) <=. p && p <=. 100.0) = true := by
      simp only [PC_WATER, real_le, Bool.and_eq_true, decide_eq_true_eq]; norm_num at *; exact ⟨hp, h2⟩
    rw [b, c]
    simp only [real_le, real_lt, Bool.and_eq_true, decide_eq_true_eq, if_true, Bool.false_eq_true, if_false, Option.getD_none,
      not_lt.2 hp, false_and, show (50.0 : ℝ) = 50 by norm_num, and_assoc]
    by_cases e : s = pT2s_reg2 p 1073.15
    · rw [e]; simp only [hle, le_refl, and_self, if_true]
    · have : pT2s_reg2 p 1073.15 ≤ s ↔ pT2s_reg2 p 1073.15 < s := ⟨fun h => lt_of_le_of_ne h (Ne.symm e), le_of_lt⟩
      simp only [this]

theorem pv_low {p v : ℝ} (h1 : 0.000611213 < p) (h2 : p ≤ 16.5291643) :
    pv_sub_region p v =
      if pT2v_reg1 p 273.15 ≤ v ∧ v ≤ pT2v_reg1 p (T_saturation p) then 1
      else if pT2v_reg2 p (T_saturation p) < v ∧ v ≤ pT2v_reg2 p 1073.15 then 2
      else if pT2v_reg1 p (T_saturation p) ≤ v ∧ v ≤ pT2v_reg2 p (T_saturation p) then 4
      else if pT2v_reg2 p 1073.15 < v ∧ v ≤ pT2v_reg5 p 2273.15 then 5 else INVALID_VALUE := by
  unfold pv_sub_region
  have g : (p <. P_MIN2 || p >. (P_MAX2 : ℝ)) = false := by
    simp only [P_MIN2, P_MAX2, real_lt, Bool.or_eq_false_iff, decide_eq_false_iff_not, not_lt]
    norm_num at *; constructor <;> linarith
  have a1 : (p >. (0.000611213 : ℝ) && p <=. P_MIN3) = true := by
    simp only [P_MIN3, real_le, real_lt, Bool.and_eq_true, decide_eq_true_eq]; exact ⟨h1, h2⟩
  have a2 : (p >=. (P_MIN5 : ℝ) && p <=. P_MAX5) = true := by
    simp only [P_MIN5, P_MAX5, real_le, Bool.and_eq_true, decide_eq_true_eq]; norm_num at *; constructor <;> linarith
  have a3 : (p >=. (P_MIN1 : ℝ) && p <=. P_MIN3) = true := by
    simp only [P_MIN1, P_MIN3, real_le, Bool.and_eq_true, decide_eq_true_eq]; norm_num at *; constructor <;> linarith
  have a4 : (p >. (P_MIN3 : ℝ)) = false := by
    simp only [P_MIN3, real_lt, decide_eq_false_iff_not, not_lt]; exact h2
  have a5 : (p >=. (P_MIN2 : ℝ) && p <=. P_MIN3) = true := by
    simp only [P_MIN2, P_MIN3, real_le, Bool.and_eq_true, decide_eq_true_eq]; norm_num at *; constructor <;> linarith
  have a6 : (p >. (PC_WATER : ℝ)) = false := by
    simp only [PC_WATER, real_lt, decide_eq_false_iff_not, not_lt]; norm_num at *; linarith
  have a7 : (p >. (P_MIN : ℝ) && p <=. PC_WATER) = true := by
    simp only [P_MIN, PC_WATER, real_le, real_lt, Bool.and_eq_true, decide_eq_true_eq]; norm_num at *; constructor <;> linarith
  have a8 : (p >. (P_MIN5 : ℝ) && p <=. P_MAX5) = true := by
    simp only [P_MIN5, P_MAX5, real_le, real_lt, Bool.and_eq_true, decide_eq_true_eq]; norm_num at *; constructor <;> linarith
  simp only [g, a1, a2, a3, a4, a5, a6, a7, a8, if_true, Bool.false_and, Bool.or_false, Bool.true_and, Bool.false_eq_true,
    if_false]
  simp only [real_le, real_lt, Bool.and_eq_true, decide_eq_true_eq]

theorem T1_facts {T : ℝ} (h1 : 273.15 ≤ T) (h2 : T ≤ 623.15) : p_saturation T = Sat.psat T := by
  rw [Sat.p_saturation_eq, if_neg]; push Not; norm_num at *; constructor <;> linarith

theorem tv_low {t v : ℝ} (h1 : 0 ≤ t) (h2 : t ≤ 350) :
    tv_sub_region t v =
      if v < T2sat_water (t + 273.15) OV ∧ pT2v_reg1 100 (t + 273.15) < v then 1
      else if T2sat_steam (t + 273.15) OV < v ∧ v < pT2v_reg2 1e-8 (t + 273.15) then 2
      else if T2sat_water (t + 273.15) OV ≤ v ∧ v ≤ T2sat_steam (t + 273.15) OV then 4 else INVALID_VALUE := by
  unfold tv_sub_region
  have k1 : (273.15 : ℝ) ≤ t + 273.15 := by linarith
  have k2 : t + 273.15 ≤ (623.15 : ℝ) := by norm_num at *; linarith
  generalize t + 273.15 = T at *
  have g : (T <. (273.15 : ℝ) || T >. (2273.15 : ℝ)) = false := by
    simp only [real_lt, Bool.or_eq_false_iff, decide_eq_false_iff_not, not_lt]; norm_num at *; constructor <;> linarith
  have a1 : (T >=. (T_MIN2 : ℝ) && T <=. T_MAX2) = true := by
    simp only [T_MIN2, T_MAX2, real_le, Bool.and_eq_true, decide_eq_true_eq]; norm_num at *; constructor <;> linarith
  have a2 : (T >=. (T_MIN5 : ℝ) && T <=. T_MAX5) = false := by
    simp only [T_MIN5, T_MAX5, real_le, Bool.and_eq_false_iff, decide_eq_false_iff_not]; left; norm_num at *; linarith
  have a3 : (T >=. (T_MIN1 : ℝ) && T <=. T_MAX1) = true := by
    simp only [T_MIN1, T_MAX1, real_le, Bool.and_eq_true, decide_eq_true_eq]; exact ⟨k1, k2⟩
  have a4 : (T >. (T_MIN3 : ℝ)) = false := by
    simp only [T_MIN3, real_lt, decide_eq_false_iff_not, not_lt]; exact k2
  have a5 : (T >. (T_MAX3 : ℝ)) = false := by
    simp only [T_MAX3, real_lt, decide_eq_false_iff_not, not_lt]; norm_num at *; linarith
  have a6 : (T >=. (T_MIN2 : ℝ) && T <=. T_MAX1) = true := by
    simp only [T_MIN2, T_MAX1, real_le, Bool.and_eq_true, decide_eq_true_eq]; exact ⟨k1, k2⟩
  have a7 : (T >. (T_MAX1 : ℝ)) = false := by
    simp only [T_MAX1, real_lt, decide_eq_false_iff_not, not_lt]; exact k2
  have a8 : (T >. (TC_WATER : ℝ)) = false := by
    simp only [TC_WATER, real_lt, decide_eq_false_iff_not, not_lt]; norm_num at *; linarith
  have a9 : (T >=. (T_MIN1 : ℝ) && T <=. TC_WATER) = true := by
    simp only [T_MIN1, TC_WATER, real_le, Bool.and_eq_true, decide_eq_true_eq]; norm_num at *; constructor <;> linarith
  have a10 : (T >. (T_MIN5 : ℝ)) = false := by
    simp only [T_MIN5, real_lt, decide_eq_false_iff_not, not_lt]; norm_num at *; linarith
  simp only [g, a1, a2, a3, a4, a5, a6, a7, a8, a9, a10, if_true, Bool.false_and, Bool.or_false, Bool.true_and,
    Bool.false_eq_true, if_false]
  simp only [real_le, real_lt, Bool.and_eq_true, decide_eq_true_eq, P_MIN2, show (100.0 : ℝ) = 100 by norm_num,
    show (1.0e-8 : ℝ) = 1e-8 by norm_num]

theorem ts_low {t s : ℝ} (h1 : 0 ≤ t) (h2 : t ≤ 350) (hs1 : -0.008583 ≤ s) (hs2 : s ≤ 18.992) :
    ts_sub_region t s =
      if s < pT2s_reg1 (Sat.psat (t + 273.15)) (t + 273.15) ∧ pT2s_reg1 100 (t + 273.15) < s then 1
      else if pT2s_reg2 (Sat.psat (t + 273.15)) (t + 273.15) < s ∧ s < pT2s_reg2 1e-8 (t + 273.15) then 2
      else if pT2s_reg1 (Sat.psat (t + 273.15)) (t + 273.15) ≤ s ∧ s ≤ pT2s_reg2 (Sat.psat (t + 273.15)) (t + 273.15) then 4
      else INVALID_VALUE := by
  unfold ts_sub_region
  have k1 : (273.15 : ℝ) ≤ t + 273.15 := by linarith
  have k2 : t + 273.15 ≤ (623.15 : ℝ) := by norm_num at *; linarith
  generalize t + 273.15 = T at *
  have g : (T <. (273.15 : ℝ) || T >. (2273.15 : ℝ)) = false := by
    simp only [real_lt, Bool.or_eq_false_iff, decide_eq_false_iff_not, not_lt]; norm_num at *; constructor <;> linarith
  have g' : (s >. (S_MAX : ℝ) || s <. (S_MIN : ℝ)) = false := by
    simp only [S_MAX, S_MIN, real_lt, Bool.or_eq_false_iff, decide_eq_false_iff_not, not_lt]; exact ⟨hs2, hs1⟩
  have a1 : (T >=. (T_MIN2 : ℝ) && T <=. T_MAX2) = true := by
    simp only [T_MIN2, T_MAX2, real_le, Bool.and_eq_true, decide_eq_true_eq]; norm_num at *; constructor <;> linarith
  have a2 : (T >=. (T_MIN5 : ℝ) && T <=. T_MAX5) = false := by
    simp only [T_MIN5, T_MAX5, real_le, Bool.and_eq_false_iff, decide_eq_false_iff_not]; left; norm_num at *; linarith
  have a3 : (T >=. (T_MIN1 : ℝ) && T <=. T_MAX1) = true := by
    simp only [T_MIN1, T_MAX1, real_le, Bool.and_eq_true, decide_eq_true_eq]; exact ⟨k1, k2⟩
  have a4 : (T >. (T_MIN3 : ℝ)) = false := by
    simp only [T_MIN3, real_lt, decide_eq_false_iff_not, not_lt]; exact k2
  have a5 : (T >. (T_MAX3 : ℝ)) = false := by
    simp only [T_MAX3, real_lt, decide_eq_false_iff_not, not_lt]; norm_num at *; linarith
  have a6 : (T >=. (T_MIN2 : ℝ) && T <=. T_MAX1) = true := by
    simp only [T_MIN2, T_MAX1, real_le, Bool.and_eq_true, decide_eq_true_eq]; exact ⟨k1, k2⟩
  have a7 : (T >. (T_MAX1 : ℝ)) = false := by
    simp only [T_MAX1, real_lt, decide_eq_false_iff_not, not_lt]; exact k2
  have a8 : (T >. (TC_WATER : ℝ)) = false := by
    simp only [TC_WATER, real_lt, decide_eq_false_iff_not, not_lt]; norm_num at *; linarith
  have a9 : (T >=. (T_MIN1 : ℝ) && T <=. TC_WATER) = true := by
    simp only [T_MIN1, TC_WATER, real_le, Bool.and_eq_true, decide_eq_true_eq]; norm_num at *; constructor <;> linarith
  have a10 : (T >. (T_MIN5 : ℝ)) = false := by
    simp only [T_MIN5, real_lt, decide_eq_false_iff_not, not_lt]; norm_num at *; linarith
  simp only [g, g', a1, a2, a3, a4, a5, a6, a7, a8, a9, a10, if_true, Bool.false_and, Bool.or_false, Bool.true_and,
    Bool.false_eq_true, if_false, T1_facts k1 k2]
  simp only [real_le, real_lt, Bool.and_eq_true, decide_eq_true_eq, P_MIN2, show (100.0 : ℝ) = 100 by norm_num,
    show (1.0e-8 : ℝ) = 1e-8 by norm_num]

/-! ### branches of the detectors at high temperature and pressure -/

theorem InRange.H_le {r p T T'} (h : InRange r p T) (h' : InRange r p T') (hle : T ≤ T') : (Gr r).H p T ≤ (Gr r).H p T' :=
  (eq_or_lt_of_le hle).elim (fun e => e ▸ le_rfl) fun e => (h.H_lt h' e).le
theorem InRange.S_le {r p T T'} (h : InRange r p T) (h' : InRange r p T') (hle : T ≤ T') : (Gr r).S p T ≤ (Gr r).S p T' :=
  (eq_or_lt_of_le hle).elim (fun e => e ▸ le_rfl) fun e => (h.S_lt h' e).le
theorem InRange.V_le {r p p' T} (h : InRange r p T) (h' : InRange r p' T) (hle : p ≤ p') : (Gr r).V p' T ≤ (Gr r).V p T :=
  (eq_or_lt_of_le hle).elim (fun e => e ▸ le_rfl) fun e => (h.V_lt h' e).le
theorem InRange.S_le_p {r p p' T} (h : InRange r p T) (h' : InRange r p' T) (h5 : r = 1 → 278.15 ≤ T) (hle : p ≤ p') :
    (Gr r).S p' T ≤ (Gr r).S p T :=
  (eq_or_lt_of_le hle).elim (fun e => e ▸ le_rfl) fun e => (h.S_lt_p h' h5 e).le
theorem InRange.V_le_T {r p T T'} (h : InRange r p T) (h' : InRange r p T') (h5 : r = 1 → 278.15 ≤ T) (hle : T ≤ T') :
    (Gr r).V p T ≤ (Gr r).V p T' :=
  (eq_or_lt_of_le hle).elim (fun e => e ▸ le_rfl) fun e => (h.V_lt_T h' h5 e).le


theorem tv_23 {t v : ℝ} (h1 : 623.15 < t + 273.15) (h2 : t + 273.15 ≤ 863.15)
    (h3 : pT2v_reg2 (B23_T2p (t + 273.15)) (t + 273.15) ≤ v) (h4 : v < pT2v_reg2 1e-8 (t + 273.15)) : tv_sub_region t v = 2 := by
  unfold tv_sub_region
  generalize t + 273.15 = T at *
  have g : (T <. (273.15 : ℝ) || T >. (2273.15 : ℝ)) = false := by
    simp only [real_lt, Bool.or_eq_false_iff, decide_eq_false_iff_not, not_lt]; norm_num at *; constructor <;> linarith
  have a1 : (T >=. (T_MIN2 : ℝ) && T <=. T_MAX2) = true := by
    simp only [T_MIN2, T_MAX2, real_le, Bool.and_eq_true, decide_eq_true_eq]; norm_num at *; constructor <;> linarith
  have a3 : (T <=. (T_MAX1 : ℝ)) = false := by
    simp only [T_MAX1, real_le, decide_eq_false_iff_not, not_le]; exact h1
  have a4 : (T >. (T_MIN3 : ℝ)) = true := by
    simp only [T_MIN3, real_lt, decide_eq_true_eq]; exact h1
  have a5 : (T <=. (T_MAX3 : ℝ)) = true := by
    simp only [T_MAX3, real_le, decide_eq_true_eq]; exact h2
  have a7 : (T >. (T_MAX1 : ℝ)) = true := by
    simp only [T_MAX1, real_lt, decide_eq_true_eq]; exact h1
  have c : (1.0e-8 : ℝ) = 1e-8 := by norm_num
  by_cases e : (T <=. (TC_WATER : ℝ)) = true
  all_goals
    simp only [g, a1, a3, a4, a5, a7, e, if_true, Bool.and_false, Bool.false_and, Bool.false_or, Bool.true_and, Bool.false_eq_true,
      if_false, P_MIN2, c, Bool.not_eq_true]
    simp only [real_le, real_lt, Bool.and_eq_true, decide_eq_true_eq, h3, h4, and_self, if_true]

theorem tv_5 {t v : ℝ} (h1 : 1073.15 < t + 273.15) (h2 : t + 273.15 ≤ 2273.15)
    (h3 : pT2v_reg5 50 (t + 273.15) ≤ v) (h4 : v ≤ pT2v_reg5 0.000611212677444 (t + 273.15)) : tv_sub_region t v = 5 := by
  unfold tv_sub_region
  generalize t + 273.15 = T at *
  have g : (T <. (273.15 : ℝ) || T >. (2273.15 : ℝ)) = false := by
    simp only [real_lt, Bool.or_eq_false_iff, decide_eq_false_iff_not, not_lt]; norm_num at *; constructor <;> linarith
  have a1 : (T <=. (T_MAX2 : ℝ)) = false := by
    simp only [T_MAX2, real_le, decide_eq_false_iff_not, not_le]; exact h1
  have a2 : (T >=. (T_MIN5 : ℝ) && T <=. T_MAX5) = true := by
    simp only [T_MIN5, T_MAX5, real_le, Bool.and_eq_true, decide_eq_true_eq]; norm_num at *; constructor <;> linarith
  have a3 : (T <=. (T_MAX1 : ℝ)) = false := by
    simp only [T_MAX1, real_le, decide_eq_false_iff_not, not_le]; norm_num at *; linarith
  have a5 : (T <=. (T_MAX3 : ℝ)) = false := by
    simp only [T_MAX3, real_le, decide_eq_false_iff_not, not_le]; norm_num at *; linarith
  have a6 : (T <=. (TC_WATER : ℝ)) = false := by
    simp only [TC_WATER, real_le, decide_eq_false_iff_not, not_le]; norm_num at *; linarith
  have a7 : (T >. (T_MIN5 : ℝ) && T <=. T_MAX5) = true := by
    simp only [T_MIN5, T_MAX5, real_lt, real_le, Bool.and_eq_true, decide_eq_true_eq]; exact ⟨h1, h2⟩
  have c : (50.0 : ℝ) = 50 := by norm_num
  simp only [g, a1, a2, a3, a5, a6, a7, if_true, Bool.and_false, Bool.false_and, Bool.false_or, Bool.true_and, Bool.false_eq_true,
      if_false, P_MIN5, c]
  simp only [real_le, real_lt, Bool.and_eq_true, decide_eq_true_eq, h3, h4, and_self, if_true]

theorem ts_23 {t s : ℝ} (h1 : 623.15 < t + 273.15) (h2 : t + 273.15 ≤ 863.15) (hs1 : -0.008583 ≤ s) (hs2 : s ≤ 18.992)
    (h3 : pT2s_reg2 (B23_T2p (t + 273.15)) (t + 273.15) ≤ s) (h4 : s < pT2s_reg2 1e-8 (t + 273.15)) : ts_sub_region t s = 2 := by
  unfold ts_sub_region
  generalize t + 273.15 = T at *
  have g : (T <. (273.15 : ℝ) || T >. (2273.15 : ℝ)) = false := by
    simp only [real_lt, Bool.or_eq_false_iff, decide_eq_false_iff_not, not_lt]; norm_num at *; constructor <;> linarith
  have g' : (s >. (S_MAX : ℝ) || s <. (S_MIN : ℝ)) = false := by
    simp only [S_MAX, S_MIN, real_lt, Bool.or_eq_false_iff, decide_eq_false_iff_not, not_lt]; exact ⟨hs2, hs1⟩
  have a1 : (T >=. (T_MIN2 : ℝ) && T <=. T_MAX2) = true := by
    simp only [T_MIN2, T_MAX2, real_le, Bool.and_eq_true, decide_eq_true_eq]; norm_num at *; constructor <;> linarith
  have a3 : (T <=. (T_MAX1 : ℝ)) = false := by
    simp only [T_MAX1, real_le, decide_eq_false_iff_not, not_le]; exact h1
  have a4 : (T >. (T_MIN3 : ℝ)) = true := by
    simp only [T_MIN3, real_lt, decide_eq_true_eq]; exact h1
  have a5 : (T <=. (T_MAX3 : ℝ)) = true := by
    simp only [T_MAX3, real_le, decide_eq_true_eq]; exact h2
  have a7 : (T >. (T_MAX1 : ℝ)) = true := by
    simp only [T_MAX1, real_lt, decide_eq_true_eq]; exact h1
  have c : (1.0e-8 : ℝ) = 1e-8 := by norm_num
  by_cases e : (T <=. (TC_WATER : ℝ)) = true
  all_goals
    simp only [g, g', a1, a3, a4, a5, a7, e, if_true, Bool.and_false, Bool.false_and, Bool.false_or, Bool.true_and, Bool.false_eq_true,
      if_false, P_MIN2, c, Bool.not_eq_true]
    simp only [real_le, real_lt, Bool.and_eq_true, decide_eq_true_eq, h3, h4, and_self, if_true]

theorem ts_5 {t s : ℝ} (h1 : 1073.15 < t + 273.15) (h2 : t + 273.15 ≤ 2273.15) (hs1 : -0.008583 ≤ s) (hs2 : s ≤ 18.992)
    (h3 : pT2s_reg5 50 (t + 273.15) ≤ s) (h4 : s ≤ pT2s_reg5 0.000611212677444 (t + 273.15)) : ts_sub_region t s = 5 := by
  unfold ts_sub_region
  generalize t + 273.15 = T at *
  have g : (T <. (273.15 : ℝ) || T >. (2273.15 : ℝ)) = false := by
    simp only [real_lt, Bool.or_eq_false_iff, decide_eq_false_iff_not, not_lt]; norm_num at *; constructor <;> linarith
  have g' : (s >. (S_MAX : ℝ) || s <. (S_MIN : ℝ)) = false := by
    simp only [S_MAX, S_MIN, real_lt, Bool.or_eq_false_iff, decide_eq_false_iff_not, not_lt]; exact ⟨hs2, hs1⟩
  have a1 : (T <=. (T_MAX2 : ℝ)) = false := by
    simp only [T_MAX2, real_le, decide_eq_false_iff_not, not_le]; exact h1
  have a2 : (T >=. (T_MIN5 : ℝ) && T <=. T_MAX5) = true := by
    simp only [T_MIN5, T_MAX5, real_le, Bool.and_eq_true, decide_eq_true_eq]; norm_num at *; constructor <;> linarith
  have a3 : (T <=. (T_MAX1 : ℝ)) = false := by
    simp only [T_MAX1, real_le, decide_eq_false_iff_not, not_le]; norm_num at *; linarith
  have a5 : (T <=. (T_MAX3 : ℝ)) = false := by
    simp only [T_MAX3, real_le, decide_eq_false_iff_not, not_le]; norm_num at *; linarith
  have a6 : (T <=. (TC_WATER : ℝ)) = false := by
    simp only [TC_WATER, real_le, decide_eq_false_iff_not, not_le]; norm_num at *; linarith
  have a7 : (T >. (T_MIN5 : ℝ) && T <=. T_MAX5) = true := by
    simp only [T_MIN5, T_MAX5, real_lt, real_le, Bool.and_eq_true, decide_eq_true_eq]; exact ⟨h1, h2⟩
  have c : (50.0 : ℝ) = 50 := by norm_num
  simp only [g, g', a1, a2, a3, a5, a6, a7, if_true, Bool.and_false, Bool.false_and, Bool.false_or, Bool.true_and, Bool.false_eq_true,
      if_false, P_MIN5, c]
  simp only [real_le, real_lt, Bool.and_eq_true, decide_eq_true_eq, h3, h4, and_self, if_true]

theorem pv_high2 {p v : ℝ} (h1 : 16.5291643 < p) (h2 : p ≤ 100) (h3 : pT2v_reg1 p 623.15 < v) (h4 : pT2v_reg2 p (B23_p2T p) ≤ v)
    (h5 : v ≤ pT2v_reg2 p 1073.15) : pv_sub_region p v = 2 := by
  unfold pv_sub_region
  have g : (p <. P_MIN2 || p >. (P_MAX2 : ℝ)) = false := by
    simp only [P_MIN2, P_MAX2, real_lt, Bool.or_eq_false_iff, decide_eq_false_iff_not, not_lt]
    norm_num at *; constructor <;> linarith
  have a1 : (p <=. (P_MIN3 : ℝ)) = false := by
    simp only [P_MIN3, real_le, decide_eq_false_iff_not, not_le]; exact h1
  have a2 : (p <=. (P_MAX3 : ℝ)) = true := by
    simp only [P_MAX3, real_le, decide_eq_true_eq]; norm_num at *; exact h2
  have a3 : (p >. (P_MIN3 : ℝ)) = true := by
    simp only [P_MIN3, real_lt, decide_eq_true_eq]; exact h1
  have a4 : (p <=. (P_MAX2 : ℝ)) = true := by
    simp only [P_MAX2, real_le, decide_eq_true_eq]; norm_num at *; exact h2
  by_cases e : (p <=. (PC_WATER : ℝ)) = true
  all_goals
    simp only [g, a1, a2, a3, a4, e, if_true, Bool.and_false, Bool.false_and, Bool.false_or, Bool.true_and, Bool.false_eq_true,
      if_false, Bool.not_eq_true]
    simp only [real_le, real_lt, Bool.and_eq_true, decide_eq_true_eq, h4, h5, not_le.2 h3, and_self, and_false, if_true, if_false]

/-! ### bounds of the entropy -/

section
open Iv
variable (x y : ℝ)
theorem o5_0 : idealSum r5_no r5_Jo 6 y = evS o5 x y y := by
  simp only [idealSum, nthF, nthI, r5_no, r5_Jo, show List.range' 0 6 = [0, 1, 2, 3, 4, 5] from rfl, o5, evS, SM.ev,
    List.map_cons, List.map_nil, List.sum_cons, List.sum_nil]
  norm_num
theorem o5_1 : idealSum1 r5_no r5_Jo 6 y = evS (dY o5) x y y := by
  simp only [idealSum1, nthF, nthI, r5_no, r5_Jo, show List.range' 0 6 = [0, 1, 2, 3, 4, 5] from rfl, o5, dY, evS, SM.ev,
    List.map_cons, List.map_nil, List.sum_cons, List.sum_nil, List.cons_append, List.nil_append]
  norm_num
theorem l1m_eq (hy : y ≠ 0) : evS l1m (7.1 - x) (y - 1.222) y = y * G1.gt x y - G1.g x y := by
  simp only [l1m, evS_append, evS_ng, evS_mZ _ _ _ hy, G1, t1_eq, tab_j _ _ y noZ_1, tab_0 _ _ y noZ_1]; ring
theorem l2m_eq (hy : y ≠ 0) : evS l2m x (y - 0.5) y = 33.5 - (y * G2.gt x y - (G2.g x y - Real.log x)) := by
  simp only [l2m, evS_cons, cst_ev, evS_append, evS_ng, evS_mZ _ _ _ hy, dY_append, G2, idealGibbs, t2_eq,
    tab_j _ _ y noZ_2, tab_0 _ _ y noZ_2, o2_0 x, o2_1 x]
  norm_num; ring
theorem l5m_eq (hy : y ≠ 0) : evS l5m x y y = 33.5 - (y * G5.gt x y - (G5.g x y - Real.log x)) := by
  simp only [l5m, evS_cons, cst_ev, evS_append, evS_ng, evS_mZ _ _ _ hy, dY_append, G5, idealGibbs, t5_eq,
    tab_j _ _ y noZ_5, tab_0 _ _ y noZ_5, o5_0 x, o5_1 x, sub_zero]
  norm_num; ring
theorem l5s_eq (hy : y ≠ 0) : evS l5s x y y = y * G5.gt x y - (G5.g x y - Real.log x) - 4 := by
  simp only [l5s, evS_cons, cst_ev, evS_append, evS_ng, evS_mZ _ _ _ hy, dY_append, G5, idealGibbs, t5_eq,
    tab_j _ _ y noZ_5, tab_0 _ _ y noZ_5, o5_0 x, o5_1 x, sub_zero]
  norm_num; ring

theorem log_pMin {p : ℝ} (h : 0.000611212677444 ≤ p) : -7.43 ≤ Real.log p := by
  have h0 : (0 : ℝ) < p := lt_of_lt_of_le (by norm_num) h
  have e1 : Real.log p⁻¹ ≤ Real.log (2 ^ 11 * 0.8) := by
    refine Real.log_le_log (by positivity) ?_
    rw [inv_le_comm₀ h0 (by norm_num)]; refine le_trans ?_ h; norm_num
  rw [Real.log_inv, Real.log_mul (by norm_num) (by norm_num), Real.log_pow] at e1
  have h2 := Real.log_two_lt_d9
  have h3 := Real.log_le_sub_one_of_pos (x := (0.8 : ℝ)) (by norm_num)
  norm_num at *; linarith

/-- the entropies are inside the accepted range of (t,s) -/
theorem InRange.S_bounds {r p T} (h : InRange r p T) (hp : 0.000611212677444 ≤ p) (h5 : r = 1 → 278.15 ≤ T) :
    -0.008583 ≤ (Gr r).S p T ∧ (Gr r).S p T ≤ 18.992 := by
  have hp0 := h.p_pos
  have hT := h.T_pos
  have hl := log_pMin hp
  rcases h.gibbs with rfl | rfl | rfl
  · have hu := (liquid h).2.1
    rcases h with h | h | h
    · obtain ⟨B, hB, hm⟩ := cover1e (h5 rfl) h.2.2.2.1 h.2.1 h.2.2.2.2.1 h.2.2.2.2.2
      have e := pos_l1m_1e hB hm
      rw [sub_add_cancel, l1m_eq _ _ (by positivity)] at e
      refine ⟨?_, by rw [Gr_1]; norm_num at *; linarith⟩
      rw [Gr_1, Gibbs.S, show G1.ps = 16.53 from rfl, show G1.Ts = 1386 from rfl]
      have := mul_pos gasR_pos e
      norm_num at *; linarith
    all_goals omega
  · have hu := (vapour_all h).2.1
    rw [Gr_2]
    refine ⟨by norm_num at *; linarith, ?_⟩
    have key : 0 < evS l2m p (540 / T - 0.5) (540 / T - 0.5 + 0.5) := by
      rcases cover2 h with ⟨B, hB, hm⟩ | ⟨B, hB, hm⟩
      exacts [pos_l2m_2a hB hm, pos_l2m_2b hB hm]
    rw [sub_add_cancel, l2m_eq _ _ (by positivity)] at key
    simp only [Gibbs.S, show G2.ps = 1 from rfl, show G2.Ts = 540 from rfl, div_one]
    have : 540 / T * G2.gt p (540 / T) - G2.g p (540 / T) < 40.93 := by norm_num at *; linarith
    unfold gasR; norm_num at *; linarith
  · rw [Gr_5]
    simp only [Gibbs.S, show G5.ps = 1 from rfl, show G5.Ts = 1000 from rfl, div_one]
    rcases h with h | h | h
    · omega
    · omega
    · obtain ⟨B, hB, hm⟩ := cover5 h.2.2.2.1 h.2.2.2.2 hp0.le h.2.2.1
      have e := pos_l5m_5 hB hm
      have e' := pos_l5s_5 hB hm
      simp only [sub_zero, add_zero] at e e'
      rw [l5m_eq _ _ (by positivity)] at e
      rw [l5s_eq _ _ (by positivity)] at e'
      have hu := log_le50 hp0
      have hp50 := h.2.2.1
      have a1 : 1000 / T * G5.gt p (1000 / T) - G5.g p (1000 / T) < 40.93 := by norm_num at *; linarith
      have a2 : 0 < 1000 / T * G5.gt p (1000 / T) - G5.g p (1000 / T) := by norm_num at *; linarith
      unfold gasR; constructor <;> norm_num at * <;> linarith
end

/-! ### saturated volumes -/

theorem T2sat_V {T : ℝ} (h1 : 273.15 ≤ T) (h2 : T ≤ 623.15) :
    T2sat_water T OV = pT2v_reg1 (Sat.psat T) T ∧ T2sat_steam T OV = pT2v_reg2 (Sat.psat T) T := by
  have a : (fabs (T - TC_WATER) <. (FLOAT_ERROR : ℝ)) = false := by
    simp only [real_abs, real_lt, TC_WATER, FLOAT_ERROR, decide_eq_false_iff_not, not_lt]
    rw [le_abs]; right; norm_num at *; linarith
  have b : (T <=. (623.15 : ℝ)) = true := by simp only [real_le, decide_eq_true_eq]; exact h2
  unfold T2sat_water T2sat_steam
  simp only [a, b, T1_facts h1 h2, Bool.false_eq_true, if_false, if_true]
  exact ⟨rfl, rfl⟩

end If97
