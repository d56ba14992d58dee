import Verif.Lemmas.Iv.W7
import Verif.Lemmas.Order
import Verif.Lemmas.Detect
import Verif.Model.Region

/-! Helper lemmas for C35: `hs` finds region 4 for h = 1680 and s near 3.792948, and where its pressure iteration starts. -/

namespace If97
open Iv

namespace Hang

theorem r1a : Regular 1 (100 : ℝ) 623.15 :=
  ⟨by norm_num, by norm_num, fun _ => by norm_num, fun h => by norm_num at h⟩
theorem r1b : Regular 1 (16.5291642526045 : ℝ) 623.15 :=
  ⟨by norm_num, by norm_num, fun _ => by norm_num, fun h => by norm_num at h⟩
theorem r1c : Regular 1 (0.000611212677444 : ℝ) 273.15 :=
  ⟨by norm_num, by norm_num, fun _ => by norm_num, fun h => by norm_num at h⟩
theorem r2b : Regular 2 (16.5291642526045 : ℝ) 623.15 :=
  ⟨by norm_num, by norm_num, fun h => by norm_num at h, fun _ => by norm_num⟩
theorem r2c : Regular 2 (0.000611212677444 : ℝ) 273.15 :=
  ⟨by norm_num, by norm_num, fun h => by norm_num at h, fun _ => by norm_num⟩

section
variable (x y : ℝ)
theorem hw1_eq (hy : y ≠ 0) : evS hw1 (7.1 - x) (y - 1.222) y = 8.2 - (y * G1.gt x y - G1.g x y) := by
  simp only [hw1, evS_cons, cst_ev, evS_append, evS_ng, evS_mZ _ _ _ hy, G1, t1_eq, tab_j _ _ y noZ_1, tab_0 _ _ y noZ_1]
  norm_num; ring
theorem hw4_eq (hy : y ≠ 0) : evS hw4 (7.1 - x) (y - 1.222) y = 0.01 - (y * G1.gt x y - G1.g x y) := by
  simp only [hw4, evS_cons, cst_ev, evS_append, evS_ng, evS_mZ _ _ _ hy, G1, t1_eq, tab_j _ _ y noZ_1, tab_0 _ _ y noZ_1]
  norm_num; ring
theorem hw9_eq (hy : y ≠ 0) : evS hw9 (7.1 - x) (y - 1.222) y = 0.01 + (y * G1.gt x y - G1.g x y) := by
  simp only [hw9, evS_cons, cst_ev, evS_append, evS_ng, evS_mZ _ _ _ hy, G1, t1_eq, tab_j _ _ y noZ_1, tab_0 _ _ y noZ_1]
  norm_num; ring
theorem hw2_eq (z : ℝ) : evS hw2 (7.1 - x) (y - 1.222) z = 2.62 - G1.gt x y := by
  simp only [hw2, evS_cons, cst_ev, evS_ng, G1, t1_eq, tab_j _ _ z noZ_1]; norm_num; ring
theorem hw3_eq (z : ℝ) : evS hw3 (7.1 - x) (y - 1.222) z = 0.01 - G1.gt x y := by
  simp only [hw3, evS_cons, cst_ev, evS_ng, G1, t1_eq, tab_j _ _ z noZ_1]; norm_num; ring
theorem hw5_eq : evS hw5 x (y - 0.5) y = 10.07 - G2.gt x y := by
  simp only [hw5, evS_cons, cst_ev, evS_ng, dY_append, G2, idealGibbs, t2_eq, tab_j _ _ y noZ_2, o2_1 x]; norm_num; ring
theorem hw10_eq : evS hw10 x (y - 0.5) y = G2.gt x y - 8 := by
  simp only [hw10, evS_cons, cst_ev, dY_append, G2, idealGibbs, t2_eq, tab_j _ _ y noZ_2, o2_1 x]; norm_num; ring
theorem hw8_eq (hy : y ≠ 0) : evS hw8 x (y - 0.5) y = y * G2.gt x y - (G2.g x y - Real.log x) - 12 := by
  simp only [hw8, evS_cons, cst_ev, evS_append, evS_ng, evS_mZ _ _ _ hy, dY_append, G2, idealGibbs, t2_eq,
    tab_j _ _ y noZ_2, tab_0 _ _ y noZ_2, o2_0 x, o2_1 x]
  norm_num; ring
theorem hw6_eq : evS hw6 x y y = G5.gt x y - 4 := by
  simp only [hw6, evS_cons, cst_ev, dY_append, G5, idealGibbs, t5_eq, tab_j _ _ y noZ_5, o5_1 x, sub_zero]
  norm_num; ring
end

theorem s13 : pT2s_reg1 (100 : ℝ) 623.15 < 3.785 := by
  rw [V1.S r1a]
  have e := pos_hw1_0 (X := 7.1 - 100 / 16.53) (Y := 1386 / 623.15 - 1.222) (by norm_num [Box.Mem, abs_le])
  rw [sub_add_cancel, hw1_eq _ _ (by norm_num)] at e
  rw [Gibbs.S, show G1.ps = 16.53 from rfl, show G1.Ts = 1386 from rfl, gasR]
  generalize 1386 / 623.15 * G1.gt (100 / 16.53) (1386 / 623.15) - G1.g (100 / 16.53) (1386 / 623.15) = w at *
  norm_num at *; linarith

theorem s13s : pT2s_reg1 (Ps_623 : ℝ) 623.15 < 3.785 := by
  rw [Ps_623, V1.S r1b]
  have e := pos_hw1_1 (X := 7.1 - 16.5291642526045 / 16.53) (Y := 1386 / 623.15 - 1.222) (by norm_num [Box.Mem, abs_le])
  rw [sub_add_cancel, hw1_eq _ _ (by norm_num)] at e
  rw [Gibbs.S, show G1.ps = 16.53 from rfl, show G1.Ts = 1386 from rfl, gasR]
  generalize 1386 / 623.15 * G1.gt (16.5291642526045 / 16.53) (1386 / 623.15) - G1.g (16.5291642526045 / 16.53) (1386 / 623.15) = w at *
  norm_num at *; linarith

theorem h13s : pT2h_reg1 (Ps_623 : ℝ) 623.15 < 1680 := by
  rw [Ps_623, V1.H r1b]
  have e := pos_hw2_0 (X := 7.1 - 16.5291642526045 / 16.53) (Y := 1386 / 623.15 - 1.222) (by norm_num [Box.Mem, abs_le])
  rw [hw2_eq] at e
  rw [Gibbs.H, show G1.ps = 16.53 from rfl, show G1.Ts = 1386 from rfl, gasR]
  generalize G1.gt (16.5291642526045 / 16.53) (1386 / 623.15) = w at *
  norm_num at *; linarith

theorem h23s : 1680 < pT2h_reg2 (Ps_623 : ℝ) 623.15 := by
  rw [Ps_623, V2.H r2b]
  have e := pos_hw10_0 (X := 16.5291642526045) (Y := 540 / 623.15 - 0.5) (by norm_num [Box.Mem, abs_le])
  rw [sub_add_cancel, hw10_eq] at e
  rw [Gibbs.H, show G2.ps = 1 from rfl, show G2.Ts = 540 from rfl, gasR, div_one]
  generalize G2.gt (16.5291642526045) (540 / 623.15) = w at *
  norm_num at *; linarith

theorem h4l : pT2h_reg1 (P_MIN : ℝ) 273.15 < 7 := by
  rw [P_MIN, V1.H r1c]
  have e := pos_hw3_0 (X := 7.1 - 0.000611212677444 / 16.53) (Y := 1386 / 273.15 - 1.222) (by norm_num [Box.Mem, abs_le])
  rw [hw3_eq] at e
  rw [Gibbs.H, show G1.ps = 16.53 from rfl, show G1.Ts = 1386 from rfl, gasR]
  generalize G1.gt (0.000611212677444 / 16.53) (1386 / 273.15) = w at *
  norm_num at *; linarith

theorem s4l : -0.01 < pT2s_reg1 (P_MIN : ℝ) 273.15 ∧ pT2s_reg1 (P_MIN : ℝ) 273.15 < 0.01 := by
  rw [P_MIN, V1.S r1c]
  have m : Box.Mem ⟨7099963, 2, 1000000, 3852135, 2, 1000000, 1222000⟩ (7.1 - 0.000611212677444 / 16.53 : ℝ) (1386 / 273.15 - 1.222) := by
    norm_num [Box.Mem, abs_le]
  have e := pos_hw4_0 m
  have f := pos_hw9_0 m
  rw [sub_add_cancel, hw4_eq _ _ (by norm_num)] at e
  rw [sub_add_cancel, hw9_eq _ _ (by norm_num)] at f
  rw [Gibbs.S, show G1.ps = 16.53 from rfl, show G1.Ts = 1386 from rfl, gasR]
  generalize 1386 / 273.15 * G1.gt (0.000611212677444 / 16.53) (1386 / 273.15) - G1.g (0.000611212677444 / 16.53) (1386 / 273.15) = w at *
  constructor <;> norm_num at * <;> linarith

theorem h4v : pT2h_reg2 (P_MIN : ℝ) 273.15 < 2510 := by
  rw [P_MIN, V2.H r2c]
  have e := pos_hw5_0 (X := 0.000611212677444) (Y := 540 / 273.15 - 0.5) (by norm_num [Box.Mem, abs_le])
  rw [sub_add_cancel, hw5_eq] at e
  rw [Gibbs.H, show G2.ps = 1 from rfl, show G2.Ts = 540 from rfl, gasR, div_one]
  generalize G2.gt (0.000611212677444) (540 / 273.15) = w at *
  norm_num at *; linarith

theorem s4v : 8.6 < pT2s_reg2 (P_MIN : ℝ) 273.15 := by
  rw [P_MIN, V2.S r2c]
  have e := pos_hw8_0 (X := 0.000611212677444) (Y := 540 / 273.15 - 0.5) (by norm_num [Box.Mem, abs_le])
  rw [sub_add_cancel, hw8_eq _ _ (by norm_num)] at e
  have hl : Real.log 0.000611212677444 ≤ -6.9 := by
    have h := Real.log_le_log (x := (0.000611212677444 : ℝ)) (y := (2 ^ 10)⁻¹) (by norm_num) (by norm_num)
    rw [Real.log_inv, Real.log_pow] at h
    have := Real.log_two_gt_d9
    norm_num at *; linarith
  rw [Gibbs.S, show G2.ps = 1 from rfl, show G2.Ts = 540 from rfl, gasR, div_one]
  generalize Real.log 0.000611212677444 = l at *
  have : 18.9 < 540 / 273.15 * G2.gt 0.000611212677444 (540 / 273.15) - G2.g 0.000611212677444 (540 / 273.15) := by
    norm_num only at *; linarith
  generalize 540 / 273.15 * G2.gt 0.000611212677444 (540 / 273.15) - G2.g 0.000611212677444 (540 / 273.15) = w at *
  norm_num at *; linarith

theorem h5 : 1680 < pT2h_reg5 (50 : ℝ) 1073.15 := by
  rw [V5.H ⟨by norm_num, by norm_num, fun h => by norm_num at h, fun h => by norm_num at h⟩]
  have e := pos_hw6_0 (X := 50) (Y := 1000 / 1073.15) (by norm_num [Box.Mem, abs_le])
  rw [add_zero, hw6_eq] at e
  rw [Gibbs.H, show G5.ps = 1 from rfl, show G5.Ts = 1000 from rfl, gasR, div_one]
  generalize G5.gt 50 (1000 / 1073.15) = w at *
  norm_num at *; linarith

theorem h3a_lt {s : ℝ} (s1 : 3.792947 ≤ s) (s2 : s ≤ 3.792949) : 1680 < hs_region_h3a_s s := by
  unfold hs_region_h3a_s
  rw [if_neg (by simp only [SC_WATER, real_lt, Bool.or_eq_true, decide_eq_true_eq]; norm_num at *; constructor <;> linarith)]
  have e := pos_hw7_0 (X := 1.09 - s / 3.8) (Y := s / 3.8 + 0.366e-4)
    (by simp only [Box.Mem, abs_le]; norm_num at *; refine ⟨⟨?_, ?_⟩, ?_, ?_⟩ <;> linarith)
  rw [hw7, evS_cons, cst_ev, evS_flipX, ← tab_0 _ _ _ noZ_h3a, ← h3a_eq, neg_sub] at e
  show 1680 < 1700.0 * poly_powi (s / 3.8 - 1.09) (s / 3.8 + 0.366e-4) hs_region_h3a_s_IJn
  generalize (poly_powi (s / 3.8 - 1.09) (s / 3.8 + 0.366e-4) hs_region_h3a_s_IJn : ℝ) = w at *
  norm_num at *; linarith

theorem start : 8.3521 ≤ 0.5 * ((P_MIN : ℝ) + h2p_sat_reg3 1680) ∧ 0.5 * ((P_MIN : ℝ) + h2p_sat_reg3 1680) ≤ 8.4 := by
  unfold h2p_sat_reg3
  rw [if_neg (by simp only [real_lt, Bool.or_eq_true, decide_eq_true_eq, not_or, not_lt]; exact ⟨h13s.le, h23s.le⟩)]
  have m : Box.Mem ⟨373846, 2, 1000000, 38154, 2, 1000000, 0⟩ (1.02 - 1680 / 2600 : ℝ) (1680 / 2600 - 0.608) := by
    norm_num [Box.Mem, abs_le]
  have e := pos_hw11_0 m
  have f := pos_hw12_0 m
  rw [hw11, evS_cons, cst_ev, evS_flipX, ← tab_0 _ _ _ noZ_h2p, ← h2p_eq, neg_sub] at e
  rw [hw12, evS_cons, cst_ev, evS_ng, evS_flipX, ← tab_0 _ _ _ noZ_h2p, ← h2p_eq, neg_sub] at f
  rw [show (2600.0 : ℝ) = 2600 by norm_num]
  simp only [P_MIN]
  generalize (poly_powi (1680 / 2600 - 1.02) (1680 / 2600 - 0.608) h2p_sat_reg3_IJn : ℝ) = w at *
  constructor <;> norm_num at * <;> linarith

/-- `hs` finds region 4 -/
theorem detect {s : ℝ} (s1 : 3.792947 ≤ s) (s2 : s ≤ 3.792949) : hs_sub_region 1680 s = 4 := by
  unfold hs_sub_region
  have k1 := s13; have k2 := s13s; have k3 := h3a_lt s1 s2
  have a1 := h5
  obtain ⟨a2, a3⟩ := s4l
  have a4 := h4l; have a5 := h4v; have a6 := s4v
  simp only [real_lt, real_le, Bool.and_eq_true, decide_eq_true_eq]
  rw [show (100.0 : ℝ) = 100 by norm_num, show (50.0 : ℝ) = 50 by norm_num]
  have hmin : pT2h_reg1 (P_MIN : ℝ) 273.15 + (s - pT2s_reg1 (P_MIN : ℝ) 273.15) /
      (pT2s_reg2 (P_MIN : ℝ) 273.15 - pT2s_reg1 (P_MIN : ℝ) 273.15) *
      (pT2h_reg2 (P_MIN : ℝ) 273.15 - pT2h_reg1 (P_MIN : ℝ) 273.15) ≤ 1680 := by
    generalize pT2h_reg1 (P_MIN : ℝ) 273.15 = a at *
    generalize pT2s_reg1 (P_MIN : ℝ) 273.15 = b at *
    generalize pT2h_reg2 (P_MIN : ℝ) 273.15 = c at *
    generalize pT2s_reg2 (P_MIN : ℝ) 273.15 = d at *
    have hd : 0 < d - b := by norm_num at *; linarith
    have hr : (s - b) / (d - b) ≤ 0.5 := by rw [div_le_iff₀ hd]; norm_num at *; linarith
    have hr0 : 0 ≤ (s - b) / (d - b) := div_nonneg (by norm_num at *; linarith) hd.le
    generalize (s - b) / (d - b) = r at *
    have e : a + r * (c - a) = (1 - r) * a + r * c := by ring
    have e1 : (1 - r) * a ≤ (1 - r) * 7 := mul_le_mul_of_nonneg_left a4.le (by norm_num at *; linarith)
    have e2 : r * c ≤ r * 2510 := mul_le_mul_of_nonneg_left a5.le hr0
    rw [e]; norm_num at *; linarith
  rw [if_neg (fun h => by linarith [h.1.2]), Option.getD_none, if_neg (fun h => by norm_num at *; linarith [h.2]), Option.getD_none,
    if_neg (fun h => by norm_num at *; linarith [h.2]), Option.getD_none,
    if_pos ⟨by norm_num at *; linarith, by rw [SC_WATER]; norm_num at *; linarith⟩, if_pos ⟨hmin, k3⟩, Option.getD_some]

end Hang
end If97
