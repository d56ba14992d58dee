import Verif.Lemmas.Stability
import Verif.Lemmas.TwoPhase
import Verif.Lemmas.Iv.R1b
import Verif.Lemmas.Iv.R2a
import Verif.Lemmas.Iv.R2S
import Verif.Lemmas.Iv.R2T
import Verif.Props.C27
import Mathlib.Analysis.SpecialFunctions.Log.Basic
import Mathlib.Analysis.Complex.ExponentialBounds

/-! Helper lemmas for C41: one constant separates liquid (region 1) from vapour (region 2, T ≤ 623.15 K)
for each of enthalpy, entropy and volume. -/

namespace If97
open Iv

section
variable (x y : ℝ)

theorem l1h_eq (z : ℝ) : evS l1h (7.1 - x) (y - 1.222) z = 3.126 - G1.gt x y := by
  simp only [l1h, evS_cons, cst_ev, evS_ng, G1, t1_eq, tab_j _ _ z noZ_1]; norm_num; ring
theorem l1s_eq (hy : y ≠ 0) : evS l1s (7.1 - x) (y - 1.222) y = 9.75 - (y * G1.gt x y - G1.g x y) := by
  simp only [l1s, evS_cons, cst_ev, evS_append, evS_ng, evS_mZ _ _ _ hy, G1, t1_eq, tab_j _ _ y noZ_1, tab_0 _ _ y noZ_1]
  norm_num; ring
theorem l1w_eq (z : ℝ) : evS l1w (7.1 - x) (y - 1.222) z = 0.2299 - G1.gp x y := by
  simp only [l1w, evS_cons, cst_ev, G1, t1_eq, tab_i _ _ z noZ_1]; norm_num
theorem l2h_eq : evS l2h x (y - 0.5) y = G2.gt x y - 8.03 := by
  simp only [l2h, evS_cons, cst_ev, dY_append, G2, idealGibbs, t2_eq, tab_j _ _ y noZ_2, o2_1 x]; norm_num; ring
theorem l2s_eq (hy : y ≠ 0) : evS l2s x (y - 0.5) y =
    y * G2.gt x y - (G2.g x y - Real.log x) - x / 16.53 - 11.5564 := by
  simp only [l2s, evS_cons, cst_ev, evS_append, evS_ng, evS_mZ _ _ _ hy, dY_append, G2, idealGibbs, t2_eq,
    tab_j _ _ y noZ_2, tab_0 _ _ y noZ_2, o2_0 x, o2_1 x, show SM.ev ⟨-100, 1653, 1, 0, 0⟩ x (y - 0.5) y = -100 / 1653 * x by
      simp [SM.ev]]
  norm_num; ring
theorem l2w_eq (hx : x ≠ 0) : evS l2w x (y - 0.5) y = x * G2.gp x y - 0.01605 * (x * y) := by
  simp only [l2w, evS_cons, SM.ev, l2v_eq _ _ _ hx]; norm_num; ring
theorem l2t_eq (hy : y ≠ 0) : evS l2t x (y - 0.5) y =
    y * G2.gt x y - (G2.g x y - Real.log x) - x / 50 - 12.664 := by
  simp only [l2t, evS_cons, cst_ev, evS_append, evS_ng, evS_mZ _ _ _ hy, dY_append, G2, idealGibbs, t2_eq,
    tab_j _ _ y noZ_2, tab_0 _ _ y noZ_2, o2_0 x, o2_1 x, show SM.ev ⟨-1, 50, 1, 0, 0⟩ x (y - 0.5) y = -1 / 50 * x by
      simp [SM.ev]]
  norm_num; ring
theorem l1u_eq (z : ℝ) : evS l1u (7.1 - x) (y - 1.222) z = 0.1144 - G1.gp x y := by
  simp only [l1u, evS_cons, cst_ev, G1, t1_eq, tab_i _ _ z noZ_1]; norm_num
theorem l2u_eq (hx : x ≠ 0) : evS l2u x (y - 0.5) y = x * G2.gp x y - 0.00803 * (x * y) := by
  simp only [l2u, evS_cons, SM.ev, l2v_eq _ _ _ hx]; norm_num; ring
end

theorem log_le50 {x : ℝ} (hx : 0 < x) : Real.log x ≤ x / 50 + 2.9129 := by
  have h1 := Real.log_le_sub_one_of_pos (x := x / 50) (by positivity)
  rw [Real.log_div hx.ne' (by norm_num)] at h1
  have h2 : Real.log 50 ≤ 3.9129 := by
    have e : Real.log (50 ^ 3) ≤ Real.log (2 ^ 17 * 0.954) := Real.log_le_log (by norm_num) (by norm_num)
    rw [Real.log_mul (by norm_num) (by norm_num), Real.log_pow, Real.log_pow] at e
    have h2 := Real.log_two_lt_d9
    have h3 := Real.log_le_sub_one_of_pos (x := (0.954 : ℝ)) (by norm_num)
    norm_num at e h2 h3 ⊢; linarith
  linarith

theorem log_le {x : ℝ} (hx : 0 < x) : Real.log x ≤ x / 16.53 + 1.8054 := by
  have h1 := Real.log_le_sub_one_of_pos (x := x / 16.53) (by positivity)
  rw [Real.log_div hx.ne' (by norm_num)] at h1
  have h2 : Real.log 16.53 ≤ 2.8054 := by
    have e : Real.log 16.53 ≤ Real.log (2 ^ 4 * 1.00819 ^ 4) := Real.log_le_log (by norm_num) (by norm_num)
    rw [Real.log_mul (by norm_num) (by norm_num), Real.log_pow, Real.log_pow] at e
    have h2 := Real.log_two_lt_d9
    have h3 := Real.log_le_sub_one_of_pos (x := (1.00819 : ℝ)) (by norm_num)
    norm_num at e h2 h3 ⊢; linarith
  linarith

/-- liquid: h < 2000, s < 4.5, v < 0.004 on the whole of region 1 -/
theorem liquid {p T : ℝ} (h : InRange 1 p T) : G1.H p T < 2000 ∧ G1.S p T < 4.5 ∧ G1.V p T < 0.004 := by
  rcases h with h | h | h
  · obtain ⟨-, h0, h1, h2, h3, h4⟩ := h
    obtain ⟨B, hB, hm⟩ := cover1 h1 h2 h0 h3 h4
    have hT : (0 : ℝ) < T := by linarith
    have e1 := pos_l1h_1 hB hm; have e2 := pos_l1s_1 hB hm; have e3 := pos_l1w_1 hB hm
    rw [l1h_eq] at e1; rw [sub_add_cancel, l1s_eq _ _ (by positivity)] at e2; rw [l1w_eq] at e3
    simp only [Gibbs.H, Gibbs.S, Gibbs.V, show G1.ps = 16.53 from rfl, show G1.Ts = 1386 from rfl]
    generalize G1.gt (p / 16.53) (1386 / T) = a at *
    generalize G1.gp (p / 16.53) (1386 / T) = b at *
    generalize 1386 / T * a - G1.g (p / 16.53) (1386 / T) = c at *
    refine ⟨?_, ?_, ?_⟩
    · unfold gasR; field_simp; norm_num at *; linarith
    · unfold gasR; norm_num at *; linarith
    · unfold gasR
      have : T * b < 623.15 * 0.2299 := by
        rcases le_or_gt b 0 with hb | hb
        · exact lt_of_le_of_lt (mul_nonpos_of_nonneg_of_nonpos hT.le hb) (by norm_num)
        · exact lt_of_le_of_lt (mul_le_mul_of_nonneg_right h2 hb.le) (by norm_num at *; linarith)
      norm_num at *; linarith
  all_goals omega

/-- vapour: h > 2000, s > 4.5, v > 0.004 in region 2 up to 623.15 K -/
theorem vapour {p T : ℝ} (h : InRange 2 p T) (hT' : T ≤ 623.15) :
    2000 < G2.H p T ∧ 4.5 < G2.S p T ∧ 0.004 < G2.V p T := by
  have hp := h.p_pos
  rcases h with h | h | h
  · omega
  · obtain ⟨-, h0, h1, h2, h3, h4, h5⟩ := h
    obtain ⟨B, hB, hm⟩ := cover2a h1 hT' h0.le (h4 hT')
    have hT : (0 : ℝ) < T := by linarith
    have e1 := pos_l2h_2a hB hm; have e2 := pos_l2s_2a hB hm; have e3 := pos_l2w_2a hB hm
    rw [sub_add_cancel, l2h_eq] at e1; rw [sub_add_cancel, l2s_eq _ _ (by positivity)] at e2
    rw [sub_add_cancel, l2w_eq _ _ hp.ne'] at e3
    have hl := log_le hp
    simp only [Gibbs.H, Gibbs.S, Gibbs.V, show G2.ps = 1 from rfl, show G2.Ts = 540 from rfl, div_one]
    generalize G2.gt p (540 / T) = a at *
    generalize G2.gp p (540 / T) = b at *
    refine ⟨?_, ?_, ?_⟩
    · unfold gasR; field_simp; norm_num at *; linarith
    · unfold gasR
      have : (9.751 : ℝ) < 540 / T * a - G2.g p (540 / T) := by norm_num at *; linarith
      norm_num at *; linarith
    · have e4 : 0 < p * (b - 0.01605 * (540 / T)) := by linarith
      have e5 := (pos_iff_pos_of_mul_pos e4).1 hp
      have e6 : 0.01605 * 540 < T * b := by
        have : 0.01605 * (540 / T) < b := by linarith
        calc (0.01605 * 540 : ℝ) = T * (0.01605 * (540 / T)) := by field_simp
          _ < T * b := mul_lt_mul_of_pos_left this hT
      unfold gasR; norm_num at *; linarith
  · omega

/-- vapour: h > 2000, s > 4.5, v > 0.002 on the whole of region 2 -/
theorem vapour_all {p T : ℝ} (h : InRange 2 p T) : 2000 < G2.H p T ∧ 4.5 < G2.S p T ∧ 0.002 < G2.V p T := by
  rcases le_or_gt T 623.15 with hT' | hT'
  · obtain ⟨a, b, c⟩ := vapour h hT'
    exact ⟨a, b, by norm_num at *; linarith⟩
  have hp := h.p_pos
  have hT := h.T_pos
  rcases h with h | h | h
  · omega
  · obtain ⟨-, h0, h1, h2, h3, h4, h5⟩ := h
    obtain ⟨B, hB, hm⟩ := cover2b hT'.le h2 h0.le h3 (h5 hT')
    have e1 := pos_l2h_2b hB hm; have e2 := pos_l2t_2b hB hm; have e3 := pos_l2u_2b hB hm
    rw [sub_add_cancel, l2h_eq] at e1; rw [sub_add_cancel, l2t_eq _ _ (by positivity)] at e2
    rw [sub_add_cancel, l2u_eq _ _ hp.ne'] at e3
    have hl := log_le50 hp
    simp only [Gibbs.H, Gibbs.S, Gibbs.V, show G2.ps = 1 from rfl, show G2.Ts = 540 from rfl, div_one]
    generalize G2.gt p (540 / T) = a at *
    generalize G2.gp p (540 / T) = b at *
    refine ⟨?_, ?_, ?_⟩
    · unfold gasR; field_simp; norm_num at *; linarith
    · unfold gasR
      have : (9.751 : ℝ) < 540 / T * a - G2.g p (540 / T) := by norm_num at *; linarith
      norm_num at *; linarith
    · have e4 : 0 < p * (b - 0.00803 * (540 / T)) := by linarith
      have e5 := (pos_iff_pos_of_mul_pos e4).1 hp
      have e6 : 0.00803 * 540 < T * b := by
        have : 0.00803 * (540 / T) < b := by linarith
        calc (0.00803 * 540 : ℝ) = T * (0.00803 * (540 / T)) := by field_simp
          _ < T * b := mul_lt_mul_of_pos_left this hT
      unfold gasR; norm_num at *; linarith
  · omega

/-- the liquid at 350 °C -/
theorem liquid_623 {p : ℝ} (h1 : 16.5 ≤ p) (h2 : p ≤ 100) : G1.V p 623.15 < 0.002 := by
  obtain ⟨B, hB, hm⟩ := cover1p h1 h2
  have e3 := pos_l1u_1p hB hm
  rw [l1u_eq] at e3
  simp only [Gibbs.V, show G1.ps = 16.53 from rfl, show G1.Ts = 1386 from rfl]
  generalize G1.gp (p / 16.53) (1386 / 623.15) = b at *
  unfold gasR; norm_num at *; linarith

theorem inRange1 {p T : ℝ} (h1 : 273.15 ≤ T) (h2 : T ≤ 623.15) (h3 : Sat.psat T ≤ p) (h4 : p ≤ 100) : InRange 1 p T :=
  .inl ⟨rfl, (Sat.psat_pos T).trans_le h3, by norm_num at *; linarith, h2, by norm_num at *; linarith, h4⟩

theorem inRange2 {p T : ℝ} (h0 : 0 < p) (h1 : 273.15 ≤ T) (h2 : T ≤ 1073.15) (h3 : p ≤ 100) (h4 : T ≤ 623.15 → p ≤ Sat.psat T)
    (h5 : 623.15 < T → T ≤ 863.15 → p ≤ Domain.pB23 T) : InRange 2 p T :=
  .inr (.inl ⟨rfl, h0, by norm_num at *; linarith, h2, by norm_num; linarith, fun h => by have := h4 h; norm_num; linarith,
    fun h h' => by have := h5 h h'; norm_num; linarith⟩)

theorem B23_p2T_eq (p : ℝ) : B23_p2T p = Domain.TB23 p := by
  simp only [B23_p2T, nthF, B23_p2T_n23, List.getD_cons_succ, List.getD_cons_zero, real_powf, Domain.TB23, Real.sqrt_eq_rpow]
  norm_num
theorem B23_T2p_eq (T : ℝ) : B23_T2p T = Domain.pB23 T := by
  simp only [B23_T2p, nthF, B23_T2p_n23, List.getD_cons_succ, List.getD_cons_zero, Domain.pB23]; norm_num; ring

/-- the isobar of region 2 above the 350 °C saturation pressure starts at B23 -/
theorem inRange_isobar_high {p : ℝ} (h1 : 16.5291642526045 < p) (h2 : p ≤ 100) :
    InRange 1 p 273.15 ∧ InRange 1 p 623.15 ∧ InRange 2 p (Domain.TB23 p) ∧ InRange 2 p 1073.15 ∧ Domain.TB23 p < 1073.15 := by
  have hp : 0 < p := lt_trans (by norm_num) h1
  have h3' : p ≤ 100.0000001 := by norm_num; linarith
  have hr := C27_p_T_p p (by norm_num at *; linarith) h2
  rw [B23_p2T_eq, B23_T2p_eq, abs_le] at hr
  have lo : 623.1499999 ≤ Domain.TB23 p := by
    have : (50.605401372 : ℝ) ≤ Real.sqrt ((p - 13.91883977887) / 0.0010192970039326) := by
      apply Real.le_sqrt_of_sq_le
      rw [le_div_iff₀ (by norm_num)]; norm_num at *; linarith
    unfold Domain.TB23; norm_num at *; linarith
  have hi : Domain.TB23 p < 1073.15 := by
    have : Real.sqrt ((p - 13.91883977887) / 0.0010192970039326) < 500 := by
      rw [Real.sqrt_lt' (by norm_num), div_lt_iff₀ (by norm_num)]; norm_num at *; linarith
    unfold Domain.TB23; norm_num at *; linarith
  have q : (16.5291642 : ℝ) < Sat.psat 623.1499999 := by
    refine lt_trans ?_ (Sat.lt_psat (b := 2.0163351616) (by norm_num) ?_ (by norm_num) ?_)
    · norm_num
    · unfold Sat.qA Sat.qB Sat.th; norm_num
    · unfold Sat.Qf Sat.qA Sat.qB Sat.qC Sat.th; norm_num
  have m := Sat.psat_min.2
  have m' := Sat.psat_623.2
  refine ⟨.inl ⟨rfl, hp, by norm_num, by norm_num, by norm_num at *; linarith, h2⟩,
    .inl ⟨rfl, hp, by norm_num, le_rfl, by norm_num at *; linarith, h2⟩,
    .inr (.inl ⟨rfl, hp, by norm_num at *; linarith, hi.le, h3', fun h => ?_, fun h _ => ?_⟩),
    .inr (.inl ⟨rfl, hp, by norm_num, le_rfl, h3', fun h => ?_, fun _ h => ?_⟩), hi⟩
  · have e := psat_mono (by norm_num) lo h
    have e2 : Domain.pB23 (Domain.TB23 p) ≤ Domain.pB23 623.15 := by unfold Domain.pB23; norm_num at *; nlinarith
    have e3 : Domain.pB23 623.15 ≤ 16.5291642527 := by unfold Domain.pB23; norm_num
    norm_num at *; linarith
  · norm_num at *; linarith
  all_goals norm_num at h

/-- the two ends of an isobar of the saturation curve -/
theorem inRange_sat {T : ℝ} (h1 : 273.15 ≤ T) (h2 : T ≤ 623.15) :
    InRange 1 (Sat.psat T) T ∧ InRange 2 (Sat.psat T) T := by
  have h : Sat.psat T ≤ 100 := by
    have := (psat_mono (by norm_num at *; linarith) h2 le_rfl).trans Sat.psat_623.2.le
    norm_num at *; linarith
  exact ⟨inRange1 h1 h2 le_rfl h, inRange2 (Sat.psat_pos T) h1 (by norm_num at *; linarith) h (fun _ => le_rfl)
    fun h => absurd h2 (not_le.2 h)⟩

namespace TwoPhase
open Set

theorem L_low {p T : ℝ} (h : T ≤ 623.15) (hr : Regular 1 p T) : L p T OV = G1.V p T ∧ L p T OH = G1.H p T ∧ L p T OS = G1.S p T ∧
    L p T OD = 1.0 / G1.V p T := by
  have hr' : Regular 1 p (T - 273.15 + 273.15) := by rwa [sub_add_cancel]
  have e := val_V (.inl rfl) hr'
  have e2 := val_H (.inl rfl) hr'
  have e3 := val_S (.inl rfl) hr'
  have e4 := val_D (.inl rfl) hr'
  have k : ∀ o, o = OV ∨ o = OH ∨ o = OS ∨ o = OD → valPT 1 o p (T - 273.15) = L p T o := by
    intro o ho
    have : valPT 1 o p (T - 273.15) = pT_reg1 p (T - 273.15 + 273.15) o := by rcases ho with rfl | rfl | rfl | rfl <;> rfl
    rw [this, sub_add_cancel, L, if_neg (not_lt.2 h)]
  rw [sub_add_cancel] at e e2 e3 e4
  rw [← k OV (.inl rfl), ← k OH (.inr (.inl rfl)), ← k OS (.inr (.inr (.inl rfl))), ← k OD (.inr (.inr (.inr rfl)))]
  exact ⟨e, e2, e3, e4⟩

theorem V_low {p T : ℝ} (h : T ≤ 623.15) (hr : Regular 2 p T) : V p T OV = G2.V p T ∧ V p T OH = G2.H p T ∧ V p T OS = G2.S p T ∧
    V p T OD = 1.0 / G2.V p T := by
  have hr' : Regular 2 p (T - 273.15 + 273.15) := by rwa [sub_add_cancel]
  have e := val_V (.inr (.inl rfl)) hr'
  have e2 := val_H (.inr (.inl rfl)) hr'
  have e3 := val_S (.inr (.inl rfl)) hr'
  have e4 := val_D (.inr (.inl rfl)) hr'
  have k : ∀ o, o = OV ∨ o = OH ∨ o = OS ∨ o = OD → valPT 2 o p (T - 273.15) = V p T o := by
    intro o ho
    have : valPT 2 o p (T - 273.15) = pT_reg2 p (T - 273.15 + 273.15) o := by rcases ho with rfl | rfl | rfl | rfl <;> rfl
    rw [this, sub_add_cancel, V, if_neg (not_lt.2 h)]
  rw [sub_add_cancel] at e e2 e3 e4
  rw [← k OV (.inl rfl), ← k OH (.inr (.inl rfl)), ← k OS (.inr (.inr (.inl rfl))), ← k OD (.inr (.inr (.inr rfl)))]
  exact ⟨e, e2, e3, e4⟩

/-- the outputs from which a quality is computed -/
def QualityOf (o : Int) : Prop := o = Doc.idV ∨ o = Doc.idH ∨ o = Doc.idS

theorem QualityOf.mixed {o : Int} (h : QualityOf o) : Mixed o := by
  rcases h with rfl | rfl | rfl <;> decide

/-- saturated liquid below saturated vapour, T ≤ 623.15 K -/
theorem L_lt_V {T : ℝ} (h1 : 273.15 ≤ T) (h2 : T ≤ 623.15) {o : Int} (ho : QualityOf o) :
    L (Sat.psat T) T o < V (Sat.psat T) T o := by
  obtain ⟨r1, r2⟩ := inRange_sat h1 h2
  obtain ⟨a1, a2, a3, -⟩ := L_low h2 r1.regular
  obtain ⟨b1, b2, b3, -⟩ := V_low h2 r2.regular
  obtain ⟨c1, c2, c3⟩ := liquid r1
  obtain ⟨d1, d2, d3⟩ := vapour r2 h2
  rcases ho with rfl | rfl | rfl
  · rw [show Doc.idV = OV from rfl, a1, b1]; linarith
  · rw [show Doc.idH = OH from rfl, a2, b2]; linarith
  · rw [show Doc.idS = OS from rfl, a3, b3]; linarith

/-- the pressures of the saturation curve from 0 °C to 350 °C -/
theorem sat_low {p : ℝ} (h1 : 0.000611212677445 ≤ p) (h2 : p ≤ 16.5291642526045) :
    273.15 ≤ T_saturation p ∧ T_saturation p ≤ 623.15 ∧ Sat.psat (T_saturation p) = p := by
  have h1' : (0.000611212677444 : ℝ) ≤ p := by norm_num at *; linarith
  have h2' : p ≤ 22.064 := by norm_num at *; linarith
  refine ⟨?_, not_lt.1 (low h1' h2), (sat_T h1' h2').2⟩
  by_contra h
  push Not at h
  have := (sat_T_le h1' h2' (T := 273.15) (by norm_num)).1 h.le
  have := Sat.psat_min.2
  norm_num at *; linarith

/-- psat 1e-7 K below 0 °C -/
theorem psat_below : Sat.psat 273.1499999 < 0.000611212677444 := by
  refine lt_trans (Sat.psat_lt (b := 0.1572345884) (by norm_num) ?_ ?_) ?_
  · unfold Sat.qA Sat.qB Sat.th; norm_num
  · unfold Sat.Qf Sat.qA Sat.qB Sat.qC Sat.th; norm_num
  · norm_num

/-- the two ends of the part of an isobar below 350 °C: 0 °C, saturation, 800 °C -/
theorem inRange_isobar_low {p : ℝ} (h1 : 0.000611212677444 ≤ p) (h2 : p ≤ 16.5291642526045) :
    InRange 1 p 273.15 ∧ InRange 1 p (T_saturation p) ∧ InRange 2 p (T_saturation p) ∧ InRange 2 p 1073.15 ∧
      Sat.psat (T_saturation p) = p ∧ T_saturation p ≤ 623.15 := by
  have h2' : p ≤ 22.064 := by norm_num at *; linarith
  have hp : 0 < p := lt_of_lt_of_le (by norm_num) h1
  have b : T_saturation p ≤ 623.15 := not_lt.1 (low h1 h2)
  have c : Sat.psat (T_saturation p) = p := (sat_T h1 h2').2
  have a : 273.1499999 ≤ T_saturation p := by
    by_contra h
    push Not at h
    have := (sat_T_le h1 h2' (T := 273.1499999) (by norm_num)).1 h.le
    have := psat_below
    norm_num at *; linarith
  have m := Sat.psat_min.2
  have e : (0 : ℝ) ≤ 1e-7 := by norm_num
  have h3 : p ≤ 100 := by norm_num at *; linarith
  have h3' : p ≤ 100.0000001 := by norm_num; linarith
  refine ⟨.inl ⟨rfl, hp, by norm_num, by norm_num, ?_, h3⟩, .inl ⟨rfl, hp, a, b, by rw [c]; linarith, h3⟩,
    .inr (.inl ⟨rfl, hp, a, by norm_num at *; linarith, h3', fun _ => by rw [c]; linarith, fun h => absurd b (not_le.2 h)⟩),
    .inr (.inl ⟨rfl, hp, by norm_num, le_rfl, h3', fun h => ?_, fun _ h => ?_⟩), c, b⟩
  · norm_num at *; linarith
  all_goals norm_num at h

end TwoPhase
end If97
