import Verif.Spec.Thermo
import Mathlib.Topology.Order.IntermediateValue
import Mathlib.Topology.Instances.Real.Lemmas
import Mathlib.Analysis.SpecialFunctions.Sqrt
import Mathlib.Topology.Order.MonotoneContinuity
import Mathlib.Analysis.SpecialFunctions.Pow.Continuity

/-! Helper lemmas for C25, C26 and the region maps: the saturation equation of IF97 on the reals. -/

namespace If97
namespace Sat
open Set

/-- ϑ(T) -/
noncomputable def th (T : ℝ) : ℝ := T + -0.23855557567849 / (T - 650.17534844798)
/-- coefficients of the quadratic in β -/
noncomputable def qA (x : ℝ) : ℝ := x * (x + 1167.0521452767) + -724213.16703206
noncomputable def qB (x : ℝ) : ℝ := x * (-17.073846940092 * x + 12020.824702470) + -3232555.0322333
noncomputable def qC (x : ℝ) : ℝ := x * (14.915108613530 * x + -4823.2657361591) + 405113.40542057
noncomputable def qD (x : ℝ) : ℝ := qB x * qB x - 4 * qA x * qC x
/-- coefficients of the quadratic in ϑ -/
noncomputable def qE (b : ℝ) : ℝ := b * (b + -17.073846940092) + 14.915108613530
noncomputable def qF (b : ℝ) : ℝ := b * (1167.0521452767 * b + 12020.824702470) + -4823.2657361591
noncomputable def qG (b : ℝ) : ℝ := b * (-724213.16703206 * b + -3232555.0322333) + 405113.40542057
/-- the saturation equation -/
noncomputable def Qf (b x : ℝ) : ℝ := qA x * b ^ 2 + qB x * b + qC x
/-- β as the code computes it -/
noncomputable def bt (x : ℝ) : ℝ := 2 * qC x / (-qB x + Real.sqrt (qD x))

theorem Qf_eq (b x : ℝ) : Qf b x = qE b * x ^ 2 + qF b * x + qG b := by
  unfold Qf qA qB qC qE qF qG; norm_num; ring

theorem qB_neg (x : ℝ) : qB x < 0 := by
  unfold qB; norm_num; nlinarith [sq_nonneg (x - 352)]
theorem qC_pos (x : ℝ) : 0 < qC x := by
  unfold qC; norm_num; nlinarith [sq_nonneg (x - 161.69)]

theorem qD_pos {x : ℝ} (h1 : 273 ≤ x) (h2 : x ≤ 649) : 0 < qD x := by
  have e : qD x = (110090581603844429670455650217669639/1249198336000000000000000000000000)*(x-(273))^0*((649)-x)^4 + (89084401333273389940955273273327107/312299584000000000000000000000000)*(x-(273))^1*((649)-x)^3 + (404182503864408423698121238274277373/624599168000000000000000000000000)*(x-(273))^2*((649)-x)^2 + (74565171256543709538589978668959483/312299584000000000000000000000000)*(x-(273))^3*((649)-x)^1 + (25776599166088695383808695116197879/1249198336000000000000000000000000)*(x-(273))^4*((649)-x)^0 := by
    unfold qD qA qB qC; norm_num; ring
  rw [e]
  have h1' : 0 ≤ x - 273 := by linarith
  have h2' : 0 ≤ 649 - x := by linarith
  rcases eq_or_lt_of_le h1' with h | h
  · rw [← h]; have : 0 < 649 - x := by linarith
    positivity
  · positivity

theorem den_pos (x : ℝ) : 0 < -qB x + Real.sqrt (qD x) := by
  have := qB_neg x; have := Real.sqrt_nonneg (qD x); linarith
theorem bt_pos (x : ℝ) : 0 < bt x := by
  unfold bt; have := den_pos x; have := qC_pos x; positivity

theorem bt_slope {x : ℝ} (h1 : 273 ≤ x) (h2 : x ≤ 649) : 2 * qA x * bt x + qB x = -Real.sqrt (qD x) := by
  have hs := Real.sq_sqrt (qD_pos h1 h2).le
  have hd := den_pos x
  unfold bt
  field_simp
  have : Real.sqrt (qD x) ^ 2 = qB x * qB x - 4 * qA x * qC x := hs
  nlinarith

theorem bt_root {x : ℝ} (h1 : 273 ≤ x) (h2 : x ≤ 649) : Qf (bt x) x = 0 := by
  have hs : Real.sqrt (qD x) ^ 2 = qB x * qB x - 4 * qA x * qC x := Real.sq_sqrt (qD_pos h1 h2).le
  have hd := den_pos x
  unfold Qf bt
  field_simp
  linear_combination (qC x) * hs

/-- comparing β with a number by the sign of the quadratic -/
theorem bt_lt {x b : ℝ} (h1 : 273 ≤ x) (h2 : x ≤ 649) (hb : 2 * qA x * b + qB x < 0) (hq : Qf b x < 0) : bt x < b := by
  have hr := bt_root h1 h2
  have hs := bt_slope h1 h2
  have h0 : 0 ≤ Real.sqrt (qD x) := Real.sqrt_nonneg _
  by_contra h
  push Not at h
  have e : Qf b x - Qf (bt x) x = (b - bt x) * (((2 * qA x * b + qB x) + (2 * qA x * bt x + qB x)) / 2) := by
    unfold Qf; ring
  have : 0 ≤ (b - bt x) * (((2 * qA x * b + qB x) + (2 * qA x * bt x + qB x)) / 2) :=
    mul_nonneg_of_nonpos_of_nonpos (by linarith) (by linarith)
  linarith
theorem lt_bt {x b : ℝ} (h1 : 273 ≤ x) (h2 : x ≤ 649) (hb : 2 * qA x * b + qB x < 0) (hq : 0 < Qf b x) : b < bt x := by
  have hr := bt_root h1 h2
  have hs := bt_slope h1 h2
  have h0 : 0 ≤ Real.sqrt (qD x) := Real.sqrt_nonneg _
  by_contra h
  push Not at h
  have e : Qf b x - Qf (bt x) x = (b - bt x) * (((2 * qA x * b + qB x) + (2 * qA x * bt x + qB x)) / 2) := by
    unfold Qf; ring
  have : (b - bt x) * (((2 * qA x * b + qB x) + (2 * qA x * bt x + qB x)) / 2) ≤ 0 :=
    mul_nonpos_of_nonneg_of_nonpos (by linarith) (by linarith)
  linarith

/-- ∂Q/∂ϑ > 0 -/
theorem slope_x {m b : ℝ} (h1 : 273 ≤ m) (h2 : m ≤ 649) (hb : 0 ≤ b) : 0 < 2 * qE b * m + qF b := by
  have e : 2 * qE b * m + qF b = (2 * m + 1167.0521452767) * b ^ 2 +
      (-34.147693880184 * m + 12020.824702470) * b + (29.83021722706 * m - 4823.2657361591) := by
    unfold qE qF; norm_num; ring
  rw [e]
  have hA : 0 < 2 * m + 1167.0521452767 := by linarith
  have hC : 0 < 29.83021722706 * m - 4823.2657361591 := by norm_num; linarith
  by_cases hm : m ≤ 352
  · have hB : 0 ≤ -34.147693880184 * m + 12020.824702470 := by norm_num; linarith
    positivity
  · push Not at hm
    have hd : (-34.147693880184 * m + 12020.824702470) ^ 2 < 4 * (2 * m + 1167.0521452767) * (29.83021722706 * m - 4823.2657361591) := by
      norm_num; nlinarith [mul_nonneg (sub_nonneg.mpr hm.le) (sub_nonneg.mpr h2)]
    generalize 2 * m + 1167.0521452767 = a at *
    generalize -34.147693880184 * m + 12020.824702470 = c at *
    generalize 29.83021722706 * m - 4823.2657361591 = d at *
    by_contra h
    push Not at h
    nlinarith [sq_nonneg (2 * a * b + c)]

theorem Qf_strictMono {b x y : ℝ} (hb : 0 ≤ b) (h1 : 273 ≤ x) (h : x < y) (h2 : y ≤ 649) : Qf b x < Qf b y := by
  have hs := slope_x (m := (x + y) / 2) (by linarith) (by linarith) hb
  rw [Qf_eq, Qf_eq]
  nlinarith [mul_pos (sub_pos.mpr h) hs]

theorem bt_injOn : InjOn bt (Icc 273 649) := by
  intro x hx y hy h
  have r1 := bt_root hx.1 hx.2
  have r2 := bt_root hy.1 hy.2
  have hb := (bt_pos x).le
  rcases lt_trichotomy x y with h' | h' | h'
  · have := Qf_strictMono hb hx.1 h' hy.2; rw [← h] at r2; linarith
  · exact h'
  · have := Qf_strictMono hb hy.1 h' hx.2; rw [← h] at r2; linarith

theorem bt_continuous : Continuous bt := by
  unfold bt
  refine Continuous.div ?_ ?_ fun x => (den_pos x).ne'
  · unfold qC; fun_prop
  · unfold qD qA qB qC; fun_prop

theorem bt_273 : bt 273 < 0.1572 := by
  refine bt_lt (by norm_num) (by norm_num) ?_ ?_
  · unfold qA qB; norm_num
  · unfold Qf qA qB qC; norm_num
theorem bt_649 : 2.17 < bt 649 := by
  refine lt_bt (by norm_num) (by norm_num) ?_ ?_
  · unfold qA qB; norm_num
  · unfold Qf qA qB qC; norm_num

theorem bt_strictMonoOn : StrictMonoOn bt (Icc 273 649) :=
  ContinuousOn.strictMonoOn_of_injOn_Icc (by norm_num) (by linarith [bt_273, bt_649])
    bt_continuous.continuousOn bt_injOn

/-! ### ϑ(T) -/

theorem th_gt {T : ℝ} (h : T < 650) : T < th T := by
  unfold th
  have : 0 < -0.23855557567849 / (T - 650.17534844798) :=
    div_pos_of_neg_of_neg (by norm_num) (by norm_num; linarith)
  linarith
theorem th_strictMonoOn : StrictMonoOn th (Iio 650) := by
  intro x hx y hy h
  simp only [mem_Iio] at hx hy
  have h1 : x - 650.17534844798 < 0 := by norm_num; linarith
  have h2 : y - 650.17534844798 < 0 := by norm_num; linarith
  have h3 : 1 / (y - 650.17534844798) < 1 / (x - 650.17534844798) :=
    one_div_lt_one_div_of_neg_of_lt h2 (by linarith)
  unfold th
  rw [div_eq_mul_one_div, div_eq_mul_one_div (-0.23855557567849) (y - 650.17534844798)]
  nlinarith
theorem th_mem {T : ℝ} (h : T ∈ Icc (273 : ℝ) 648) : th T ∈ Icc (273 : ℝ) 649 := by
  obtain ⟨h1, h2⟩ := h
  constructor
  · have := th_gt (T := T) (by linarith); linarith
  · have : th 648 ≤ 649 := by unfold th; norm_num
    exact le_trans (th_strictMonoOn.monotoneOn (by simp only [mem_Iio]; linarith) (by norm_num) h2) this
theorem th_continuousOn : ContinuousOn th (Icc 273 648) := by
  unfold th
  refine continuousOn_id.add (ContinuousOn.div continuousOn_const (by fun_prop) fun x hx => ?_)
  have := hx.2; intro h; norm_num at h; linarith

/-- the saturation pressure without the range check -/
noncomputable def psat (T : ℝ) : ℝ := bt (th T) ^ 4

theorem psat_pos (T : ℝ) : 0 < psat T := by unfold psat; have := bt_pos (th T); positivity
theorem psat_strictMonoOn : StrictMonoOn psat (Icc 273 648) := by
  intro x hx y hy h
  have h1 := th_strictMonoOn (show x ∈ Iio 650 by simp only [mem_Iio]; linarith [hx.2])
    (show y ∈ Iio 650 by simp only [mem_Iio]; linarith [hy.2]) h
  have h2 := bt_strictMonoOn (th_mem hx) (th_mem hy) h1
  exact pow_lt_pow_left₀ h2 (bt_pos _).le (by norm_num)
theorem psat_continuousOn : ContinuousOn psat (Icc 273 648) := by
  unfold psat
  exact (bt_continuous.comp_continuousOn th_continuousOn).pow 4

/-! ### the code -/

theorem p_saturation_eq (T : ℝ) : p_saturation T = if T < 273.15 ∨ T > 647.096 then -9999 else psat T := by
  simp only [p_saturation, T_MAX4, real_lt, ofI32, real_ofInt, INVALID_VALUE, Bool.or_eq_true, decide_eq_true_eq]
  refine if_congr Iff.rfl (by norm_num) ?_
  have e2 : (2.0 : ℝ) = 2 := by norm_num
  have e4 : (4.0 : ℝ) = 4 := by norm_num
  simp only [psat, bt, qD, qA, qB, qC, th, nthF, r4_n, List.getD_cons_succ, List.getD_cons_zero, fsqrt, real_sqrt,
    real_powi, e2, e4]
  norm_num [zpow_ofNat]

/-- the saturation temperature without the range check, in terms of β -/
noncomputable def dco (b : ℝ) : ℝ := 2 * qG b / (-qF b - Real.sqrt (qF b * qF b - 4 * qE b * qG b))
noncomputable def tsat (b : ℝ) : ℝ := 0.5 * (650.17534844798 + dco b - Real.sqrt ((650.17534844798 + dco b) *
  (650.17534844798 + dco b) - 4 * (-0.23855557567849 + 650.17534844798 * dco b)))

theorem T_saturation_eq (p : ℝ) : T_saturation p =
    if p < 0.000611212677 ∨ p > 22.064 then -9999 else tsat (p ^ (0.25 : ℝ)) := by
  simp only [T_saturation, real_lt, ofI32, real_ofInt, INVALID_VALUE, Bool.or_eq_true, decide_eq_true_eq]
  refine if_congr Iff.rfl (by norm_num) ?_
  have e2 : (2.0 : ℝ) = 2 := by norm_num
  have e4 : (4.0 : ℝ) = 4 := by norm_num
  simp only [tsat, dco, qE, qF, qG, nthF, r4_n, List.getD_cons_succ, List.getD_cons_zero, fsqrt, real_sqrt, real_powf,
    e2, e4]

theorem dco_bt {x : ℝ} (h : x ∈ Icc (273 : ℝ) 649) (hb : 0.13 ≤ bt x) : dco (bt x) = x := by
  have hr := bt_root h.1 h.2
  rw [Qf_eq] at hr
  have hs := slope_x h.1 h.2 (bt_pos x).le
  have hG : qG (bt x) < 0 := by unfold qG; norm_num at hb ⊢; nlinarith
  have hx : 0 < x := by linarith [h.1]
  unfold dco
  generalize qE (bt x) = E at *
  generalize qF (bt x) = F at *
  generalize qG (bt x) = G at *
  have hd : F * F - 4 * E * G = (2 * E * x + F) ^ 2 := by linear_combination (-4 * E) * hr
  rw [hd, Real.sqrt_sq hs.le]
  have hne : -F - (2 * E * x + F) = 2 * G / x := by
    rw [eq_div_iff hx.ne']; linear_combination (-2) * hr
  rw [hne]
  field_simp [hG.ne]

theorem tsat_bt {T : ℝ} (h : T ∈ Icc (273 : ℝ) 648) (hb : 0.13 ≤ bt (th T)) : tsat (bt (th T)) = T := by
  have hd := dco_bt (th_mem h) hb
  have hlt := th_gt (T := T) (by linarith [h.2])
  unfold tsat
  rw [hd]
  have hT : T - 650.17534844798 ≠ 0 := by have := h.2; intro h; norm_num at h; linarith
  have he : (th T - T) * (T - 650.17534844798) = -0.23855557567849 := by
    unfold th; field_simp; ring
  have hq : (650.17534844798 + th T) * (650.17534844798 + th T) - 4 * (-0.23855557567849 + 650.17534844798 * th T) =
      (650.17534844798 + th T - 2 * T) ^ 2 := by
    rw [← he]; ring
  have hn : 0 ≤ 650.17534844798 + th T - 2 * T := by have := h.2; norm_num; linarith
  rw [hq, Real.sqrt_sq hn]
  norm_num
  ring

theorem rpow_psat (T : ℝ) : psat T ^ (0.25 : ℝ) = bt (th T) := by
  unfold psat
  rw [← Real.rpow_natCast, ← Real.rpow_mul (bt_pos _).le]
  norm_num

/-- every pressure of the accepted range is the saturation pressure of one temperature -/
theorem exists_T {p : ℝ} (h1 : 0.000611212677 ≤ p) (h2 : p ≤ 22.064) : ∃ T ∈ Icc (273 : ℝ) 648, psat T = p := by
  have ha : psat 273 ≤ p := by
    have h : bt (th 273) < 0.1572 := by
      refine bt_lt (th_mem (by norm_num)).1 (th_mem (by norm_num)).2 ?_ ?_
      · unfold qA qB th; norm_num
      · unfold Qf qA qB qC th; norm_num
    have := pow_lt_pow_left₀ h (bt_pos _).le (show (4 : ℕ) ≠ 0 by norm_num)
    unfold psat
    refine le_trans this.le (le_trans ?_ h1); norm_num
  have hb : p ≤ psat 648 := by
    have h : 2.17 < bt (th 648) := by
      refine lt_bt (th_mem (by norm_num)).1 (th_mem (by norm_num)).2 ?_ ?_
      · unfold qA qB th; norm_num
      · unfold Qf qA qB qC th; norm_num
    have := pow_lt_pow_left₀ h (by norm_num) (show (4 : ℕ) ≠ 0 by norm_num)
    unfold psat
    refine le_trans h2 (le_trans ?_ this.le); norm_num
  have := intermediate_value_Icc (by norm_num) psat_continuousOn
  obtain ⟨T, hT, e⟩ := this ⟨ha, hb⟩
  exact ⟨T, hT, e⟩

theorem bt_ge {T : ℝ} (h : 0.000611212677 ≤ psat T) : 0.13 ≤ bt (th T) := by
  by_contra hb
  push Not at hb
  have := pow_lt_pow_left₀ hb (bt_pos _).le (show (4 : ℕ) ≠ 0 by norm_num)
  unfold psat at h
  norm_num at h this
  linarith

/-- the code's saturation temperature is the inverse of `psat` on the accepted range -/
theorem T_saturation_psat {T : ℝ} (hT : T ∈ Icc (273 : ℝ) 648) (h1 : 0.000611212677 ≤ psat T) (h2 : psat T ≤ 22.064) :
    T_saturation (psat T) = T := by
  rw [T_saturation_eq, if_neg (by push Not; exact ⟨h1, h2⟩), rpow_psat, tsat_bt hT (bt_ge h1)]

/-! ### bounds at particular temperatures -/
section
variable {T b : ℝ} (hT : T ∈ Icc (273 : ℝ) 648) (hb : 2 * qA (th T) * b + qB (th T) < 0)
include hT hb
theorem psat_lt (hq : Qf b (th T) < 0) : psat T < b ^ 4 :=
  pow_lt_pow_left₀ (bt_lt (th_mem hT).1 (th_mem hT).2 hb hq) (bt_pos _).le (by norm_num)
theorem lt_psat (h0 : 0 ≤ b) (hq : 0 < Qf b (th T)) : b ^ 4 < psat T :=
  pow_lt_pow_left₀ (lt_bt (th_mem hT).1 (th_mem hT).2 hb hq) h0 (by norm_num)
end

/-- p_sat(273.15 K) lies between P_MIN and a bound 1e-15 above it -/
theorem psat_min : 0.000611212677444 < psat 273.15 ∧ psat 273.15 < 0.000611212677445 := by
  constructor
  · refine lt_trans ?_ (lt_psat (b := 0.15723458849291) (by norm_num) ?_ (by norm_num) ?_)
    · norm_num
    · unfold qA qB th; norm_num
    · unfold Qf qA qB qC th; norm_num
  · refine lt_trans (psat_lt (b := 0.15723458849296) (by norm_num) ?_ ?_) ?_
    · unfold qA qB th; norm_num
    · unfold Qf qA qB qC th; norm_num
    · norm_num
/-- p_sat at the critical temperature exceeds the upper limit 22.064 MPa -/
theorem psat_max : 22.064 < psat 647.096 ∧ psat 647.096 < 22.064000001 := by
  constructor
  · refine lt_trans ?_ (lt_psat (b := 2.1673101366) (by norm_num) ?_ (by norm_num) ?_)
    · norm_num
    · unfold qA qB th; norm_num
    · unfold Qf qA qB qC th; norm_num
  · refine lt_trans (psat_lt (b := 2.16731013661) (by norm_num) ?_ ?_) ?_
    · unfold qA qB th; norm_num
    · unfold Qf qA qB qC th; norm_num
    · norm_num
/-- p_sat(623.15 K) against the constants of the code -/
theorem psat_623 : 16.5291642526045 < psat 623.15 ∧ psat 623.15 < 16.5291642526047 := by
  constructor
  · refine lt_trans ?_ (lt_psat (b := 2.016335162802308) (by norm_num) ?_ (by norm_num) ?_)
    · norm_num
    · unfold qA qB th; norm_num
    · unfold Qf qA qB qC th; norm_num
  · refine lt_trans (psat_lt (b := 2.016335162802312) (by norm_num) ?_ ?_) ?_
    · unfold qA qB th; norm_num
    · unfold Qf qA qB qC th; norm_num
    · norm_num

/-! ### the public calls -/

theorem tx_P {t x : ℝ} (h1 : 0 ≤ t) (h2 : t ≤ 373.946) (hx : x ∈ Icc (0 : ℝ) 1) :
    FnX.tx.call t x Doc.idP = some (psat (t + 273.15)) := by
  have hT : ¬ (t + 273.15 < 273.15 ∨ t + 273.15 > 647.096) := by
    push Not; constructor <;> [linarith; (norm_num at h2 ⊢; linarith)]
  have hg : ((t + 273.15 >. (T_MAX4 : ℝ)) || (t + 273.15 <. T_MIN4) || (x >. 1.0) || (x <. 0.0)) = false := by
    simp only [T_MAX4, T_MIN4, real_lt, Bool.or_eq_false_iff, decide_eq_false_iff_not, not_lt]
    push Not at hT
    exact ⟨⟨⟨hT.2, hT.1⟩, by norm_num; exact hx.2⟩, by norm_num; exact hx.1⟩
  show (if (_ : Bool) = true then _ else some (Tx_reg4 (t + 273.15) x OP)) = _
  rw [if_neg (by rw [hg]; decide)]
  show some (p_saturation (t + 273.15)) = _
  rw [p_saturation_eq, if_neg hT]

theorem px_T {p x : ℝ} (h1 : 0.000611212677444 ≤ p) (h2 : p ≤ 22.064) (hx : x ∈ Icc (0 : ℝ) 1) :
    FnX.px.call p x Doc.idT = some (T_saturation p - 273.15) := by
  have hg : ((p >. (P_MAX4 : ℝ)) || (p <. P_MIN4) || (x >. 1.0) || (x <. 0.0)) = false := by
    simp only [P_MAX4, P_MIN4, real_lt, Bool.or_eq_false_iff, decide_eq_false_iff_not, not_lt]
    exact ⟨⟨⟨h2, h1⟩, by norm_num; exact hx.2⟩, by norm_num; exact hx.1⟩
  show (if (_ : Bool) = true then _ else some (px_reg4 p x OT)) = _
  rw [if_neg (by rw [hg]; decide)]
  congr 1
  unfold px_reg4
  split
  · rfl
  · split
    · rfl
    · rfl

theorem mem {t : ℝ} (h1 : 0 ≤ t) (h2 : t ≤ 373.946) : t + 273.15 ∈ Icc (273 : ℝ) 648 := by
  constructor <;> norm_num at h2 ⊢ <;> linarith

theorem psat_ge {t : ℝ} (h1 : 0 ≤ t) (h2 : t ≤ 373.946) : 0.000611212677444 ≤ psat (t + 273.15) :=
  le_trans psat_min.1.le (psat_strictMonoOn.monotoneOn (by norm_num) (mem h1 h2) (by linarith))

end Sat
end If97
