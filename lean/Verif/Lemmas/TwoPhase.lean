import Verif.Lemmas.Saturation

/-! Helper lemmas for C28-C31, C34, C45: the quality functions inside their range. -/

namespace If97
open Set
namespace TwoPhase

theorem px_call {p x : ℝ} (h1 : 0.000611212677444 ≤ p) (h2 : p ≤ 22.064) (hx : x ∈ Icc (0 : ℝ) 1) {o : Int}
    (hP : o ≠ Doc.idP) (hX : o ≠ Doc.idX) : FnX.px.call p x o = some (px_reg4 p x o) := by
  have hg : ((p >. (P_MAX4 : ℝ)) || (p <. P_MIN4) || (x >. 1.0) || (x <. 0.0)) = false := by
    simp only [P_MAX4, P_MIN4, real_lt, Bool.or_eq_false_iff, decide_eq_false_iff_not, not_lt]
    exact ⟨⟨⟨h2, h1⟩, by norm_num; exact hx.2⟩, by norm_num; exact hx.1⟩
  show (if (_ : Bool) = true then _ else if (o == OP) = true then _ else if (o == OX) = true then _ else _) = _
  rw [if_neg (by rw [hg]; decide), if_neg (fun h : (o == OP) = true => hP (beq_iff_eq.mp h)),
    if_neg (fun h : (o == OX) = true => hX (beq_iff_eq.mp h))]

theorem tx_call {t x : ℝ} (h1 : 0 ≤ t) (h2 : t ≤ 373.946) (hx : x ∈ Icc (0 : ℝ) 1) {o : Int}
    (hT : o ≠ Doc.idT) (hX : o ≠ Doc.idX) : FnX.tx.call t x o = some (Tx_reg4 (t + 273.15) x o) := by
  have hg : ((t + 273.15 >. (T_MAX4 : ℝ)) || (t + 273.15 <. T_MIN4) || (x >. 1.0) || (x <. 0.0)) = false := by
    simp only [T_MAX4, T_MIN4, real_lt, Bool.or_eq_false_iff, decide_eq_false_iff_not, not_lt]
    exact ⟨⟨⟨by norm_num at h2 ⊢; linarith, by linarith⟩, by norm_num; exact hx.2⟩, by norm_num; exact hx.1⟩
  show (if (o == OT) = true then _ else if (o == OX) = true then _ else if (_ : Bool) = true then _ else _) = _
  rw [if_neg (fun h : (o == OT) = true => hT (beq_iff_eq.mp h)),
    if_neg (fun h : (o == OX) = true => hX (beq_iff_eq.mp h)), if_neg (by rw [hg]; decide)]

/-- the outputs that are mixed linearly -/
def Mixed (o : Int) : Prop := o = Doc.idV ∨ o = Doc.idD ∨ o = Doc.idH ∨ o = Doc.idS ∨ o = Doc.idU ∨ o = Doc.idF ∨
  o = Doc.idG ∨ o = Doc.idE

instance (o : Int) : Decidable (Mixed o) := by unfold Mixed; infer_instance

/-- liquid side of the mixture -/
noncomputable def L (p T : ℝ) (o : Int) : ℝ :=
  if 623.15 < T then Td_reg3 T (1 / pT2v_sat_reg3 p T 0) o else pT_reg1 p T o
/-- vapour side of the mixture -/
noncomputable def V (p T : ℝ) (o : Int) : ℝ :=
  if 623.15 < T then Td_reg3 T (1 / pT2v_sat_reg3 p T 1) o else pT_reg2 p T o

theorem px_mid {p x : ℝ} (h0 : x ≠ 0) (h1 : x ≠ 1) {o : Int} (ho : Mixed o) :
    px_reg4 p x o = L p (T_saturation p) o + x * (V p (T_saturation p) o - L p (T_saturation p) o) := by
  unfold px_reg4
  rw [if_neg (by norm_num; exact h0), if_neg (by norm_num; exact h1)]
  unfold L V
  have e1 : (1.0 : ℝ) = 1 := by norm_num
  have e0 : (0.0 : ℝ) = 0 := by norm_num
  rw [e1, e0]
  by_cases hT : 623.15 < T_saturation p
  · rcases ho with rfl | rfl | rfl | rfl | rfl | rfl | rfl | rfl <;>
      simp [hT, OT, OH, OS, OV, OD, OU, OF, OG, OE]
  · rcases ho with rfl | rfl | rfl | rfl | rfl | rfl | rfl | rfl <;>
      simp [hT, OT, OH, OS, OV, OD, OU, OF, OG, OE]

theorem tx_mid {T x : ℝ} (h0 : x ≠ 0) (h1 : x ≠ 1) {o : Int} (ho : Mixed o) :
    Tx_reg4 T x o = L (p_saturation T) T o + x * (V (p_saturation T) T o - L (p_saturation T) T o) := by
  unfold Tx_reg4
  have hP : ¬ (o == OP) = true := by
    rcases ho with rfl | rfl | rfl | rfl | rfl | rfl | rfl | rfl <;> decide
  rw [if_neg hP, if_neg (by norm_num; exact h0), if_neg (by norm_num; exact h1)]
  unfold L V
  have e1 : (1.0 : ℝ) = 1 := by norm_num
  have e0 : (0.0 : ℝ) = 0 := by norm_num
  rw [e1, e0]
  by_cases hT : 623.15 < T
  · rcases ho with rfl | rfl | rfl | rfl | rfl | rfl | rfl | rfl <;>
      simp [hT, OT, OH, OS, OV, OD, OU, OF, OG, OE]
  · rcases ho with rfl | rfl | rfl | rfl | rfl | rfl | rfl | rfl <;>
      simp [hT, OT, OH, OS, OV, OD, OU, OF, OG, OE]

/-- the saturation temperature of an accepted pressure -/
theorem sat_T {p : ℝ} (h1 : 0.000611212677444 ≤ p) (h2 : p ≤ 22.064) :
    T_saturation p ∈ Icc (273 : ℝ) 648 ∧ Sat.psat (T_saturation p) = p := by
  have h3 : (0.000611212677 : ℝ) ≤ p := le_trans (by norm_num) h1
  obtain ⟨T, m, rfl⟩ := Sat.exists_T h3 h2
  rw [Sat.T_saturation_psat m h3 h2]; exact ⟨m, rfl⟩

theorem sat_T_le {p T : ℝ} (h1 : 0.000611212677444 ≤ p) (h2 : p ≤ 22.064) (hT : T ∈ Icc (273 : ℝ) 648) :
    T_saturation p ≤ T ↔ p ≤ Sat.psat T := by
  obtain ⟨m, e⟩ := sat_T h1 h2
  rw [← Sat.psat_strictMonoOn.le_iff_le m hT, e]

theorem sat_T_lt {p T : ℝ} (h1 : 0.000611212677444 ≤ p) (h2 : p ≤ 22.064) (hT : T ∈ Icc (273 : ℝ) 648) :
    T < T_saturation p ↔ Sat.psat T < p := by
  rw [← not_le, sat_T_le h1 h2 hT, not_le]

theorem Mixed.neOT {o : Int} (ho : Mixed o) : ¬ (o == OT) = true := by
  rcases ho with rfl | rfl | rfl | rfl | rfl | rfl | rfl | rfl <;> decide
theorem Mixed.neOP {o : Int} (ho : Mixed o) : ¬ (o == OP) = true := by
  rcases ho with rfl | rfl | rfl | rfl | rfl | rfl | rfl | rfl <;> decide
theorem Mixed.neP {o : Int} (ho : Mixed o) : o ≠ Doc.idP := by
  rcases ho with rfl | rfl | rfl | rfl | rfl | rfl | rfl | rfl <;> decide
theorem Mixed.neT {o : Int} (ho : Mixed o) : o ≠ Doc.idT := by
  rcases ho with rfl | rfl | rfl | rfl | rfl | rfl | rfl | rfl <;> decide
theorem Mixed.neX {o : Int} (ho : Mixed o) : o ≠ Doc.idX := by
  rcases ho with rfl | rfl | rfl | rfl | rfl | rfl | rfl | rfl <;> decide

theorem Td_V (T v : ℝ) : Td_reg3 T (1 / v) OV = v := by
  show (1.0 : ℝ) / (1 / v) = v
  rw [show (1.0 : ℝ) = 1 by norm_num, one_div_one_div]
theorem Td_D (T d : ℝ) : Td_reg3 T d OD = -1000 := by
  show ((INVALID_OUTID : Int) : ℝ) = -1000
  norm_num [INVALID_OUTID]

theorem low {p : ℝ} (h1 : 0.000611212677444 ≤ p) (h : p ≤ 16.5291642526045) : ¬ 623.15 < T_saturation p := by
  rw [sat_T_lt h1 (by norm_num at *; linarith) (by norm_num), not_lt]
  have := Sat.psat_623.1; linarith
theorem high {p : ℝ} (h : 16.5291642526047 ≤ p) (h2 : p ≤ 22.064) : 623.15 < T_saturation p := by
  rw [sat_T_lt (by norm_num at *; linarith) h2 (by norm_num)]
  have := Sat.psat_623.2; linarith

section px
variable {p : ℝ} (h1 : 0.000611212677444 ≤ p) (h2 : p ≤ 22.064) {o : Int} (ho : Mixed o)
include h1 ho

theorem px0_low (h : p ≤ 16.5291642526045) : px_reg4 p 0 o = L p (T_saturation p) o := by
  unfold px_reg4
  rw [if_pos (by norm_num)]
  unfold p2sat_water L
  rw [if_neg ho.neOP, if_neg ho.neOT, if_pos (by simp [P_MIN, Ps_623]; norm_num at *; exact ⟨h1, h⟩), if_neg (low h1 h)]
theorem px1_low (h : p ≤ 16.5291642526045) : px_reg4 p 1 o = V p (T_saturation p) o := by
  unfold px_reg4
  rw [if_neg (by norm_num), if_pos (by norm_num)]
  unfold p2sat_steam V
  rw [if_neg ho.neOP, if_neg ho.neOT, if_pos (by simp [P_MIN, Ps_623]; norm_num at *; exact ⟨h1, h⟩), if_neg (low h1 h)]
end px

section
variable {p : ℝ} (h : 16.5291642526047 ≤ p) (h2 : p ≤ 22.063999) {o : Int} (ho : Mixed o) (hD : o ≠ Doc.idD)
include h h2 ho hD
theorem px0_high : px_reg4 p 0 o = L p (T_saturation p) o := by
  have hD : ¬ (o == OD) = true := fun h => hD (beq_iff_eq.mp h)
  unfold px_reg4
  rw [if_pos (by norm_num)]
  unfold p2sat_water L
  rw [if_neg ho.neOP, if_neg ho.neOT, if_neg (by simp [P_MIN, Ps_623]; norm_num at *; intros; linarith),
    if_pos (high h (by norm_num at *; linarith))]
  have hc : ¬ ((fabs (p - PC_WATER) <. FLOAT_ERROR) = true) := by
    simp only [fabs, real_abs, real_lt, PC_WATER, FLOAT_ERROR, decide_eq_true_eq, not_lt, le_abs]
    right; norm_num at *; linarith
  simp only [if_neg hc, if_neg hD]
  rw [show (0.0 : ℝ) = 0 by norm_num, show (1.0 : ℝ) = 1 by norm_num]
  by_cases hV : o = OV
  · subst hV; rw [Td_V]; rfl
  · rw [if_neg (by simpa using hV)]
theorem px1_high : px_reg4 p 1 o = V p (T_saturation p) o := by
  have hD : ¬ (o == OD) = true := fun h => hD (beq_iff_eq.mp h)
  unfold px_reg4
  rw [if_neg (by norm_num), if_pos (by norm_num)]
  unfold p2sat_steam V
  rw [if_neg ho.neOP, if_neg ho.neOT, if_neg (by simp [P_MIN, Ps_623]; norm_num at *; intros; linarith),
    if_pos (high h (by norm_num at *; linarith))]
  have hc : ¬ ((fabs (p - PC_WATER) <. FLOAT_ERROR) = true) := by
    simp only [fabs, real_abs, real_lt, PC_WATER, FLOAT_ERROR, decide_eq_true_eq, not_lt, le_abs]
    right; norm_num at *; linarith
  simp only [if_neg hc, if_neg hD]
  rw [show (1.0 : ℝ) = 1 by norm_num]
  by_cases hV : o = OV
  · subst hV; rw [Td_V]; rfl
  · rw [if_neg (by simpa using hV)]
end

section
variable {T : ℝ} {o : Int} (ho : Mixed o)
include ho
theorem tx0_low (h : T ≤ 623.15) : Tx_reg4 T 0 o = L (p_saturation T) T o := by
  unfold Tx_reg4
  rw [if_neg ho.neOP, if_pos (by norm_num)]
  unfold T2sat_water L
  have hc : ¬ ((fabs (T - TC_WATER) <. FLOAT_ERROR) = true) := by
    simp only [fabs, real_abs, real_lt, TC_WATER, FLOAT_ERROR, decide_eq_true_eq, not_lt, le_abs]
    right; norm_num at *; linarith
  simp only [if_neg hc, if_neg ho.neOT, if_neg ho.neOP]
  rw [if_pos (by simpa using h), if_neg (not_lt.mpr h)]
theorem tx1_low (h : T ≤ 623.15) : Tx_reg4 T 1 o = V (p_saturation T) T o := by
  unfold Tx_reg4
  rw [if_neg ho.neOP, if_neg (by norm_num), if_pos (by norm_num)]
  unfold T2sat_steam V
  have hc : ¬ ((fabs (T - TC_WATER) <. FLOAT_ERROR) = true) := by
    simp only [fabs, real_abs, real_lt, TC_WATER, FLOAT_ERROR, decide_eq_true_eq, not_lt, le_abs]
    right; norm_num at *; linarith
  simp only [if_neg hc, if_neg ho.neOT, if_neg ho.neOP]
  rw [if_pos (by simpa using h), if_neg (not_lt.mpr h)]
theorem tx0_high (h : 623.15 < T) (h2 : T ≤ 647.095999) (hD : o ≠ Doc.idD) : Tx_reg4 T 0 o = L (p_saturation T) T o := by
  have hD : ¬ (o == OD) = true := fun h => hD (beq_iff_eq.mp h)
  unfold Tx_reg4
  rw [if_neg ho.neOP, if_pos (by norm_num)]
  unfold T2sat_water L
  have hc : ¬ ((fabs (T - TC_WATER) <. FLOAT_ERROR) = true) := by
    simp only [fabs, real_abs, real_lt, TC_WATER, FLOAT_ERROR, decide_eq_true_eq, not_lt, le_abs]
    right; norm_num at *; linarith
  simp only [if_neg hc, if_neg ho.neOT, if_neg ho.neOP, if_neg hD]
  rw [if_neg (by simpa using h), if_pos h]
  rw [show (0.0 : ℝ) = 0 by norm_num, show (1.0 : ℝ) = 1 by norm_num]
  by_cases hV : o = OV
  · subst hV; rw [Td_V]; rfl
  · rw [if_neg (by simpa using hV)]
theorem tx1_high (h : 623.15 < T) (h2 : T ≤ 647.095999) (hD : o ≠ Doc.idD) : Tx_reg4 T 1 o = V (p_saturation T) T o := by
  have hD : ¬ (o == OD) = true := fun h => hD (beq_iff_eq.mp h)
  unfold Tx_reg4
  rw [if_neg ho.neOP, if_neg (by norm_num), if_pos (by norm_num)]
  unfold T2sat_steam V
  have hc : ¬ ((fabs (T - TC_WATER) <. FLOAT_ERROR) = true) := by
    simp only [fabs, real_abs, real_lt, TC_WATER, FLOAT_ERROR, decide_eq_true_eq, not_lt, le_abs]
    right; norm_num at *; linarith
  simp only [if_neg hc, if_neg ho.neOT, if_neg ho.neOP, if_neg hD]
  rw [if_neg (by simpa using h), if_pos h]
  rw [show (1.0 : ℝ) = 1 by norm_num]
end

end TwoPhase
end If97
