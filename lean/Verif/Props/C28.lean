import Verif.Lemmas.TwoPhase

/-!
# C28 Two-phase mixing is linear in quality

Exact arithmetic.  For every mixed property (v, d, h, s, u, f, g, e) the value at quality x is
l + x(v − l), where l and v are what the same function answers at x = 0 and x = 1; it lies between them.

Missing from the full statement, because the code departs from it there:
* `px` between 16.5291642526045 and 16.5291642526047 MPa, where the saturated values come from region 3
  and the mixture from regions 1 and 2;
* the last 1e-6 MPa (1e-6 K) before the critical point, where the saturated values are replaced by the
  critical constants;
* the density above 350 °C, which is −1000 for a mixture (C31).
-/

namespace If97
open Set TwoPhase

/-- the documented two-phase outputs -/
def MixedOutput (o : Int) : Prop :=
  o ∈ ([Doc.idV, Doc.idD, Doc.idH, Doc.idS, Doc.idU, Doc.idF, Doc.idG, Doc.idE] : List Int)

theorem MixedOutput.mixed {o : Int} (h : MixedOutput o) : Mixed o := by
  simpa [MixedOutput, Mixed] using h

private theorem between (l v x : ℝ) (hx : x ∈ Icc (0 : ℝ) 1) : l + x * (v - l) ∈ uIcc l v := by
  rw [← segment_eq_uIcc]
  exact ⟨1 - x, x, by linarith [hx.2], hx.1, by ring, by simp; ring⟩

/-- the pressures at which the saturated values and the mixture come from the same equations -/
def MixRangeP (p : ℝ) (o : Int) : Prop :=
  (0.000611212677444 ≤ p ∧ p ≤ 16.5291642526045) ∨ (16.5291642526047 ≤ p ∧ p ≤ 22.063999 ∧ o ≠ Doc.idD)
/-- the same for temperatures in °C -/
def MixRangeT (t : ℝ) (o : Int) : Prop :=
  (0 ≤ t ∧ t ≤ 350) ∨ (350 < t ∧ t ≤ 373.945999 ∧ o ≠ Doc.idD)

theorem C28_px_partial (p x : ℝ) (o : Int) (ho : MixedOutput o) (hp : MixRangeP p o) (hx : x ∈ Icc (0 : ℝ) 1) :
    ∃ l v, FnX.px.call p 0 o = some l ∧ FnX.px.call p 1 o = some v ∧
      FnX.px.call p x o = some (l + x * (v - l)) ∧ l + x * (v - l) ∈ uIcc l v := by
  have ho := ho.mixed
  have r : 0.000611212677444 ≤ p ∧ p ≤ 22.064 := by
    rcases hp with h | h <;> constructor <;> norm_num at * <;> linarith
  have e : px_reg4 p 0 o = L p (T_saturation p) o ∧ px_reg4 p 1 o = V p (T_saturation p) o := by
    rcases hp with h | h
    · exact ⟨px0_low h.1 ho h.2, px1_low h.1 ho h.2⟩
    · exact ⟨px0_high h.1 h.2.1 ho h.2.2, px1_high h.1 h.2.1 ho h.2.2⟩
  refine ⟨_, _, px_call r.1 r.2 (by norm_num) ho.neP ho.neX, px_call r.1 r.2 (by norm_num) ho.neP ho.neX, ?_,
    between _ _ x hx⟩
  · rw [px_call r.1 r.2 hx ho.neP ho.neX]
    by_cases h0 : x = 0
    · subst h0; simp
    by_cases h1 : x = 1
    · subst h1; simp
    rw [px_mid h0 h1 ho, e.1, e.2]

theorem C28_tx_partial (t x : ℝ) (o : Int) (ho : MixedOutput o) (ht : MixRangeT t o) (hx : x ∈ Icc (0 : ℝ) 1) :
    ∃ l v, FnX.tx.call t 0 o = some l ∧ FnX.tx.call t 1 o = some v ∧
      FnX.tx.call t x o = some (l + x * (v - l)) ∧ l + x * (v - l) ∈ uIcc l v := by
  have ho := ho.mixed
  have r : 0 ≤ t ∧ t ≤ 373.946 := by
    rcases ht with h | h <;> constructor <;> norm_num at * <;> linarith
  have e : Tx_reg4 (t + 273.15) 0 o = L (p_saturation (t + 273.15)) (t + 273.15) o ∧
      Tx_reg4 (t + 273.15) 1 o = V (p_saturation (t + 273.15)) (t + 273.15) o := by
    rcases ht with h | h
    · have : t + 273.15 ≤ 623.15 := by norm_num at *; linarith
      exact ⟨tx0_low ho this, tx1_low ho this⟩
    · have h1 : 623.15 < t + 273.15 := by norm_num at *; linarith
      have h2 : t + 273.15 ≤ 647.095999 := by norm_num at *; linarith
      exact ⟨tx0_high ho h1 h2 h.2.2, tx1_high ho h1 h2 h.2.2⟩
  refine ⟨_, _, tx_call r.1 r.2 (by norm_num) ho.neT ho.neX, tx_call r.1 r.2 (by norm_num) ho.neT ho.neX, ?_,
    between _ _ x hx⟩
  · rw [tx_call r.1 r.2 hx ho.neT ho.neX]
    by_cases h0 : x = 0
    · subst h0; simp
    by_cases h1 : x = 1
    · subst h1; simp
    rw [tx_mid h0 h1 ho, e.1, e.2]

/-- Everything else (not an input, not p or t) has no two-phase value: −1000 for 0 < x < 1. -/
theorem C28_other_outputs (a x : ℝ) (o : Int) (hx : 0 < x ∧ x < 1) (ho : ¬ MixedOutput o)
    (hP : o ≠ Doc.idP) (hT : o ≠ Doc.idT) (hX : o ≠ Doc.idX) :
    ((0.000611212677444 ≤ a ∧ a ≤ 22.064) → FnX.px.call a x o = some (-1000)) ∧
    ((0 ≤ a ∧ a ≤ 373.946) → FnX.tx.call a x o = some (-1000)) := by
  have hm : x ∈ Icc (0 : ℝ) 1 := ⟨hx.1.le, hx.2.le⟩
  have e15 : (o == OT) = false := by simpa using (show o ≠ OT from hT)
  have e0 : (o == OP) = false := by simpa using (show o ≠ OP from hP)
  have eo : (o == OH || o == OS || o == OV || o == OD || o == OU || o == OF || o == OG || o == OE) = false := by
    simp only [MixedOutput, List.mem_cons, List.not_mem_nil, or_false, not_or] at ho
    obtain ⟨a1, a2, a3, a4, a5, a6, a7, a8⟩ := ho
    simp only [Bool.or_eq_false_iff, beq_eq_false_iff_ne, ne_eq]
    exact ⟨⟨⟨⟨⟨⟨⟨a3, a4⟩, a1⟩, a2⟩, a5⟩, a6⟩, a7⟩, a8⟩
  constructor
  · rintro ⟨h1, h2⟩
    rw [px_call h1 h2 hm hP hX]
    unfold px_reg4
    rw [if_neg (by norm_num; exact hx.1.ne'), if_neg (by norm_num; exact hx.2.ne), if_neg (by simp [e15]),
      if_neg (by rw [eo]; decide)]
    norm_num [INVALID_OUTID, ofI32]
  · rintro ⟨h1, h2⟩
    rw [tx_call h1 h2 hm hT hX]
    unfold Tx_reg4
    rw [if_neg (by simp [e0]), if_neg (by norm_num; exact hx.1.ne'), if_neg (by norm_num; exact hx.2.ne),
      if_neg (by rw [eo]; decide)]
    norm_num [INVALID_OUTID, ofI32]

/-- Concrete: enthalpy at 1 MPa and x = 0.3. -/
example : ∃ l v, FnX.px.call (1 : ℝ) 0 Doc.idH = some l ∧ FnX.px.call (1 : ℝ) 1 Doc.idH = some v ∧
    FnX.px.call (1 : ℝ) 0.3 Doc.idH = some (l + 0.3 * (v - l)) ∧ l + 0.3 * (v - l) ∈ uIcc l v :=
  C28_px_partial 1 0.3 Doc.idH (by simp [MixedOutput]) (.inl (by norm_num)) (by norm_num)

end If97
