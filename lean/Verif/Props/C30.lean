import Verif.Lemmas.Order
import Verif.Props.C31

/-!
# C30 Two-phase density is consistent with two-phase volume

Violated.  Exact arithmetic.  The code interpolates the density linearly in the quality, as it does the
volume, so their product exceeds 1 for every proper mixture up to 350 °C (`C30_violated`, with the exact
value in `C30_actual`), and above 350 °C the density is the error code −1000 (`C30_high_violated`).  The
saturated states themselves are consistent: `C30_ends_partial`.
-/

namespace If97
open Set TwoPhase

private theorem vals {p : ℝ} (h1 : 0.000611212677445 ≤ p) (h2 : p ≤ 16.5291642526045) :
    ∃ vl vv : ℝ, 0 < vl ∧ vl < vv ∧ L p (T_saturation p) OV = vl ∧ V p (T_saturation p) OV = vv ∧
      L p (T_saturation p) OD = 1 / vl ∧ V p (T_saturation p) OD = 1 / vv := by
  obtain ⟨a, b, c⟩ := sat_low h1 h2
  obtain ⟨r1, r2⟩ := inRange_sat a b
  have lt := L_lt_V a b (.inl rfl)
  rw [c] at r1 r2 lt
  obtain ⟨a1, -, -, a4⟩ := L_low b r1.regular
  obtain ⟨b1, -, -, b4⟩ := V_low b r2.regular
  rw [show Doc.idV = OV from rfl, a1, b1] at lt
  exact ⟨_, _, r1.stable.1, lt, a1, b1, a4.trans (by norm_num), b4.trans (by norm_num)⟩

/-- The saturated states (x = 0 and x = 1), up to 350 °C. -/
theorem C30_ends_partial (p : ℝ) (h1 : 0.000611212677445 ≤ p) (h2 : p ≤ 16.5291642526045) (x : ℝ) (hx : x = 0 ∨ x = 1) :
    ∃ d v, FnX.px.call p x Doc.idD = some d ∧ FnX.px.call p x Doc.idV = some v ∧ d * v = 1 := by
  have h1' : (0.000611212677444 : ℝ) ≤ p := by norm_num at *; linarith
  have h2' : p ≤ 22.064 := by norm_num at *; linarith
  have hV : Mixed OV := .inl rfl
  have hD : Mixed OD := .inr (.inl rfl)
  obtain ⟨vl, vv, p1, p2, e1, e2, e3, e4⟩ := vals h1 h2
  have p3 : 0 < vv := p1.trans p2
  have hm : x ∈ Icc (0 : ℝ) 1 := by rcases hx with rfl | rfl <;> norm_num
  refine ⟨_, _, px_call h1' h2' hm hD.neP hD.neX, px_call h1' h2' hm hV.neP hV.neX, ?_⟩
  rcases hx with rfl | rfl
  · rw [show Doc.idV = OV from rfl, show Doc.idD = OD from rfl, px0_low h1' hV h2, px0_low h1' hD h2, e1, e3]
    field_simp
  · rw [show Doc.idV = OV from rfl, show Doc.idD = OD from rfl, px1_low h1' hV h2, px1_low h1' hD h2, e2, e4]
    field_simp

/-- What the code returns: with the saturated volumes vl < vv the product is
1 + x(1−x)(vv−vl)²/(vl vv). -/
theorem C30_actual (p x : ℝ) (h1 : 0.000611212677445 ≤ p) (h2 : p ≤ 16.5291642526045) (hx : 0 < x ∧ x < 1) :
    ∃ d v vl vv, FnX.px.call p x Doc.idD = some d ∧ FnX.px.call p x Doc.idV = some v ∧
      FnX.px.call p 0 Doc.idV = some vl ∧ FnX.px.call p 1 Doc.idV = some vv ∧ 0 < vl ∧ vl < vv ∧
      d * v = 1 + x * (1 - x) * (vv - vl) ^ 2 / (vl * vv) := by
  have h1' : (0.000611212677444 : ℝ) ≤ p := by norm_num at *; linarith
  have h2' : p ≤ 22.064 := by norm_num at *; linarith
  have hV : Mixed OV := .inl rfl
  have hD : Mixed OD := .inr (.inl rfl)
  have hm : x ∈ Icc (0 : ℝ) 1 := ⟨hx.1.le, hx.2.le⟩
  obtain ⟨vl, vv, p1, p2, e1, e2, e3, e4⟩ := vals h1 h2
  have p3 : 0 < vv := p1.trans p2
  refine ⟨_, _, vl, vv, px_call h1' h2' hm hD.neP hD.neX, px_call h1' h2' hm hV.neP hV.neX, ?_, ?_, p1, p2, ?_⟩
  · rw [show Doc.idV = OV from rfl, px_call h1' h2' (by norm_num) hV.neP hV.neX, px0_low h1' hV h2, e1]
  · rw [show Doc.idV = OV from rfl, px_call h1' h2' (by norm_num) hV.neP hV.neX, px1_low h1' hV h2, e2]
  · rw [show Doc.idV = OV from rfl, show Doc.idD = OD from rfl, px_mid hx.1.ne' hx.2.ne hV, px_mid hx.1.ne' hx.2.ne hD,
      e1, e2, e3, e4]
    field_simp; ring

/-- The claim fails for every proper mixture up to 350 °C. -/
theorem C30_violated (p x : ℝ) (h1 : 0.000611212677445 ≤ p) (h2 : p ≤ 16.5291642526045) (hx : 0 < x ∧ x < 1) :
    ∃ d v, FnX.px.call p x Doc.idD = some d ∧ FnX.px.call p x Doc.idV = some v ∧ 1 < d * v := by
  obtain ⟨d, v, vl, vv, e1, e2, -, -, p1, p2, e⟩ := C30_actual p x h1 h2 hx
  refine ⟨d, v, e1, e2, ?_⟩
  have p3 : 0 < vv := p1.trans p2
  have : 0 < 1 - x := by linarith [hx.2]
  have h : 0 < x * (1 - x) * (vv - vl) ^ 2 / (vl * vv) := by
    have := sub_pos.2 p2; have := hx.1; positivity
  linarith

/-- And above 350 °C, where the density is an error code. -/
theorem C30_high_violated (p x : ℝ) (h1 : 16.5291642526047 ≤ p) (h2 : p ≤ 22.064) (hx : 0 < x ∧ x < 1) :
    FnX.px.call p x Doc.idD = some (-1000) := (C31_density_violated x hx).1 p h1 h2

/-- Concrete: 1 MPa, x = 0.5. -/
example : ∃ d v, FnX.px.call (1 : ℝ) 0.5 Doc.idD = some d ∧ FnX.px.call (1 : ℝ) 0.5 Doc.idV = some v ∧ 1 < d * v :=
  C30_violated 1 0.5 (by norm_num) (by norm_num) (by norm_num)

end If97
