import Verif.Lemmas.Order

/-!
# C41 Liquid and vapour are ordered

Exact arithmetic, the saturation curve from 0 °C to 350 °C: saturated-liquid enthalpy, entropy and volume
are below the saturated-vapour values (density above), through `tx` and through `px`; and one constant per
property separates all saturated liquids from all saturated vapours.  The inequalities between the region 1
and region 2 polynomials are decided by interval subdivision evaluated by the kernel.
-/

namespace If97
open Set TwoPhase

/-- a value between every saturated liquid and every saturated vapour -/
def separator (o : Int) : ℝ := if o = Doc.idH then 2000 else if o = Doc.idS then 4.5 else 0.004

private theorem sep {T : ℝ} (h1 : 273.15 ≤ T) (h2 : T ≤ 623.15) {o : Int} (ho : QualityOf o) :
    L (Sat.psat T) T o < separator o ∧ separator o < V (Sat.psat T) T o := by
  obtain ⟨r1, r2⟩ := inRange_sat h1 h2
  obtain ⟨a1, a2, a3, -⟩ := L_low h2 r1.regular
  obtain ⟨b1, b2, b3, -⟩ := V_low h2 r2.regular
  obtain ⟨c1, c2, c3⟩ := liquid r1
  obtain ⟨d1, d2, d3⟩ := vapour r2 h2
  rcases ho with rfl | rfl | rfl
  · rw [show Doc.idV = OV from rfl, a1, b1, show separator OV = 0.004 from rfl]; exact ⟨c3, d3⟩
  · rw [show Doc.idH = OH from rfl, a2, b2, show separator OH = 2000 from rfl]; exact ⟨c1, d1⟩
  · rw [show Doc.idS = OS from rfl, a3, b3, show separator OS = 4.5 from rfl]; exact ⟨c2, d2⟩

/-- By temperature, the whole curve 0..350 °C. -/
theorem C41_tx (t : ℝ) (h1 : 0 ≤ t) (h2 : t ≤ 350) (o : Int) (ho : o = Doc.idV ∨ o = Doc.idH ∨ o = Doc.idS) :
    ∃ l v, FnX.tx.call t 0 o = some l ∧ FnX.tx.call t 1 o = some v ∧ l < separator o ∧ separator o < v := by
  have hm := QualityOf.mixed ho
  have hT : t + 273.15 ≤ 623.15 := by norm_num at *; linarith
  have hT1 : (273.15 : ℝ) ≤ t + 273.15 := by norm_num at *; linarith
  have hs : p_saturation (t + 273.15) = Sat.psat (t + 273.15) := by
    rw [Sat.p_saturation_eq, if_neg]; push Not; norm_num at *; constructor <;> linarith
  refine ⟨_, _, tx_call h1 (by norm_num at *; linarith) (by norm_num) hm.neT hm.neX,
    tx_call h1 (by norm_num at *; linarith) (by norm_num) hm.neT hm.neX, ?_⟩
  rw [tx0_low hm hT, tx1_low hm hT, hs]
  exact sep hT1 hT ho

/-- By pressure, the same curve. -/
theorem C41_px (p : ℝ) (h1 : 0.000611212677445 ≤ p) (h2 : p ≤ 16.5291642526045) (o : Int)
    (ho : o = Doc.idV ∨ o = Doc.idH ∨ o = Doc.idS) :
    ∃ l v, FnX.px.call p 0 o = some l ∧ FnX.px.call p 1 o = some v ∧ l < separator o ∧ separator o < v := by
  have hm := QualityOf.mixed ho
  obtain ⟨a, b, c⟩ := sat_low h1 h2
  have h1' : (0.000611212677444 : ℝ) ≤ p := by norm_num at *; linarith
  have h2' : p ≤ 22.064 := by norm_num at *; linarith
  refine ⟨_, _, px_call h1' h2' (by norm_num) hm.neP hm.neX, px_call h1' h2' (by norm_num) hm.neP hm.neX, ?_⟩
  rw [px0_low h1' hm h2, px1_low h1' hm h2]
  have := sep a b ho
  rwa [c] at this

/-- The volumes are positive and the densities are ordered the other way. -/
theorem C41_volume_density (t : ℝ) (h1 : 0 ≤ t) (h2 : t ≤ 350) :
    ∃ vl vv dl dv, FnX.tx.call t 0 Doc.idV = some vl ∧ FnX.tx.call t 1 Doc.idV = some vv ∧
      FnX.tx.call t 0 Doc.idD = some dl ∧ FnX.tx.call t 1 Doc.idD = some dv ∧
      0 < vl ∧ vl < vv ∧ dl = 1 / vl ∧ dv = 1 / vv ∧ dv < dl := by
  have hV : Mixed Doc.idV := .inl rfl
  have hD : Mixed Doc.idD := .inr (.inl rfl)
  have h3 : t ≤ 373.946 := by norm_num at *; linarith
  have hT : t + 273.15 ≤ 623.15 := by norm_num at *; linarith
  have hT1 : (273.15 : ℝ) ≤ t + 273.15 := by norm_num at *; linarith
  have hs : p_saturation (t + 273.15) = Sat.psat (t + 273.15) := by
    rw [Sat.p_saturation_eq, if_neg]; push Not; norm_num at *; constructor <;> linarith
  obtain ⟨r1, r2⟩ := inRange_sat hT1 hT
  obtain ⟨a1, -, -, a4⟩ := L_low hT r1.regular
  obtain ⟨b1, -, -, b4⟩ := V_low hT r2.regular
  have p1 := r1.stable.1
  have lt := L_lt_V hT1 hT (.inl rfl)
  refine ⟨_, _, _, _, tx_call h1 h3 (by norm_num) hV.neT hV.neX, tx_call h1 h3 (by norm_num) hV.neT hV.neX,
    tx_call h1 h3 (by norm_num) hD.neT hD.neX, tx_call h1 h3 (by norm_num) hD.neT hD.neX, ?_⟩
  rw [tx0_low hV hT, tx1_low hV hT, tx0_low hD hT, tx1_low hD hT, hs]
  simp only [show Doc.idV = OV from rfl, show Doc.idD = OD from rfl, a1, b1, a4, b4] at lt ⊢
  rw [Gr_1] at p1
  refine ⟨p1, lt, by norm_num, by norm_num, ?_⟩
  have := one_div_lt_one_div_of_lt p1 lt
  norm_num at this ⊢; exact this

/-- Concrete: 100 °C. -/
example : ∃ l v, FnX.tx.call (100 : ℝ) 0 Doc.idH = some l ∧ FnX.tx.call (100 : ℝ) 1 Doc.idH = some v ∧
    l < 2000 ∧ 2000 < v :=
  C41_tx 100 (by norm_num) (by norm_num) Doc.idH (.inr (.inl rfl))

end If97
