import Verif.Lemmas.Detect
import Verif.Props.C02
import Verif.Props.C28

/-!
# C29 Quality round trip

Exact arithmetic.  A two-phase state given by pressure and quality is turned into enthalpy, entropy or
volume by `px`; `ph`, `ps`, `pv` return the quality.

* `C29_region4`: up to 350 °C with region 4 given, all x in [0,1];
* `C29_auto`: the same without a region, so detection is right as well;
* `C29_high_partial`: above 350 °C with region 4 given, when the two saturated values differ.  Missing
  there: that they always differ (they come from the region 3 backward equations).
The range starts at 0.000611212677445 MPa, the saturation pressure at 0 °C to 15 digits.
-/

namespace If97
open Set TwoPhase

/-- the function that takes pressure and property `o` -/
def byP (f : Fn) (o : Int) : Prop := (f = .ph ∧ o = Doc.idH) ∨ (f = .ps ∧ o = Doc.idS) ∨ (f = .pv ∧ o = Doc.idV)

private theorem quality_formula {f : Fn} {o : Int} (h : byP f o) (p y : ℝ) :
    f.call p y Doc.idX 4 = some ((y - px_reg4 p 0 o) / (px_reg4 p 1 o - px_reg4 p 0 o)) := by
  have e0 : ∀ o, px_reg4 p 0 o = p2sat_water p o := fun o => by unfold px_reg4; rw [if_pos (by norm_num)]
  have e1 : ∀ o, px_reg4 p 1 o = p2sat_steam p o := fun o => by
    unfold px_reg4; rw [if_neg (by norm_num), if_pos (by norm_num)]
  rw [e0, e1]
  rcases h with ⟨rfl, rfl⟩ | ⟨rfl, rfl⟩ | ⟨rfl, rfl⟩ <;> rfl

private theorem byP.quality {f : Fn} {o : Int} (h : byP f o) : QualityOf o := by
  rcases h with ⟨-, rfl⟩ | ⟨-, rfl⟩ | ⟨-, rfl⟩
  exacts [.inr (.inl rfl), .inr (.inr rfl), .inl rfl]

private theorem round {f : Fn} {o : Int} (h : byP f o) {p x : ℝ} (h1 : 0.000611212677444 ≤ p) (h2 : p ≤ 22.064)
    (hx : x ∈ Icc (0 : ℝ) 1) {l v : ℝ} (hl : px_reg4 p 0 o = l) (hv : px_reg4 p 1 o = v)
    (hm : px_reg4 p x o = l + x * (v - l)) (hne : l ≠ v) :
    FnX.px.call p x o = some (l + x * (v - l)) ∧ f.call p (l + x * (v - l)) Doc.idX 4 = some x := by
  have ho := h.quality.mixed
  refine ⟨by rw [px_call h1 h2 hx ho.neP ho.neX, hm], ?_⟩
  rw [quality_formula h, hl, hv]
  congr 1
  field_simp [sub_ne_zero.2 hne.symm]
  ring

private theorem mid {p x : ℝ} {o : Int} (ho : Mixed o) {l v : ℝ} (hl : px_reg4 p 0 o = l) (hv : px_reg4 p 1 o = v)
    (eL : l = L p (T_saturation p) o) (eV : v = V p (T_saturation p) o) : px_reg4 p x o = l + x * (v - l) := by
  by_cases h0 : x = 0
  · subst h0; rw [hl]; ring
  by_cases h1 : x = 1
  · subst h1; rw [hv]; ring
  rw [px_mid h0 h1 ho, eL, eV]

/-- Region 4 given, up to 350 °C. -/
theorem C29_region4 (f : Fn) (o : Int) (h : byP f o) (p x : ℝ) (h1 : 0.000611212677445 ≤ p)
    (h2 : p ≤ 16.5291642526045) (hx : x ∈ Icc (0 : ℝ) 1) :
    ∃ y, FnX.px.call p x o = some y ∧ f.call p y Doc.idX 4 = some x := by
  have ho := h.quality
  obtain ⟨a, b, c⟩ := sat_low h1 h2
  have h1' : (0.000611212677444 : ℝ) ≤ p := by norm_num at *; linarith
  have h2' : p ≤ 22.064 := by norm_num at *; linarith
  have e0 := px0_low h1' ho.mixed h2
  have e1 := px1_low h1' ho.mixed h2
  have lt := L_lt_V a b ho
  rw [c] at lt
  exact ⟨_, round h h1' h2' hx e0 e1 (mid ho.mixed e0 e1 rfl rfl) lt.ne⟩

/-- Region 4 given, above 350 °C, when the saturated values differ. -/
theorem C29_high_partial (f : Fn) (o : Int) (h : byP f o) (p x : ℝ) (h1 : 16.5291642526047 ≤ p)
    (h2 : p ≤ 22.063999) (hx : x ∈ Icc (0 : ℝ) 1) (hne : FnX.px.call p 0 o ≠ FnX.px.call p 1 o) :
    ∃ y, FnX.px.call p x o = some y ∧ f.call p y Doc.idX 4 = some x := by
  have ho := h.quality.mixed
  have hD : o ≠ Doc.idD := by rcases h with ⟨-, rfl⟩ | ⟨-, rfl⟩ | ⟨-, rfl⟩ <;> decide
  have h1' : (0.000611212677444 : ℝ) ≤ p := by norm_num at *; linarith
  have h2' : p ≤ 22.064 := by norm_num at *; linarith
  have e0 := px0_high h1 h2 ho hD
  have e1 := px1_high h1 h2 ho hD
  rw [px_call h1' h2' (by norm_num) ho.neP ho.neX, px_call h1' h2' (by norm_num) ho.neP ho.neX, e0, e1] at hne
  exact ⟨_, round h h1' h2' hx e0 e1 (mid ho e0 e1 rfl rfl) (fun e => hne (by rw [e]))⟩

/-! ### detection -/

private theorem at273 {p : ℝ} (h1 : 0.000611212677445 ≤ p) (h2 : p ≤ 16.5291642526045) :
    InRange 1 p 273.15 ∧ InRange 1 p (T_saturation p) ∧ InRange 2 p (T_saturation p) ∧ InRange 2 p 1073.15 := by
  obtain ⟨a, b, c, d, -, -⟩ := inRange_isobar_low (by norm_num at *; linarith) h2
  exact ⟨a, b, c, d⟩

private theorem LV {p : ℝ} (b : T_saturation p ≤ 623.15) :
    L p (T_saturation p) OH = pT2h_reg1 p (T_saturation p) ∧ V p (T_saturation p) OH = pT2h_reg2 p (T_saturation p) ∧
    L p (T_saturation p) OS = pT2s_reg1 p (T_saturation p) ∧ V p (T_saturation p) OS = pT2s_reg2 p (T_saturation p) ∧
    L p (T_saturation p) OV = pT2v_reg1 p (T_saturation p) ∧ V p (T_saturation p) OV = pT2v_reg2 p (T_saturation p) := by
  unfold L V
  simp only [if_neg (not_lt.2 b)]
  exact ⟨rfl, rfl, rfl, rfl, rfl, rfl⟩

/-- The region found for the mixture: 4, or the saturated single phase at the two ends. -/
private theorem detected {f : Fn} {o : Int} (h : byP f o) {p x : ℝ} (h1 : 0.000611212677445 ≤ p)
    (hpv : f = .pv → 0.000611213 < p) (h2 : p ≤ 16.5291642526045) (hx : x ∈ Icc (0 : ℝ) 1) :
    let y := L p (T_saturation p) o + x * (V p (T_saturation p) o - L p (T_saturation p) o)
    f.detect p y = some 4 ∨ (x = 0 ∧ f.detect p y = some 1) ∨ (x = 1 ∧ f.detect p y = some 2) := by
  intro y
  obtain ⟨a, b, c⟩ := sat_low h1 h2
  obtain ⟨k1, k2, k3, k4⟩ := at273 h1 h2
  have lt := L_lt_V a b h.quality
  rw [c] at lt
  obtain ⟨e1, e2, e3, e4, e5, e6⟩ := LV b
  have h1' : (0.000611212677444 : ℝ) ≤ p := by norm_num at *; linarith
  have b1 : T_saturation p < 1073.15 := by norm_num at *; linarith
  have yl : L p (T_saturation p) o ≤ y := by
    have := mul_nonneg hx.1 (sub_nonneg.2 lt.le); simp only [y]; linarith
  have yv : y ≤ V p (T_saturation p) o := by
    have := mul_nonneg (sub_nonneg.2 hx.2) (sub_nonneg.2 lt.le); simp only [y]; linarith
  have y0 : y = L p (T_saturation p) o → x = 0 := fun e => by
    have : x * (V p (T_saturation p) o - L p (T_saturation p) o) = 0 := by simp only [y] at e; linarith
    exact (mul_eq_zero.1 this).resolve_right (sub_pos.2 lt).ne'
  have y1 : y = V p (T_saturation p) o → x = 1 := fun e => by
    have : (1 - x) * (V p (T_saturation p) o - L p (T_saturation p) o) = 0 := by simp only [y] at e; linarith
    linarith [(mul_eq_zero.1 this).resolve_right (sub_pos.2 lt).ne']
  clear_value y
  rcases h with ⟨rfl, rfl⟩ | ⟨rfl, rfl⟩ | ⟨rfl, rfl⟩
  · simp only [show Doc.idH = OH from rfl, e1, e2] at lt yl yv y0 y1
    simp only [Fn.detect, ph_low h1' h2, Option.some_inj]
    rcases eq_or_lt_of_le yl with hl | hl
    · right; left
      refine ⟨y0 hl.symm, if_pos ⟨?_, hl.symm.le⟩⟩
      rw [← hl, h1_eq k1.regular, h1_eq k2.regular]
      rcases eq_or_lt_of_le a with e | e
      · rw [← e]
      · exact (k1.H_lt k2 e).le
    · rcases eq_or_lt_of_le yv with hv | hv
      · right; right
        have top : y ≤ pT2h_reg2 p 1073.15 := by
          rw [hv, h2_eq k3.regular, h2_eq k4.regular]
          exact (k3.H_lt k4 b1).le
        refine ⟨y1 hv, ?_⟩
        rw [if_neg (fun h => absurd h.2 (not_le.2 hl)), if_neg (fun h => absurd h.2 (not_lt.2 hv.symm.le)), if_pos ⟨hv.symm.le, top⟩]
      · left
        rw [if_neg (fun h => absurd h.2 (not_le.2 hl)), if_pos ⟨hl, hv⟩]
  · simp only [show Doc.idS = OS from rfl, e3, e4] at lt yl yv y0 y1
    simp only [Fn.detect, ps_low h1' h2, Option.some_inj]
    rcases eq_or_lt_of_le yl with hl | hl
    · right; left
      refine ⟨y0 hl.symm, if_pos ⟨?_, hl.symm.le⟩⟩
      rw [← hl, s1_eq k1.regular, s1_eq k2.regular]
      rcases eq_or_lt_of_le a with e | e
      · rw [← e]
      · exact (k1.S_lt k2 e).le
    · rcases eq_or_lt_of_le yv with hv | hv
      · right; right
        have top : y ≤ pT2s_reg2 p 1073.15 := by
          rw [hv, s2_eq k3.regular, s2_eq k4.regular]
          exact (k3.S_lt k4 b1).le
        refine ⟨y1 hv, ?_⟩
        rw [if_neg (fun h => absurd h.2 (not_le.2 hl)), if_neg (fun h => absurd h.2 (not_lt.2 hv.symm.le)), if_pos ⟨hv.symm.le, top⟩]
      · left
        rw [if_neg (fun h => absurd h.2 (not_le.2 hl)), if_pos ⟨hl, hv⟩]
  · simp only [show Doc.idV = OV from rfl, e5, e6] at lt yl yv y0 y1
    simp only [Fn.detect, pv_low (hpv rfl) (h2.trans (by norm_num)), Option.some_inj]
    by_cases hc : pT2v_reg1 p 273.15 ≤ y ∧ y ≤ pT2v_reg1 p (T_saturation p)
    · right; left
      exact ⟨y0 (le_antisymm hc.2 yl), if_pos hc⟩
    · left
      rw [if_neg hc, if_neg (fun h => absurd h.1 (not_lt.2 yv)), if_pos ⟨yl, yv⟩]

/-- No region given: detection finds the mixture (or, at the two ends, the saturated single phase, whose
quality is 0 or 1).  `pv` treats pressures up to 0.000611213 MPa differently, so they are excluded there. -/
theorem C29_auto (f : Fn) (o : Int) (h : byP f o) (p x : ℝ) (h1 : 0.000611212677445 ≤ p)
    (hpv : f = .pv → 0.000611213 < p) (h2 : p ≤ 16.5291642526045) (hx : x ∈ Icc (0 : ℝ) 1) :
    ∃ y, FnX.px.call p x o = some y ∧ f.call0 p y Doc.idX = some x := by
  have ho := h.quality
  obtain ⟨a, b, c⟩ := sat_low h1 h2
  have h1' : (0.000611212677444 : ℝ) ≤ p := by norm_num at *; linarith
  have h2' : p ≤ 22.064 := by norm_num at *; linarith
  have e0 := px0_low h1' ho.mixed h2
  have e1 := px1_low h1' ho.mixed h2
  have lt := L_lt_V a b ho
  rw [c] at lt
  obtain ⟨r1, r2⟩ := round h h1' h2' hx e0 e1 (mid ho.mixed e0 e1 rfl rfl) lt.ne
  refine ⟨_, r1, ?_⟩
  rcases detected h h1 hpv h2 hx with d | ⟨rfl, d⟩ | ⟨rfl, d⟩
  · rw [← C02_region_consistent f _ _ _ 4 (by decide) d]; exact r2
  · rw [← C02_region_consistent f _ _ _ 1 (by decide) d, (C02_region_quality f _ _).1]; norm_num
  · rw [← C02_region_consistent f _ _ _ 2 (by decide) d, (C02_region_quality f _ _).2.1]; norm_num

/-- Concrete: 1 MPa, x = 0.3. -/
example : ∃ y, FnX.px.call (1 : ℝ) 0.3 Doc.idH = some y ∧ Fn.ph.call0 (1 : ℝ) y Doc.idX = some 0.3 :=
  C29_auto .ph Doc.idH (.inl ⟨rfl, rfl⟩) 1 0.3 (by norm_num) (fun h => by cases h) (by norm_num) (by norm_num)

end If97
