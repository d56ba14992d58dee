import Verif.Lemmas.Tm.Leaf2
import Verif.Lemmas.Tm.Comp.Region2

/-! Polynomials that follow the boundaries of region 2: the isotherm 1073.15 K, the saturation line, the boundary of
region 3 and the curve between the subregions 2b and 2c (generated). -/

namespace If97.Tm

end If97.Tm

/-! What the generated subdivisions of region 2 establish. -/

namespace If97.Tm

theorem chk_sound {A B C D' : Nat → Nat → Nat → Nat → Bool} {xr yr : ℕ} {R : ℝ → ℝ → Prop}
    (hA : LeafOk A xr yr R) (hB : LeafOk B xr yr R) (hC : LeafOk C xr yr R) (hD' : LeafOk D' xr yr R) {t : Tr4}
    {xc D yc E : ℕ} (h : chk xr yr xc D yc E (verify4 A B C D' xr yr t) = true) : Good R xr yr xc D yc E := by
  obtain ⟨h1, h⟩ := gd_true h
  obtain ⟨h2, h⟩ := gd_true h
  obtain ⟨h3, h⟩ := gd_true h
  obtain ⟨h4, h⟩ := gd_true h
  exact verify4_sound hA hB hC hD' (by simpa using h1) (by simpa using h2) (Nat.le_of_ble_eq_true h3)
    (Nat.le_of_ble_eq_true h4) h

/-- a claim in the coordinates of a fan -/
def Rf (R : ℝ → ℝ → Prop) (A B : Q6) (β s : ℝ) : Prop := R β (A.val β + s * (B.val β - A.val β))

def RPh2a (β τ : ℝ) : Prop := |ph2T_reg2a (β ^ 4) (h2 β τ) - 540 / τ| ≤ (1 : ℕ) / (100 : ℕ)
def RPh2b (β τ : ℝ) : Prop := ¬ h2 β τ < enthalpy_2bc (β ^ 4) →
  |ph2T_reg2b (β ^ 4) (h2 β τ) - 540 / τ| ≤ (1 : ℕ) / (100 : ℕ)
def RPh2c (β τ : ℝ) : Prop := h2 β τ < enthalpy_2bc (β ^ 4) →
  |ph2T_reg2c (β ^ 4) (h2 β τ) - 540 / τ| ≤ (25 : ℕ) / (1000 : ℕ)

variable {xr yr xc D yc E : ℕ}

theorem okPh2a {K : Scl} (hK : K.Ok) (A B : Q6) (t : Tr4) (h : chk xr yr xc D yc E (vPh2a K A B xr yr t) = true) :
    Good (Rf RPh2a A B) xr yr xc D yc E :=
  chk_sound (R := Rf RPh2a A B) (leafF_ok (R := RPh2a) P64_ok (bPh2a_ok P64_ok hK)) never_ok never_ok never_ok h

theorem okPh2b {K : Scl} (hK : K.Ok) (A B : Q6) (t : Tr4) (h : chk xr yr xc D yc E (vPh2b K A B xr yr t) = true) :
    Good (Rf RPh2b A B) xr yr xc D yc E :=
  chk_sound (R := Rf RPh2b A B) (leafF_ok (R := RPh2b) P80_ok ((bPh2b_ok P80_ok hK).imp fun _ _ h _ => h)) never_ok never_ok
    (leafF_ok (R := RPh2b) P80_ok ((kC_ok P80_ok hK).imp fun _ _ h k => absurd h k)) h

theorem okPh2c {K : Scl} (hK : K.Ok) (A B : Q6) (t : Tr4) (h : chk xr yr xc D yc E (vPh2c K A B xr yr t) = true) :
    Good (Rf RPh2c A B) xr yr xc D yc E :=
  chk_sound (R := Rf RPh2c A B) (leafF_ok (R := RPh2c) P64_ok ((bPh2c_ok P64_ok hK).imp fun _ _ h _ => h)) never_ok never_ok
    (leafF_ok (R := RPh2c) P64_ok ((kD_ok P64_ok hK).imp fun _ _ h k => absurd k h)) h

/-! ### the boundary curves -/

/-- a point above the saturation line, at most 623.15 K -/
def CurS (β τ : ℝ) : Prop := 0 < τ ∧ 273 < 540 / τ ∧ 540 / τ < 623.15 ∧ Sat.psat (540 / τ) + 1e-7 < β ^ 4
/-- a point above the saturation line, at most 623.3 K -/
def CurT (β τ : ℝ) : Prop := 0 < τ ∧ 273 < 540 / τ ∧ 540 / τ ≤ 623.3 ∧ Sat.psat (540 / τ) + 1e-7 < β ^ 4
/-- a point above the boundary of region 3, at most 863.15 K -/
def CurB (β τ : ℝ) : Prop := 0 < τ ∧ 540 / τ < 863.15 ∧ Domain.pB23 (540 / τ) + 1e-7 < β ^ 4

/-- τ > Ts/T0 -/
theorem gt_sound {P : Par} (hP : P.Ok) {u v : ℝ} (hu : |u| ≤ 1) (hv : |v| ≤ 1) {tau : TM} {y : ℝ} {a b : ℕ}
    (ht : Enc P u v tau y)
    (h : (lin P [tau, tone P] [(0, ⟨false, 1, 1⟩), (1, ⟨true, a, b⟩)] fun d => pos P d) = true) : (a : ℝ) / b < y := by
  obtain ⟨d, hd, h⟩ := lin_sound hP hu hv (.cons ht (.cons (enc_one hP) .nil)) h
  have g := pos_sound hP hu hv h hd
  have e3 : (Co.val ⟨false, 1, 1⟩) = 1 := by norm_num [Co.val]
  have e4 : (Co.val ⟨true, a, b⟩) = -((a : ℝ) / b) := by simp [Co.val, neg_div]
  simp only [linV, List.map_cons, List.map_nil, List.sum_cons, List.sum_nil, List.getD_cons_zero, List.getD_cons_succ,
    e3, e4] at g
  linarith

/-- τ < Ts/T0 -/
theorem lt_sound {P : Par} (hP : P.Ok) {u v : ℝ} (hu : |u| ≤ 1) (hv : |v| ≤ 1) {tau : TM} {y : ℝ} {a b : ℕ}
    (ht : Enc P u v tau y)
    (h : (lin P [tau, tone P] [(0, ⟨true, 1, 1⟩), (1, ⟨false, a, b⟩)] fun d => pos P d) = true) : y < (a : ℝ) / b := by
  obtain ⟨d, hd, h⟩ := lin_sound hP hu hv (.cons ht (.cons (enc_one hP) .nil)) h
  have g := pos_sound hP hu hv h hd
  have e3 : (Co.val ⟨true, 1, 1⟩) = -1 := by norm_num [Co.val]
  have e4 : (Co.val ⟨false, a, b⟩) = (a : ℝ) / b := by simp [Co.val]
  simp only [linV, List.map_cons, List.map_nil, List.sum_cons, List.sum_nil, List.getD_cons_zero, List.getD_cons_succ,
    e3, e4] at g
  linarith

theorem cT_ok {P : Par} (hP : P.Ok) : BodyOk P (cT P) CurT := by
  intro u v hu hv b tau β τ hb ht h
  obtain ⟨c, h⟩ := gd_true h
  have k := lt_sound hP hu hv ht c
  have hs := kS_ok hP u v hu hv b tau β τ hb ht h
  norm_num only [Nat.cast_ofNat] at k hs
  have h0 : 0 < τ := by
    by_contra h0
    have : 540 / τ ≤ 0 := div_nonpos_of_nonneg_of_nonpos (by norm_num) (not_lt.1 h0)
    obtain ⟨_, h⟩ := gd_true h
    obtain ⟨_, h⟩ := gd_true h
    obtain ⟨_, h⟩ := gd_true h
    obtain ⟨_, hb, h⟩ := lin_sound hP hu hv (.cons hb (.cons (enc_one hP) .nil)) h
    obtain ⟨_, hb, h⟩ := refresh_sound hP h hb
    exact h0 (satQ_sound hP hu hv h hb ht).1
  have e : 273 < 540 / τ := by
    rw [lt_div_iff₀ h0]; linarith
  have := hs e.le
  refine ⟨h0, e, ?_, ?_⟩
  · norm_num at *; exact this.2.1
  · norm_num at *; exact this.2.2

theorem cS_ok {P : Par} (hP : P.Ok) : BodyOk P (cS P) CurS := by
  intro u v hu hv b tau β τ hb ht h
  obtain ⟨c, h⟩ := gd_true h
  have k := gt_sound hP hu hv ht c
  obtain ⟨h0, e, _, g⟩ := cT_ok hP u v hu hv b tau β τ hb ht h
  refine ⟨h0, e, ?_, g⟩
  rw [div_lt_iff₀ h0]
  norm_num at k ⊢; linarith

theorem cB_ok {P : Par} (hP : P.Ok) : BodyOk P (cB P) CurB := by
  intro u v hu hv b tau β τ hb ht h
  obtain ⟨c, h⟩ := gd_true h
  have k := gt_sound hP hu hv ht c
  obtain ⟨h0, g⟩ := kB_ok hP u v hu hv b tau β τ hb ht h
  refine ⟨h0, ?_, g⟩
  rw [div_lt_iff₀ h0]
  norm_num at k ⊢; linarith

theorem okCur {body : TM → TM → Bool} {R : ℝ → ℝ → Prop} (hb : BodyOk P19 body R) (q : Q6) (t : Tr4)
    (h : chk xr yr xc D yc E (vCur body q xr yr t) = true) : Good (fun β _ => R β (q.val β)) xr yr xc D yc E :=
  chk_sound (leafQ_ok P19_ok hb) never_ok never_ok never_ok h

theorem okCurS (q : Q6) (t : Tr4) (h : chk xr yr xc D yc E (vCur (cS P19) q xr yr t) = true) :
    Good (fun β _ => CurS β (q.val β)) xr yr xc D yc E := okCur (cS_ok P19_ok) q t h
theorem okCurT (q : Q6) (t : Tr4) (h : chk xr yr xc D yc E (vCur (cT P19) q xr yr t) = true) :
    Good (fun β _ => CurT β (q.val β)) xr yr xc D yc E := okCur (cT_ok P19_ok) q t h
theorem okCurB (q : Q6) (t : Tr4) (h : chk xr yr xc D yc E (vCur (cB P19) q xr yr t) = true) :
    Good (fun β _ => CurB β (q.val β)) xr yr xc D yc E := okCur (cB_ok P19_ok) q t h

end If97.Tm
