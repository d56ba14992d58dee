import Verif.Lemmas.Tm.Leaf1
import Verif.Lemmas.InRange
import Verif.Lemmas.Tm.Comp.Region2

/-!
# Subdivisions that follow the boundaries of a region

The coordinates are β = p^(1/4) and the position s ∈ [0, 1] of τ between two polynomials A(β) and B(β) that
follow the boundary of the region.  A leaf of the subdivision is either a box on which the claim is checked
or a box shown to lie on the wrong side of a subregion boundary.
-/

namespace If97.Tm

/-- the claim holds on the box |X - xc/D| ≤ xr/D, |Y - yc/E| ≤ yr/E -/
def Good (R : ℝ → ℝ → Prop) (xr yr xc D yc E : ℕ) : Prop :=
  ∀ X Y : ℝ, |X * D - xc| ≤ xr → |Y * E - yc| ≤ yr → R X Y

theorem LeafOk.good {leaf : Nat → Nat → Nat → Nat → Bool} {xr yr : ℕ} {R : ℝ → ℝ → Prop} (hl : LeafOk leaf xr yr R)
    {xc D yc E : ℕ} (hD : 0 < D) (hE : 0 < E) (hx : xr ≤ xc) (hy : yr ≤ yc) (h : leaf xc D yc E = true) :
    Good R xr yr xc D yc E := by
  intro X Y hX hY
  obtain ⟨u, hu, rfl⟩ := coord hD hX
  obtain ⟨v, hv, rfl⟩ := coord hE hY
  exact hl xc D yc E hD hE hx hy h u v hu hv

theorem Good.x {R : ℝ → ℝ → Prop} {xr yr xc D yc E xl xh D' : ℕ} (h1 : Good R xr yr xl D' yc E)
    (h2 : Good R xr yr xh D' yc E) (e1 : xl + xr = 2 * xc) (e2 : xh = 2 * xc + xr) (e3 : D' = 2 * D) :
    Good R xr yr xc D yc E := by
  intro X Y hX hY
  have f1 : (xl : ℝ) + xr = 2 * xc := by exact_mod_cast e1
  have f2 : (xh : ℝ) = 2 * xc + xr := by exact_mod_cast e2
  have f3 : (D' : ℝ) = 2 * D := by exact_mod_cast e3
  rw [abs_le] at hX
  rcases le_total (X * D) xc with hc | hc
  · refine h1 X Y ?_ hY
    rw [abs_le, f3]; constructor <;> nlinarith [hX.1, hX.2]
  · refine h2 X Y ?_ hY
    rw [abs_le, f3, f2]; constructor <;> nlinarith [hX.1, hX.2]

theorem Good.y {R : ℝ → ℝ → Prop} {xr yr xc D yc E yl yh E' : ℕ} (h1 : Good R xr yr xc D yl E')
    (h2 : Good R xr yr xc D yh E') (e1 : yl + yr = 2 * yc) (e2 : yh = 2 * yc + yr) (e3 : E' = 2 * E) :
    Good R xr yr xc D yc E := by
  intro X Y hX hY
  have f1 : (yl : ℝ) + yr = 2 * yc := by exact_mod_cast e1
  have f2 : (yh : ℝ) = 2 * yc + yr := by exact_mod_cast e2
  have f3 : (E' : ℝ) = 2 * E := by exact_mod_cast e3
  rw [abs_le] at hY
  rcases le_total (Y * E) yc with hc | hc
  · refine h1 X Y hX ?_
    rw [abs_le, f3]; constructor <;> nlinarith [hY.1, hY.2]
  · refine h2 X Y hX ?_
    rw [abs_le, f3, f2]; constructor <;> nlinarith [hY.1, hY.2]

theorem verify4_sound {A B C D' : Nat → Nat → Nat → Nat → Bool} {xr yr : ℕ} {R : ℝ → ℝ → Prop}
    (hA : LeafOk A xr yr R) (hB : LeafOk B xr yr R) (hC : LeafOk C xr yr R) (hD' : LeafOk D' xr yr R) {t : Tr4}
    {xc D yc E : ℕ} (hD : 0 < D) (hE : 0 < E) (hx : xr ≤ xc) (hy : yr ≤ yc)
    (h : verify4 A B C D' xr yr t xc D yc E = true) : Good R xr yr xc D yc E := by
  induction t generalizing xc D yc E with
  | a => exact hA.good hD hE hx hy h
  | b => exact hB.good hD hE hx hy h
  | c => exact hC.good hD hE hx hy h
  | d => exact hD'.good hD hE hx hy h
  | x s t ih1 ih2 =>
    have h' : gd (verify4 A B C D' xr yr s (2 * xc - xr) (2 * D) yc E)
        (verify4 A B C D' xr yr t (2 * xc + xr) (2 * D) yc E) = true := by
      have h0 : stepX xr (verify4 A B C D' xr yr s) (verify4 A B C D' xr yr t) xc D yc E = true := h
      simp only [stepX, force_eq] at h0
      exact h0
    obtain ⟨h1, h2⟩ := gd_true h'
    exact Good.x (ih1 (by omega) hE (by omega) hy h1) (ih2 (by omega) hE (by omega) hy h2) (by omega) rfl rfl
  | y s t ih1 ih2 =>
    have h' : gd (verify4 A B C D' xr yr s xc D (2 * yc - yr) (2 * E))
        (verify4 A B C D' xr yr t xc D (2 * yc + yr) (2 * E)) = true := by
      have h0 : stepY yr (verify4 A B C D' xr yr s) (verify4 A B C D' xr yr t) xc D yc E = true := h
      simp only [stepY, force_eq] at h0
      exact h0
    obtain ⟨h1, h2⟩ := gd_true h'
    exact Good.y (ih1 hD (by omega) hx (by omega) h1) (ih2 hD (by omega) hx (by omega) h2) (by omega) rfl rfl

theorem never_ok {xr yr : ℕ} {R : ℝ → ℝ → Prop} : LeafOk never xr yr R := by
  intro xc D yc E _ _ _ _ h; exact absurd h (by simp [never])

/-! ### bounds of a box -/

theorem box_le {xc xr D : ℕ} {u : ℝ} (hu : |u| ≤ 1) (hD : 0 < D) :
    ((xc : ℝ) - xr) / D ≤ xc / D + xr / D * u ∧ (xc / D + xr / D * u : ℝ) ≤ (xc + xr) / D := by
  have hD' : (0 : ℝ) < D := by exact_mod_cast hD
  have h0 : 0 ≤ (xr : ℝ) / D := by positivity
  obtain ⟨h1, h2⟩ := abs_le.1 hu
  rw [sub_div, add_div]
  constructor <;> nlinarith

/-! ### powers of β -/

theorem p4_sound {P : Par} (hP : P.Ok) {u v : ℝ} (hu : |u| ≤ 1) (hv : |v| ≤ 1) {b : TM} {k : TM → Bool} {x : ℝ}
    (h : p4 P b k = true) (hb : Enc P u v b x) : ∃ t, Enc P u v t (x ^ 4) ∧ k t = true := by
  obtain ⟨b2, h2, h⟩ := mul_sound hP hu hv h hb hb
  obtain ⟨b4, h4, h⟩ := mul_sound hP hu hv h h2 h2
  exact ⟨b4, by convert h4 using 1; ring, h⟩

theorem neg_pos_sound {P : Par} (hP : P.Ok) {u v : ℝ} (hu : |u| ≤ 1) (hv : |v| ≤ 1) {t : TM} {x : ℝ}
    (h : pos P ⟨t.q, t.p, t.r, t.nm⟩ = true) (ht : Enc P u v t x) : x < 0 := by
  have := pos_sound hP hu hv h ht.neg; linarith

/-! ### the saturation equation -/

theorem satQ_sound {P : Par} (hP : P.Ok) {u v : ℝ} (hu : |u| ≤ 1) (hv : |v| ≤ 1) {Ts : ℕ} {b tau : TM}
    {k : TM → Bool} {x y : ℝ} (h : satQ P Ts b tau k = true) (hb : Enc P u v b x) (ht : Enc P u v tau y) :
    0 < y ∧ ∃ t, Enc P u v t (Sat.Qf x (Sat.th (Ts / y))) ∧ k t = true := by
  obtain ⟨h0, ti, hti, h⟩ := inv_sound hP hu hv h ht
  refine ⟨h0, ?_⟩
  obtain ⟨w, hw, h⟩ := lin_sound hP hu hv (.cons hti (.cons (enc_one hP) .nil)) h
  obtain ⟨w, hw, h⟩ := refresh_sound hP h hw
  obtain ⟨hw0, wi, hwi, h⟩ := inv_sound hP hu hv h hw
  obtain ⟨th, hth, h⟩ := lin_sound hP hu hv (.cons hti (.cons hwi .nil)) h
  obtain ⟨th, hth, h⟩ := refresh_sound hP h hth
  have e : linV [y⁻¹, (linV [y⁻¹, 1] [(0, ⟨true, Ts, 1⟩), (1, ⟨false, 65017534844798, 100000000000⟩)])⁻¹]
      [(0, ⟨false, Ts, 1⟩), (1, ⟨false, 23855557567849, 100000000000000⟩)] = Sat.th (Ts / y) := by
    have e1 : linV [y⁻¹, 1] [(0, ⟨true, Ts, 1⟩), (1, ⟨false, 65017534844798, 100000000000⟩)]
        = -((Ts / y : ℝ) - 650.17534844798) := by
      norm_num [linV, Co.val]; ring
    rw [e1, inv_neg]
    unfold Sat.th
    generalize ((Ts / y : ℝ) - 650.17534844798) = z
    norm_num [linV, Co.val]; ring
  rw [e] at hth
  obtain ⟨th2, hth2, h⟩ := mul_sound hP hu hv h hth hth
  obtain ⟨A, hA, h⟩ := lin_sound hP hu hv (.cons hth2 (.cons hth (.cons (enc_one hP) .nil))) h
  obtain ⟨A, hA, h⟩ := refresh_sound hP h hA
  obtain ⟨B, hB, h⟩ := lin_sound hP hu hv (.cons hth2 (.cons hth (.cons (enc_one hP) .nil))) h
  obtain ⟨B, hB, h⟩ := refresh_sound hP h hB
  obtain ⟨C, hC, h⟩ := lin_sound hP hu hv (.cons hth2 (.cons hth (.cons (enc_one hP) .nil))) h
  obtain ⟨C, hC, h⟩ := refresh_sound hP h hC
  obtain ⟨g, hg, h⟩ := mul_sound hP hu hv h hA hb
  obtain ⟨g, hg, h⟩ := lin_sound hP hu hv (.cons hg (.cons hB .nil)) h
  obtain ⟨g, hg, h⟩ := refresh_sound hP h hg
  obtain ⟨g, hg, h⟩ := mul_sound hP hu hv h hg hb
  obtain ⟨g, hg, h⟩ := lin_sound hP hu hv (.cons hg (.cons hC .nil)) h
  refine ⟨g, ?_, h⟩
  convert hg using 1
  unfold Sat.Qf Sat.qA Sat.qB Sat.qC
  generalize Sat.th (Ts / y) = z
  norm_num [linV, Co.val]; ring

/-- β below 2.02 stays on the branch of the quadratic that decreases -/
theorem slope {x b : ℝ} (h1 : 273 ≤ x) (h2 : x ≤ 626) (hb0 : 0 ≤ b) (hb : b ≤ 2.02) :
    2 * Sat.qA x * b + Sat.qB x < 0 := by
  have hB : Sat.qB x < 0 := Sat.qB_neg x
  have hA : 2 * Sat.qA x * 2.02 + Sat.qB x < 0 := by
    unfold Sat.qA Sat.qB; norm_num at *; nlinarith
  have hb' : b ≤ 2.02 := hb
  rcases le_or_gt (Sat.qA x) 0 with h | h
  · nlinarith
  · have : Sat.qA x * b ≤ Sat.qA x * 2.02 := mul_le_mul_of_nonneg_left hb' h.le
    linarith

theorem th_le {T : ℝ} (h2 : T ≤ 623.3) : Sat.th T ≤ 626 := by
  unfold Sat.th
  have h : 26 ≤ -(T - 650.17534844798) := by norm_num at *; linarith
  have : -0.23855557567849 / (T - 650.17534844798) ≤ 1 := by
    rw [← neg_div_neg_eq, div_le_one (by linarith)]
    norm_num at *; linarith
  norm_num at *; linarith

/-! ### checks as functions of the models of β and τ -/

/-- what a check of two models has to establish -/
def BodyOk (P : Par) (body : TM → TM → Bool) (R : ℝ → ℝ → Prop) : Prop :=
  ∀ (u v : ℝ), |u| ≤ 1 → |v| ≤ 1 → ∀ (b tau : TM) (β τ : ℝ), Enc P u v b β → Enc P u v tau τ → body b tau = true → R β τ

theorem BodyOk.imp {P : Par} {body : TM → TM → Bool} {R R' : ℝ → ℝ → Prop} (h : BodyOk P body R)
    (hi : ∀ x y, R x y → R' x y) : BodyOk P body R' :=
  fun u v hu hv b tau β τ hb ht k => hi _ _ (h u v hu hv b tau β τ hb ht k)

noncomputable def Q6.val (q : Q6) (x : ℝ) : ℝ :=
  ((((q.c5.val * x + q.c4.val) * x + q.c3.val) * x + q.c2.val) * x + q.c1.val) * x + q.c0.val

section
variable {P : Par} (hP : P.Ok) {u v : ℝ} (hu : |u| ≤ 1) (hv : |v| ≤ 1)
include hP hu hv

theorem lin_add {s t : TM} {x y : ℝ} {k : TM → Bool} (hs : Enc P u v s x) (ht : Enc P u v t y)
    (h : lin P [s, t] [(0, ⟨false, 1, 1⟩), (1, ⟨false, 1, 1⟩)] k = true) : ∃ r, Enc P u v r (x + y) ∧ k r = true := by
  obtain ⟨r, hr, h⟩ := lin_sound hP hu hv (.cons hs (.cons ht .nil)) h
  refine ⟨r, ?_, h⟩
  convert hr using 1; norm_num [linV, Co.val]

theorem lin_sub {s t : TM} {x y : ℝ} {k : TM → Bool} (hs : Enc P u v s x) (ht : Enc P u v t y)
    (h : lin P [s, t] [(0, ⟨false, 1, 1⟩), (1, ⟨true, 1, 1⟩)] k = true) : ∃ r, Enc P u v r (x - y) ∧ k r = true := by
  obtain ⟨r, hr, h⟩ := lin_sound hP hu hv (.cons hs (.cons ht .nil)) h
  refine ⟨r, ?_, h⟩
  convert hr using 1; norm_num [linV, Co.val]; ring

theorem lin_const {t : TM} {x : ℝ} {c : Co} {k : TM → Bool} (ht : Enc P u v t x)
    (h : lin P [t, tone P] [(0, ⟨false, 1, 1⟩), (1, c)] k = true) : ∃ r, Enc P u v r (x + c.val) ∧ k r = true := by
  obtain ⟨r, hr, h⟩ := lin_sound hP hu hv (.cons ht (.cons (enc_one hP) .nil)) h
  refine ⟨r, ?_, h⟩
  convert hr using 1; simp [linV]; norm_num [Co.val]

theorem polyB_sound {q : Q6} {b : TM} {k : TM → Bool} {x : ℝ} (h : polyB P q b k = true) (hb : Enc P u v b x) :
    ∃ t, Enc P u v t (q.val x) ∧ k t = true := by
  obtain ⟨a, ha, h⟩ := lin_sound hP hu hv (.cons hb (.cons (enc_one hP) .nil)) h
  obtain ⟨a, ha, h⟩ := mul_sound hP hu hv h ha hb
  obtain ⟨a, ha, h⟩ := lin_const hP hu hv ha h
  obtain ⟨a, ha, h⟩ := mul_sound hP hu hv h ha hb
  obtain ⟨a, ha, h⟩ := lin_const hP hu hv ha h
  obtain ⟨a, ha, h⟩ := mul_sound hP hu hv h ha hb
  obtain ⟨a, ha, h⟩ := lin_const hP hu hv ha h
  obtain ⟨a, ha, h⟩ := mul_sound hP hu hv h ha hb
  obtain ⟨a, ha, h⟩ := lin_const hP hu hv ha h
  obtain ⟨a, ha, h⟩ := refresh_sound hP h ha
  refine ⟨a, ?_, h⟩
  convert ha using 1
  simp [linV, Q6.val]

theorem fan_sound {A B : Q6} {b s : TM} {k : TM → Bool} {x y : ℝ} (h : fan P A B b s k = true) (hb : Enc P u v b x)
    (hs : Enc P u v s y) : ∃ t, Enc P u v t (A.val x + y * (B.val x - A.val x)) ∧ k t = true := by
  obtain ⟨a, ha, h⟩ := polyB_sound hP hu hv h hb
  obtain ⟨c, hc, h⟩ := polyB_sound hP hu hv h hb
  obtain ⟨d, hd, h⟩ := lin_sub hP hu hv hc ha h
  obtain ⟨d, hd, h⟩ := refresh_sound hP h hd
  obtain ⟨m, hm, h⟩ := mul_sound hP hu hv h hs hd
  obtain ⟨t, ht, h⟩ := lin_add hP hu hv hm ha h
  obtain ⟨t, ht, h⟩ := refresh_sound hP h ht
  exact ⟨t, by rw [add_comm]; exact ht, h⟩

end

theorem leafF_ok {P : Par} (hP : P.Ok) {A B : Q6} {body : TM → TM → Bool} {R : ℝ → ℝ → Prop} (hb : BodyOk P body R)
    {xr yr : ℕ} : LeafOk (leafF P A B body xr yr) xr yr fun β s => R β (A.val β + s * (B.val β - A.val β)) := by
  intro xc D yc E _ _ _ _ h u v hu hv
  obtain ⟨b, s, hb', hs, h⟩ := base_sound hP hu hv h
  obtain ⟨tau, ht, h⟩ := fan_sound hP hu hv h hb' hs
  exact hb u v hu hv b tau _ _ hb' ht h

theorem leafQ_ok {P : Par} (hP : P.Ok) {q : Q6} {body : TM → TM → Bool} {R : ℝ → ℝ → Prop} (hb : BodyOk P body R)
    {xr yr : ℕ} : LeafOk (leafQ P q body xr yr) xr yr fun β _ => R β (q.val β) := by
  intro xc D yc E _ _ _ _ h u v hu hv
  obtain ⟨b, s, hb', hs, h⟩ := base_sound hP hu hv h
  obtain ⟨tau, ht, h⟩ := polyB_sound hP hu hv h hb'
  exact hb u v hu hv b tau _ _ hb' ht h

/-- τ between two curves, as a point of the fan -/
theorem fan_cover {a b τ : ℝ} (h1 : a ≤ τ) (h2 : τ ≤ b) : ∃ s, 0 ≤ s ∧ s ≤ 1 ∧ τ = a + s * (b - a) := by
  rcases eq_or_lt_of_le (h1.trans h2) with h | h
  · exact ⟨0, le_rfl, zero_le_one, by linarith⟩
  · have : 0 < b - a := by linarith
    refine ⟨(τ - a) / (b - a), div_nonneg (by linarith) this.le, (div_le_one this).2 (by linarith), ?_⟩
    field_simp; ring

theorem close2_sound {P : Par} (hP : P.Ok) {u v : ℝ} (hu : |u| ≤ 1) (hv : |v| ≤ 1) {th tau : TM} {Ts tn td : ℕ}
    {x y : ℝ} (h : close2 P th tau Ts tn td = true) (h1 : Enc P u v th x) (h2 : Enc P u v tau y) (h0 : 0 < y) :
    |x - Ts / y| ≤ tn / td := by
  obtain ⟨e, he, h⟩ := mul_sound hP hu hv h h1 h2
  obtain ⟨e, he, h⟩ := lin_const hP hu hv he h
  obtain ⟨ha, hb⟩ := gd_true h
  obtain ⟨d, hd, ha⟩ := lin_sound hP hu hv (.cons h2 (.cons he .nil)) ha
  obtain ⟨d', hd', hb⟩ := lin_sound hP hu hv (.cons h2 (.cons he .nil)) hb
  have ka := pos_sound hP hu hv ha hd
  have kb := pos_sound hP hu hv hb hd'
  have e0 : (Co.val ⟨true, Ts, 1⟩) = -(Ts : ℝ) := by simp [Co.val]
  have e1 : (Co.val ⟨false, tn, td⟩) = (tn : ℝ) / td := by simp [Co.val]
  have e2 : (Co.val ⟨true, 1, 1⟩) = -1 := by norm_num [Co.val]
  have e3 : (Co.val ⟨false, 1, 1⟩) = 1 := by norm_num [Co.val]
  simp only [linV, List.map_cons, List.map_nil, List.sum_cons, List.sum_nil, List.getD_cons_zero, List.getD_cons_succ,
    e0, e1, e2, e3] at ka kb
  have e4 : x - Ts / y = (x * y - Ts) / y := by field_simp
  rw [e4, abs_div, abs_of_pos h0, div_le_iff₀ h0, abs_le]
  constructor <;> linarith

theorem kS_ok {P : Par} (hP : P.Ok) {Ts : ℕ} : BodyOk P (kS P Ts) fun β τ =>
    273 ≤ Ts / τ → 0 < τ ∧ Ts / τ ≤ 623.3 ∧ Sat.psat (Ts / τ) + 1e-7 < β ^ 4 := by
  intro u v hu hv b tau β τ hb ht h hT
  obtain ⟨c1, h⟩ := gd_true h
  obtain ⟨c2, h⟩ := gd_true h
  obtain ⟨c3, h⟩ := gd_true h
  obtain ⟨d1, hd1, c1⟩ := lin_sound hP hu hv (.cons hb (.cons (enc_one hP) .nil)) c1
  obtain ⟨d2, hd2, c2⟩ := lin_sound hP hu hv (.cons hb (.cons (enc_one hP) .nil)) c2
  obtain ⟨d3, hd3, c3⟩ := lin_sound hP hu hv (.cons ht (.cons (enc_one hP) .nil)) c3
  have g1 := pos_sound hP hu hv c1 hd1
  have g2 := pos_sound hP hu hv c2 hd2
  have g3 := pos_sound hP hu hv c3 hd3
  norm_num [linV, Co.val] at g1 g2 g3
  obtain ⟨b, hb, h⟩ := lin_sound hP hu hv (.cons hb (.cons (enc_one hP) .nil)) h
  obtain ⟨b, hb, h⟩ := refresh_sound hP h hb
  obtain ⟨hy0, q, hq, h⟩ := satQ_sound hP hu hv h hb ht
  have hq := neg_pos_sound hP hu hv h hq
  have eb : linV [β, 1] [(0, ⟨false, 1, 1⟩), (1, ⟨true, 7, 1000000⟩)] = β - 7e-6 := by
    norm_num [linV, Co.val]; ring
  rw [eb] at hq
  have g4 : Ts / τ ≤ 623.3 := by
    rw [div_le_iff₀ hy0]; norm_num; linarith
  refine ⟨hy0, g4, ?_⟩
  have hm : (Ts / τ : ℝ) ∈ Set.Icc (273 : ℝ) 648 := ⟨hT, by norm_num at *; linarith⟩
  have k := Sat.psat_lt (b := β - 7e-6) hm
    (slope (Sat.th_mem hm).1 (th_le g4) (by norm_num at *; linarith) (by norm_num at *; linarith)) hq
  refine lt_of_lt_of_le (add_lt_add_left k _) ?_
  have e : β ^ 4 - ((β - 7e-6) ^ 4 + 1e-7) = 7e-6 * (4 * β ^ 3 - 6 * 7e-6 * β ^ 2 + 4 * 7e-6 ^ 2 * β - 7e-6 ^ 3) - 1e-7 := by ring
  have : 0 ≤ β ^ 4 - ((β - 7e-6) ^ 4 + 1e-7) := by
    rw [e]
    have h1 : (0.157 : ℝ) ≤ β := by norm_num; linarith
    have h2 : (0.157 : ℝ) ^ 2 ≤ β ^ 2 := pow_le_pow_left₀ (by norm_num) h1 2
    norm_num at *
    nlinarith
  linarith

end If97.Tm
