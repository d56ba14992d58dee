import Verif.Lemmas.Tm.R2
import Verif.Lemmas.Steps
import Verif.Lemmas.Tm.Comp.Region2

/-!
# Region 2: enclosures of the enthalpy and of T(p, h)

Coordinates β = p^(1/4) and τ = 540/T.
-/

namespace If97.Tm

theorem ti2_val (y : ℝ) : linV (et2.map (y ^ ·)) ti2 = idealSum1 r2_n0 r2_J0 9 y := by
  simp only [idealSum1, List.range', List.map_cons, List.map_nil, List.sum_cons, List.sum_nil, nthF, nthI, r2_n0, r2_J0,
    List.getD_cons_zero, List.getD_cons_succ, linV, ti2, et2, Co.val]
  norm_num

/-! ### units -/

/-- the terms of the table in the units -/
def scEq (xn xd yn yd : Nat) : List (Int × Int × Co) → List (Int × Int × Co) → Bool
  | [], [] => true
  | (I, J, a) :: l, (I', J', b) :: m =>
    decide (0 ≤ I) && decide (I = I') && decide (0 ≤ J) && decide (J = J') && (a.neg == b.neg) && Nat.blt 0 a.d &&
      Nat.blt 0 b.d && Nat.beq (a.n * b.d * xd ^ I.toNat * yd ^ J.toNat) (b.n * a.d * xn ^ I.toNat * yn ^ J.toNat) &&
      scEq xn xd yn yd l m
  | _, _ => false

structure Scl.Ok (K : Scl) : Prop where
  xn : 0 < K.xn
  xd : 0 < K.xd
  yn : 0 < K.yn
  yd : 0 < K.yd
  ok0 : tbOk K.t0 ex2.length ey2.length = true
  okg : tbOk K.tg ex2.length ey2.length = true
  e0 : scEq K.xn K.xd K.yn K.yd (flat ex2 ey2 K.t0) fl02 = true
  eg : scEq K.xn K.xd K.yn K.yd (flat ex2 ey2 K.tg) flg2 = true

theorem sc_term {xn xd yn yd i j : ℕ} {a b : Co} (h1 : 0 < xn) (h2 : 0 < xd) (h3 : 0 < yn) (h4 : 0 < yd)
    (hn : a.neg = b.neg) (ha : 0 < a.d) (hb : 0 < b.d)
    (h : a.n * b.d * xd ^ i * yd ^ j = b.n * a.d * xn ^ i * yn ^ j) (x y : ℝ) :
    a.val * (x * xd / xn) ^ i * (y * yd / yn) ^ j = b.val * x ^ i * y ^ j := by
  have h : ((a.n : ℝ) * b.d * xd ^ i * yd ^ j) = b.n * a.d * xn ^ i * yn ^ j := by exact_mod_cast h
  have h1 : (xn : ℝ) ≠ 0 := by positivity
  have h3 : (yn : ℝ) ≠ 0 := by positivity
  have ha : (a.d : ℝ) ≠ 0 := by positivity
  have hb : (b.d : ℝ) ≠ 0 := by positivity
  have e : ((a.n : ℝ) / a.d) * (x * xd / xn) ^ i * (y * yd / yn) ^ j = (b.n : ℝ) / b.d * x ^ i * y ^ j := by
    rw [div_pow, div_pow, mul_pow, mul_pow]
    field_simp
    linear_combination (x ^ i * y ^ j) * h
  obtain ⟨na, aa, da⟩ := a
  obtain ⟨nb, ab, db⟩ := b
  simp only at hn e
  subst hn
  cases na
  · simpa [Co.val] using e
  · simp only [Co.val, cond_true]
    linear_combination -e

theorem sumT_sc {xn xd yn yd : ℕ} (h1 : 0 < xn) (h2 : 0 < xd) (h3 : 0 < yn) (h4 : 0 < yd) (x y : ℝ) :
    ∀ l m : List (Int × Int × Co), scEq xn xd yn yd l m = true → sumT (x * xd / xn) (y * yd / yn) l = sumT x y m
  | [], [], _ => rfl
  | [], _ :: _, h => by simp [scEq] at h
  | _ :: _, [], h => by simp [scEq] at h
  | (I, J, a) :: l, (I', J', b) :: m, h => by
    simp only [scEq, Bool.and_eq_true, decide_eq_true_eq, beq_iff_eq, Nat.blt_eq, Nat.beq_eq] at h
    obtain ⟨⟨⟨⟨⟨⟨⟨⟨hI, rfl⟩, hJ⟩, rfl⟩, hn⟩, ha⟩, hb⟩, e⟩, h⟩ := h
    have ih := sumT_sc h1 h2 h3 h4 x y l m h
    obtain ⟨i, rfl⟩ := Int.eq_ofNat_of_zero_le hI
    obtain ⟨j, rfl⟩ := Int.eq_ofNat_of_zero_le hJ
    simp only [sumT, List.map_cons, List.sum_cons] at ih ⊢
    rw [ih]
    congr 1
    simp only [Int.toNat_natCast] at e
    simpa using sc_term h1 h2 h3 h4 hn ha hb e x y

theorem tg2_val {K : Scl} (hK : K.Ok) (x y : ℝ) : polyV (ex2.map ((x * K.xd / K.xn) ^ ·))
    (ey2.map (((y - 0.5) * K.yd / K.yn) ^ ·)) K.tg = poly_j_powi x (y - 0.5) r2_IJn := by
  rw [polyV_eq hK.okg, sumT_sc hK.xn hK.xd hK.yn hK.yd _ _ _ _ hK.eg, sumT_eqK g2_same, poly_j_powi_sum]

theorem K1_ok : K1.Ok where
  xn := by decide
  xd := by decide
  yn := by decide
  yd := by decide
  ok0 := by decide +kernel
  okg := by decide +kernel
  e0 := by decide +kernel
  eg := by decide +kernel

section
variable {P : Par} (hP : P.Ok) {u v : ℝ} (hu : |u| ≤ 1) (hv : |v| ≤ 1)
include hP hu hv

theorem st2_sound {xn xd yn yd : ℕ} (hy0 : 0 < yn) {p tau : TM} {k : List TM → List TM → List TM → Bool} {x y : ℝ}
    (h : st2 P xn xd yn yd p tau k = true) (hp : Enc P u v p x) (ht : Enc P u v tau y) :
    0 < y ∧ ∃ xs ys ts, List.Forall₂ (Enc P u v) xs (ex2.map ((x * xd / xn) ^ ·)) ∧
      List.Forall₂ (Enc P u v) ys (ey2.map (((y - 0.5) * yd / yn) ^ ·)) ∧
      List.Forall₂ (Enc P u v) ts (et2.map (y ^ ·)) ∧ k xs ys ts = true := by
  obtain ⟨Y, hY, h⟩ := lin_sound hP hu hv (.cons ht (.cons (enc_one hP) .nil)) h
  obtain ⟨Y, hY, h⟩ := refresh_sound hP h hY
  have eY : linV [y, 1] [(0, ⟨false, yd, yn⟩), (1, ⟨true, yd, Nat.mul (nat_lit 2) yn⟩)] = (y - 0.5) * yd / yn := by
    have e : ((Nat.mul (nat_lit 2) yn : ℕ) : ℝ) = 2 * yn := by push_cast [Nat.mul_eq]; rfl
    have : (yn : ℝ) ≠ 0 := by positivity
    simp only [linV, Co.val, List.map_cons, List.map_nil, List.sum_cons, List.sum_nil, List.getD_cons_zero,
      List.getD_cons_succ, e]
    norm_num
    field_simp; ring
  rw [eY] at hY
  obtain ⟨X, hX, h⟩ := lin_sound hP hu hv (.cons hp .nil) h
  obtain ⟨X, hX, h⟩ := refresh_sound hP h hX
  have eX : linV [x] [(0, ⟨false, xd, xn⟩)] = x * xd / xn := by
    simp [linV, Co.val]; ring
  rw [eX] at hX
  obtain ⟨h0, ti, hti, h⟩ := inv_sound hP hu hv h ht
  obtain ⟨xs, hxs, h⟩ := pows_sound hP hu hv h (.cons hX (.cons (enc_one hP) .nil))
  obtain ⟨ys, hys, h⟩ := pows_sound hP hu hv h (.cons hY (.cons (enc_one hP) .nil))
  obtain ⟨ts, hts, h⟩ := pows_sound hP hu hv h (.cons hti (.cons ht (.cons (enc_one hP) .nil)))
  refine ⟨h0, xs, ys, ts, ?_, ?_, ?_, h⟩
  · rw [← ex2_eq, ← powsV_eq (.inr (by decide)) (by decide)]
    simpa using hxs
  · rw [← ey2_eq, ← powsV_eq (.inr (by decide)) (by decide)]
    simpa using hys
  · rw [← et2_eq, ← powsV_eq (.inl h0.ne') (by decide)]
    simpa using hts

theorem gt2_sound {K : Scl} (hK : K.Ok) {p tau : TM} {k : TM → Bool} {x y : ℝ} (h : gt2 P K p tau k = true)
    (hp : Enc P u v p x) (ht : Enc P u v tau y) : 0 < y ∧ ∃ g, Enc P u v g (G2.gt x y) ∧ k g = true := by
  obtain ⟨h0, xs, ys, ts, hxs, hys, hts, h⟩ := st2_sound hP hu hv hK.yn h hp ht
  obtain ⟨g0, hg0, h⟩ := lin_sound hP hu hv hts h
  obtain ⟨gr, hgr, h⟩ := poly_sound0 hP hu hv hxs hys h
  obtain ⟨g, hg, h⟩ := lin_sound hP hu hv (.cons hg0 (.cons hgr .nil)) h
  obtain ⟨g, hg, h⟩ := refresh_sound hP h hg
  refine ⟨h0, g, ?_, h⟩
  rw [ti2_val, tg2_val hK] at hg
  convert hg using 1
  norm_num [linV, Co.val, G2, idealGibbs]

/-- `back_sound` for a table with negative powers of x -/
theorem back3_sound {chx chy : List (Nat × Nat)}
    {tb : List (Nat × List (Nat × Co))} {ex ey : List Int} {fl : List (Int × Int × Co)} {T : List (Int × Int × ℝ)}
    (hx : powE chx [-1, 1, 0] = ex) (hy : powE chy [1, 0] = ey) (cx : chOk chx 3 = true) (cy : chOk chy 2 = true)
    (ht : tbOk tb ex.length ey.length = true) (hf : flat ex ey tb = fl) (hs : List.Forall₂ SameT fl T)
    {s t : TM} {k : TM → Bool} {x y : ℝ}
    (h : (inv P 4 s fun si => pows P chx (fun xs => pows P chy (fun ys => poly P xs ys k tb (nat_lit 0) (nat_lit 0)
      (nat_lit 0) (nat_lit 0)) [t, tone P]) [si, s, tone P]) = true) (h1 : Enc P u v s x)
    (h2 : Enc P u v t y) : ∃ r, Enc P u v r (poly_powi x y T) ∧ k r = true := by
  obtain ⟨h0, si, hsi, h⟩ := inv_sound hP hu hv h h1
  obtain ⟨xs, hxs, h⟩ := pows_sound hP hu hv h (.cons hsi (.cons h1 (.cons (enc_one hP) .nil)))
  obtain ⟨ys, hys, h⟩ := pows_sound hP hu hv h (.cons h2 (.cons (enc_one hP) .nil))
  obtain ⟨r, hr, h⟩ := poly_sound0 hP hu hv hxs hys h
  refine ⟨r, ?_, h⟩
  have ex' : powsV chx [x⁻¹, x, 1] = ex.map (x ^ ·) := by
    rw [← hx, ← powsV_eq (.inl h0.ne') (by simpa using cx)]; simp
  have ey' : powsV chy [y, 1] = ey.map (y ^ ·) := by
    rw [← hy, ← powsV_eq (.inr (by decide)) (by simpa using cy)]; simp
  rw [ex', ey', polyV_eq ht, hf, sumT_eq hs] at hr
  rwa [poly_powi_sum]

end

/-- the enthalpy at (β, τ) -/
noncomputable def h2 (β τ : ℝ) : ℝ := 0.461526 * 540 * G2.gt (β ^ 4) τ

/-- the states of region 2 in these coordinates, with the tolerance the code gives to the saturation line -/
def Dom2 (β τ : ℝ) : Prop :=
  273 ≤ 540 / τ ∧ (540 / τ ≤ 623.15 → β ^ 4 ≤ Sat.psat (540 / τ) + 1e-7) ∧
    (623.15 ≤ 540 / τ → 540 / τ ≤ 863.15 → β ^ 4 ≤ Domain.pB23 (540 / τ) + 1e-7)

theorem kB_ok {P : Par} (hP : P.Ok) : BodyOk P (kB P) fun β τ => 0 < τ ∧ Domain.pB23 (540 / τ) + 1e-7 < β ^ 4 := by
  intro u v hu hv b tau β τ hb ht h
  obtain ⟨h0, ti, hti, h⟩ := inv_sound hP hu hv h ht
  obtain ⟨p, hp, h⟩ := p4_sound hP hu hv h hb
  obtain ⟨T, hT, h⟩ := lin_sound hP hu hv (.cons hti .nil) h
  obtain ⟨T2, hT2, h⟩ := mul_sound hP hu hv h hT hT
  obtain ⟨q, hq, h⟩ := lin_sound hP hu hv (.cons hp (.cons hT2 (.cons hT (.cons (enc_one hP) .nil)))) h
  have hq := pos_sound hP hu hv h hq
  have eT : linV [τ⁻¹] [(0, ⟨false, 540, 1⟩)] = 540 / τ := by
    norm_num [linV, Co.val]; ring
  rw [eT] at hq
  refine ⟨h0, ?_⟩
  generalize 540 / τ = z at *
  unfold Domain.pB23
  norm_num [linV, Co.val] at hq ⊢
  linarith

theorem bPh2a_ok {P : Par} (hP : P.Ok) {K : Scl} (hK : K.Ok) {tn td : ℕ} :
    BodyOk P (bPh2a P K tn td) fun β τ => |ph2T_reg2a (β ^ 4) (h2 β τ) - 540 / τ| ≤ tn / td := by
  intro u v hu hv b tau β τ hb ht h
  obtain ⟨p, hp, h⟩ := p4_sound hP hu hv h hb
  obtain ⟨h0, g, hg, h⟩ := gt2_sound hP hu hv hK h hp ht
  obtain ⟨eta, heta, h⟩ := lin_sound hP hu hv (.cons hg (.cons (enc_one hP) .nil)) h
  obtain ⟨eta, heta, h⟩ := refresh_sound hP h heta
  obtain ⟨th, hth, h⟩ := back_sound hP hu hv exPh2a_eq eyPh2a_eq (by decide) (by decide) tbPh2a_ok flPh2a_eq Ph2a_same h hp heta
  have := close2_sound hP hu hv h hth ht h0
  have e : ∀ x g : ℝ, ph2T_reg2a x (0.461526 * 540 * g) = poly_powi x (linV [g, 1] [(0, ⟨false, 24922404, 200000000⟩),
      (1, ⟨true, 21, 10⟩)]) ph2T_reg2a_IJn := by
    intro x g
    have e1 : x / 1.0 = x := by norm_num
    have e2 : 0.461526 * 540 * g / 2000.0 - 2.1 = linV [g, 1] [(0, ⟨false, 24922404, 200000000⟩),
        (1, ⟨true, 21, 10⟩)] := by
      norm_num [linV, Co.val]; ring
    simp only [ph2T_reg2a, e1, e2]
    norm_num
  rw [h2, e]
  exact_mod_cast this

theorem bPh2b_ok {P : Par} (hP : P.Ok) {K : Scl} (hK : K.Ok) {tn td : ℕ} :
    BodyOk P (bPh2b P K tn td) fun β τ => |ph2T_reg2b (β ^ 4) (h2 β τ) - 540 / τ| ≤ tn / td := by
  intro u v hu hv b tau β τ hb ht h
  obtain ⟨p, hp, h⟩ := p4_sound hP hu hv h hb
  obtain ⟨h0, g, hg, h⟩ := gt2_sound hP hu hv hK h hp ht
  obtain ⟨eta, heta, h⟩ := lin_sound hP hu hv (.cons hg (.cons (enc_one hP) .nil)) h
  obtain ⟨eta, heta, h⟩ := refresh_sound hP h heta
  obtain ⟨pi, hpi, h⟩ := lin_sound hP hu hv (.cons hp (.cons (enc_one hP) .nil)) h
  obtain ⟨pi, hpi, h⟩ := refresh_sound hP h hpi
  obtain ⟨th, hth, h⟩ := back_sound hP hu hv exPh2b_eq eyPh2b_eq (by decide) (by decide) tbPh2b_ok flPh2b_eq Ph2b_same h hpi heta
  have := close2_sound hP hu hv h hth ht h0
  have e : ∀ x g : ℝ, ph2T_reg2b x (0.461526 * 540 * g) = poly_powi (linV [x, 1] [(0, ⟨false, 1, 1⟩), (1, ⟨true, 2, 1⟩)])
      (linV [g, 1] [(0, ⟨false, 24922404, 200000000⟩), (1, ⟨true, 26, 10⟩)]) ph2T_reg2b_IJn := by
    intro x g
    have e1 : x / 1.0 - 2.0 = linV [x, 1] [(0, ⟨false, 1, 1⟩), (1, ⟨true, 2, 1⟩)] := by
      norm_num [linV, Co.val]; ring
    have e2 : 0.461526 * 540 * g / 2000.0 - 2.6 = linV [g, 1] [(0, ⟨false, 24922404, 200000000⟩),
        (1, ⟨true, 26, 10⟩)] := by
      norm_num [linV, Co.val]; ring
    simp only [ph2T_reg2b, e1, e2, poly_powi_steps]
    rw [stepsFold_eq _ _ _ _ (by decide +kernel)]
    unfold poly_powi
    norm_num
  rw [h2, e]
  exact_mod_cast this

theorem bPh2c_ok {P : Par} (hP : P.Ok) {K : Scl} (hK : K.Ok) {tn td : ℕ} :
    BodyOk P (bPh2c P K tn td) fun β τ => |ph2T_reg2c (β ^ 4) (h2 β τ) - 540 / τ| ≤ tn / td := by
  intro u v hu hv b tau β τ hb ht h
  obtain ⟨p, hp, h⟩ := p4_sound hP hu hv h hb
  obtain ⟨h0, g, hg, h⟩ := gt2_sound hP hu hv hK h hp ht
  obtain ⟨eta, heta, h⟩ := lin_sound hP hu hv (.cons hg (.cons (enc_one hP) .nil)) h
  obtain ⟨eta, heta, h⟩ := refresh_sound hP h heta
  obtain ⟨pi, hpi, h⟩ := lin_sound hP hu hv (.cons hp (.cons (enc_one hP) .nil)) h
  obtain ⟨pi, hpi, h⟩ := refresh_sound hP h hpi
  obtain ⟨th, hth, h⟩ := back3_sound hP hu hv exPh2c_eq eyPh2c_eq (by decide) (by decide) tbPh2c_ok flPh2c_eq Ph2c_same h hpi heta
  have := close2_sound hP hu hv h hth ht h0
  have e : ∀ x g : ℝ, ph2T_reg2c x (0.461526 * 540 * g) = poly_powi (linV [x, 1] [(0, ⟨false, 1, 1⟩), (1, ⟨false, 25, 1⟩)])
      (linV [g, 1] [(0, ⟨false, 24922404, 200000000⟩), (1, ⟨true, 18, 10⟩)]) ph2T_reg2c_IJn := by
    intro x g
    have e1 : x / 1.0 + 25.0 = linV [x, 1] [(0, ⟨false, 1, 1⟩), (1, ⟨false, 25, 1⟩)] := by
      norm_num [linV, Co.val]
    have e2 : 0.461526 * 540 * g / 2000.0 - 1.8 = linV [g, 1] [(0, ⟨false, 24922404, 200000000⟩),
        (1, ⟨true, 18, 10⟩)] := by
      norm_num [linV, Co.val]; ring
    simp only [ph2T_reg2c, e1, e2]
    norm_num
  rw [h2, e]
  exact_mod_cast this

/-! ### the boundary between 2b and 2c -/

theorem h2bc_eq (p : ℝ) : enthalpy_2bc p = 2652.6571908428 + Real.sqrt ((p - 4.5257578905948) / 0.00012809002730136) := by
  simp only [enthalpy_2bc, nthF, enthalpy_2bc_n, List.getD_cons_succ, List.getD_cons_zero]
  norm_num [fsqrt, Flt.sqrt]

theorem side2_sound {P : Par} (hP : P.Ok) {u v : ℝ} (hu : |u| ≤ 1) (hv : |v| ≤ 1) {p g : TM} {k : TM → TM → Bool}
    {x y : ℝ} (h : side2 P p g k = true) (hp : Enc P u v p x) (hg : Enc P u v g y) :
    ∃ d w, Enc P u v d (0.461526 * 540 * y - 2652.6571908428) ∧
      Enc P u v w (0.00012809002730136 * (0.461526 * 540 * y - 2652.6571908428) ^ 2 + 4.5257578905948 - x) ∧
      k d w = true := by
  obtain ⟨d, hd, h⟩ := lin_sound hP hu hv (.cons hg (.cons (enc_one hP) .nil)) h
  obtain ⟨d, hd, h⟩ := refresh_sound hP h hd
  obtain ⟨d2, hd2, h⟩ := mul_sound hP hu hv h hd hd
  obtain ⟨w, hw, h⟩ := lin_sound hP hu hv (.cons hd2 (.cons hp (.cons (enc_one hP) .nil))) h
  obtain ⟨w, hw, h⟩ := refresh_sound hP h hw
  refine ⟨d, w, ?_, ?_, h⟩
  · convert hd using 1; norm_num [linV, Co.val]; ring
  · convert hw using 1; norm_num [linV, Co.val]; ring

theorem kC_ok {P : Par} (hP : P.Ok) {K : Scl} (hK : K.Ok) :
    BodyOk P (kC P K) fun β τ => h2 β τ < enthalpy_2bc (β ^ 4) := by
  intro u v hu hv b tau β τ hb ht h
  obtain ⟨p, hp, h⟩ := p4_sound hP hu hv h hb
  obtain ⟨h0, g, hg, h⟩ := gt2_sound hP hu hv hK h hp ht
  obtain ⟨d, w, hd, hw, h⟩ := side2_sound hP hu hv h hp hg
  have k := neg_pos_sound hP hu hv h hw
  rw [h2bc_eq, h2]
  generalize 0.461526 * 540 * G2.gt _ _ = z at *
  generalize β ^ 4 = x at *
  have : z - 2652.6571908428 < Real.sqrt ((x - 4.5257578905948) / 0.00012809002730136) := by
    refine Real.lt_sqrt_of_sq_lt ?_
    rw [lt_div_iff₀ (by norm_num)]; linarith
  linarith

theorem kD_ok {P : Par} (hP : P.Ok) {K : Scl} (hK : K.Ok) :
    BodyOk P (kD P K) fun β τ => ¬ h2 β τ < enthalpy_2bc (β ^ 4) := by
  intro u v hu hv b tau β τ hb ht h
  obtain ⟨p, hp, h⟩ := p4_sound hP hu hv h hb
  obtain ⟨h0, g, hg, h⟩ := gt2_sound hP hu hv hK h hp ht
  obtain ⟨d, w, hd, hw, h⟩ := side2_sound hP hu hv h hp hg
  obtain ⟨h1, h2'⟩ := gd_true h
  have k1 := pos_sound hP hu hv h1 hw
  have k2 := pos_sound hP hu hv h2' hd
  rw [h2bc_eq, h2]
  generalize 0.461526 * 540 * G2.gt _ _ = z at *
  generalize β ^ 4 = x at *
  have : Real.sqrt ((x - 4.5257578905948) / 0.00012809002730136) ≤ z - 2652.6571908428 := by
    refine Real.sqrt_le_iff.2 ⟨k2.le, ?_⟩
    rw [div_le_iff₀ (by norm_num)]; linarith
  linarith

end If97.Tm
