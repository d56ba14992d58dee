import Verif.Lemmas.Tm.R3t
import Verif.Lemmas.Tm.Leaf3
import Verif.Lemmas.Tm.LeafD

/-!
# Region 3: T and v from (p, h) and from (p, s)

Coordinates δ = ρ/322 and τ = 647.096/T.  A box is accepted when it lies outside the region, or when the backward
equations of the subregion that holds it (of both, on the boundary) return T to within 25 mK and v to within 0.01 %.
-/

namespace If97.Tm

theorem sumT_eqS {k : ℝ} (hk : k ≠ 0) {l : List (Int × Int × Co)} {T : List (Int × Int × ℝ)}
    (h : List.Forall₂ (SameS k) l T) (x y : ℝ) :
    sumT x (k * y) l = (T.map fun e => e.2.2 * x ^ e.1 * y ^ e.2.1).sum := by
  induction h with
  | nil => simp [sumT]
  | cons h1 _ ih =>
    simp only [sumT, List.map_cons, List.sum_cons] at ih ⊢
    rw [ih, ← h1.2.2, h1.1, h1.2.1, mul_zpow]
    congr 1; ring

/-- what (p, h) gives at the state of temperature T and density d -/
def ClosePh (T d : ℝ) : Prop :=
  |ph2T_reg3 (Td2p_reg3 T d) (Td2h_reg3 T d) - T| ≤ 1 / 40 ∧
  |ph2v_reg3 (Td2p_reg3 T d) (Td2h_reg3 T d) * d - 1| ≤ 1 / 10000

/-- what (p, s) gives at the state of temperature T and density d -/
def ClosePs (T d : ℝ) : Prop :=
  |ps2T_reg3 (Td2p_reg3 T d) (Td2s_reg3 T d) - T| ≤ 1 / 40 ∧
  |ps2v_reg3 (Td2p_reg3 T d) (Td2s_reg3 T d) * d - 1| ≤ 1 / 10000

/-- the pressure at (δ, τ) -/
noncomputable def pP (δ τ : ℝ) : ℝ := Td2p_reg3 (647.096 / τ) (322 * δ)
noncomputable def pH (δ τ : ℝ) : ℝ := Td2h_reg3 (647.096 / τ) (322 * δ)
noncomputable def pS (δ τ : ℝ) : ℝ := Td2s_reg3 (647.096 / τ) (322 * δ)

section
variable {P : Par} (hP : P.Ok) {u v : ℝ} (hu : |u| ≤ 1) (hv : |v| ≤ 1)
include hP hu hv

theorem st3t_sound {d t : TM} {k : List TM → List TM → TM → TM → TM → Bool} {x y : ℝ} (h : st3t P d t k = true)
    (hd : Enc P u v d x) (ht : Enc P u v t y) (hx : 0 < x) :
    0 < y ∧ ∃ xs ys c ti p, List.Forall₂ (Enc P u v) xs (ex3.map (x ^ ·)) ∧
      List.Forall₂ (Enc P u v) ys (ey3.map (y ^ ·)) ∧ Enc P u v c (x * R3.fd x y) ∧ Enc P u v ti y⁻¹ ∧
      Enc P u v p (pP x y) ∧ k xs ys c ti p = true := by
  obtain ⟨xs, hxs, h⟩ := pows_sound hP hu hv h (.cons hd (.cons (enc_one hP) .nil))
  obtain ⟨ys, hys, h⟩ := pows_sound hP hu hv h (.cons ht (.cons (enc_one hP) .nil))
  have hxs : List.Forall₂ (Enc P u v) xs (ex3.map (x ^ ·)) := by
    rw [← ex3_eq, ← powsV_eq (.inr (by decide)) (by decide)]
    simpa using hxs
  have hys : List.Forall₂ (Enc P u v) ys (ey3.map (y ^ ·)) := by
    rw [← ey3_eq, ← powsV_eq (.inr (by decide)) (by decide)]
    simpa using hys
  obtain ⟨c, hc, h⟩ := poly_sound0 hP hu hv hxs hys h
  obtain ⟨c, hc, h⟩ := lin_sound hP hu hv (.cons hc (.cons (enc_one hP) .nil)) h
  obtain ⟨c, hc, h⟩ := refresh_sound hP h hc
  obtain ⟨h0, ti, hti, h⟩ := inv_sound hP hu hv h ht
  obtain ⟨m, hm, h⟩ := mul_sound hP hu hv h hd hti
  obtain ⟨m, hm, h⟩ := mul_sound hP hu hv h hm hc
  obtain ⟨p, hp, h⟩ := lin_sound hP hu hv (.cons hm .nil) h
  obtain ⟨p, hp, h⟩ := refresh_sound hP h hp
  have e1 : linV [polyV (ex3.map (x ^ ·)) (ey3.map (y ^ ·)) ti3, 1]
      [(0, ⟨false, 1, 1⟩), (1, ⟨false, 10658070028513, 10000000000000⟩)] = x * R3.fd x y := by
    rw [polyV_eq ti3_ok, fli3_eq, sumT_eqW same_i3, xi_sum _ hx.ne', R3.fd]
    generalize (poly_i_powi _ _ _ : ℝ) = z
    rw [mul_add, mul_div_cancel₀ _ hx.ne', n1]
    norm_num [linV, Co.val]; ring
  rw [e1] at hc hp
  refine ⟨h0, xs, ys, c, ti, p, hxs, hys, hc, hti, ?_, h⟩
  convert hp using 1
  rw [pP, R3.vP (by positivity) (by positivity), R3.P]
  have e2 : R3.xd (322 * x) = x := by unfold R3.xd; field_simp
  have e3 : R3.yt (647.096 / y) = y := by unfold R3.yt; field_simp
  rw [e2, e3]
  generalize R3.fd x y = z
  simp only [linV, List.map_cons, List.map_nil, List.sum_cons, List.sum_nil, List.getD_cons_zero, Co.val, gasR]
  norm_num
  field_simp
  norm_num
  ring

theorem kOut_sound {b2 b1 b0 : Co} {d t : TM} {x y : ℝ} (h : kOut P b2 b1 b0 d t = true) (hd : Enc P u v d x)
    (ht : Enc P u v t y) (hx : 0 < x) :
    100 < pP x y ∨ pP x y < b2.val * (y⁻¹ * y⁻¹) + b1.val * y⁻¹ + b0.val := by
  obtain ⟨-, xs, ys, c, ti, p, -, -, -, hti, hp, h⟩ := st3t_sound hP hu hv h hd ht hx
  cases e : lin P [p, tone P] [(0, ⟨false, 1, 1⟩), (1, ⟨true, 100, 1⟩)] fun w => pos P w with
  | true =>
    obtain ⟨w, hw, e⟩ := lin_sound hP hu hv (.cons hp (.cons (enc_one hP) .nil)) e
    have := pos_sound hP hu hv e hw
    left
    norm_num [linV, Co.val] at this; linarith
  | false =>
    rw [e] at h
    obtain ⟨t2, ht2, h⟩ := mul_sound hP hu hv h hti hti
    obtain ⟨w, hw, h⟩ := lin_sound hP hu hv (.cons ht2 (.cons hti (.cons (enc_one hP) (.cons hp .nil)))) h
    have := pos_sound hP hu hv h hw
    right
    have e3 : Co.val ⟨true, 1, 1⟩ = -1 := by norm_num [Co.val]
    simp only [linV, List.map_cons, List.map_nil, List.sum_cons, List.sum_nil, List.getD_cons_zero, List.getD_cons_succ,
      e3] at this
    linarith

theorem closeT_sound {f : ℕ} {ti r : TM} {x y : ℝ} (h : closeT P f ti r = true) (hr : Enc P u v r x)
    (ht : Enc P u v ti y⁻¹) : |f * x - 647.096 / y| ≤ 1 / 40 := by
  obtain ⟨r, hr, h⟩ := refresh_sound hP h hr
  obtain ⟨e, he, h⟩ := lin_sound hP hu hv (.cons hr (.cons ht .nil)) h
  have := bnd_div hP hu hv h he
  have e1 : linV [x, y⁻¹] [(0, ⟨false, f, 1⟩), (1, ⟨true, 647096, 1000⟩)] = f * x - 647.096 / y := by
    norm_num [linV, Co.val]; ring
  rw [e1] at this
  exact_mod_cast this

theorem closeV_sound {f : Co} {d r : TM} {x y : ℝ} (h : closeV P f d r = true) (hr : Enc P u v r x)
    (hd : Enc P u v d y) : |f.val * (x * y) - 1| ≤ 1 / 10000 := by
  obtain ⟨r, hr, h⟩ := refresh_sound hP h hr
  obtain ⟨e, he, h⟩ := mul_sound hP hu hv h hr hd
  obtain ⟨e, he, h⟩ := lin_sound hP hu hv (.cons he (.cons (enc_one hP) .nil)) h
  have := bnd_div hP hu hv h he
  have e1 : linV [x * y, 1] [(0, f), (1, ⟨true, 1, 1⟩)] = f.val * (x * y) - 1 := by
    have e3 : Co.val ⟨true, 1, 1⟩ = -1 := by norm_num [Co.val]
    simp only [linV, List.map_cons, List.map_nil, List.sum_cons, List.sum_nil, List.getD_cons_zero, List.getD_cons_succ,
      e3]
    ring
  rw [e1] at this
  exact_mod_cast this

theorem back3T_sound {a b c e : Co} {chx chy : List (Nat × Nat)}
    {tb : List (Nat × List (Nat × Co))} {ex ey : List Int} {fl : List (Int × Int × Co)} {T : List (Int × Int × ℝ)}
    (hx : powE chx [-1, 1, 0] = ex) (hy : powE chy [1, 0] = ey) (cx : chOk chx 3 = true) (cy : chOk chy 2 = true)
    (ht : tbOk tb ex.length ey.length = true) (hf : flat ex ey tb = fl) (hs : List.Forall₂ SameT fl T)
    {p z : TM} {k : TM → Bool} {x y x' y' : ℝ} (h : back3 P a b c e chx chy tb p z k = true) (h1 : Enc P u v p x)
    (h2 : Enc P u v z y) (e1 : linV [x, 1] [(0, a), (1, b)] = x') (e2 : linV [y, 1] [(0, c), (1, e)] = y') :
    ∃ r, Enc P u v r (poly_powi x' y' T) ∧ k r = true := by
  obtain ⟨X, hX, h⟩ := lin_sound hP hu hv (.cons h1 (.cons (enc_one hP) .nil)) h
  obtain ⟨X, hX, h⟩ := refresh_sound hP h hX
  obtain ⟨Y, hY, h⟩ := lin_sound hP hu hv (.cons h2 (.cons (enc_one hP) .nil)) h
  obtain ⟨Y, hY, h⟩ := refresh_sound hP h hY
  rw [e1] at hX
  rw [e2] at hY
  exact back3_sound hP hu hv hx hy cx cy ht hf hs h hX hY

theorem back3S_sound {a b c e : Co} {chx chy : List (Nat × Nat)}
    {tb : List (Nat × List (Nat × Co))} {ex ey : List Int} {fl : List (Int × Int × Co)} {T : List (Int × Int × ℝ)}
    (hx : powE chx [-1, 1, 0] = ex) (hy : powE chy [1, 0] = ey) (cx : chOk chx 3 = true) (cy : chOk chy 2 = true)
    (ht : tbOk tb ex.length ey.length = true) (hf : flat ex ey tb = fl) (hs : List.Forall₂ (SameS 4) fl T)
    {p z : TM} {k : TM → Bool} {x y x' y' : ℝ} (h : back3 P a b c e chx chy tb p z k = true) (h1 : Enc P u v p x)
    (h2 : Enc P u v z y) (e1 : linV [x, 1] [(0, a), (1, b)] = x') (e2 : linV [y, 1] [(0, c), (1, e)] = 4 * y') :
    ∃ r, Enc P u v r (poly_powi x' y' T) ∧ k r = true := by
  obtain ⟨X, hX, h⟩ := lin_sound hP hu hv (.cons h1 (.cons (enc_one hP) .nil)) h
  obtain ⟨X, hX, h⟩ := refresh_sound hP h hX
  obtain ⟨Y, hY, h⟩ := lin_sound hP hu hv (.cons h2 (.cons (enc_one hP) .nil)) h
  obtain ⟨Y, hY, h⟩ := refresh_sound hP h hY
  rw [e1] at hX
  rw [e2] at hY
  obtain ⟨h0, si, hsi, h⟩ := inv_sound hP hu hv h hX
  obtain ⟨xs, hxs, h⟩ := pows_sound hP hu hv h (.cons hsi (.cons hX (.cons (enc_one hP) .nil)))
  obtain ⟨ys, hys, h⟩ := pows_sound hP hu hv h (.cons hY (.cons (enc_one hP) .nil))
  obtain ⟨r, hr, h⟩ := poly_sound0 hP hu hv hxs hys h
  refine ⟨r, ?_, h⟩
  have ex' : powsV chx [x'⁻¹, x', 1] = ex.map (x' ^ ·) := by
    rw [← hx, ← powsV_eq (.inl h0.ne') (by simpa using cx)]; simp
  have ey' : powsV chy [4 * y', 1] = ey.map ((4 * y') ^ ·) := by
    rw [← hy, ← powsV_eq (.inr (by decide)) (by simpa using cy)]; simp
  rw [ex', ey', polyV_eq ht, hf, sumT_eqS (by norm_num) hs] at hr
  rwa [poly_powi_sum]

variable {d ti p z : TM} {x y q w : ℝ}

theorem phA_sound (h : phA P d ti p z = true) (hd : Enc P u v d x) (ht : Enc P u v ti y⁻¹) (hp : Enc P u v p q)
    (hz : Enc P u v z w) : |ph2T_3a_reg3 q w - 647.096 / y| ≤ 1 / 40 ∧ |ph2v_3a_reg3 q w * (322 * x) - 1| ≤ 1 / 10000 := by
  obtain ⟨h1, h2⟩ := gd_true h
  constructor
  · obtain ⟨r, hr, h⟩ := back3T_sound hP hu hv exT3a_eq eyT3a_eq (by decide) (by decide) tbT3a_ok flT3a_eq T3a_same h1 hp hz
      (x' := q / 100.0 + 0.240) (y' := w / 2300.0 - 0.615) (by norm_num [linV, Co.val]; ring) (by norm_num [linV, Co.val]; ring)
    have := closeT_sound hP hu hv h hr ht
    simp only [ph2T_3a_reg3]
    norm_num at this ⊢; exact this
  · obtain ⟨r, hr, h⟩ := back3T_sound hP hu hv exV3a_eq eyV3a_eq (by decide) (by decide) tbV3a_ok flV3a_eq V3a_same h2 hp hz
      (x' := q / 100.0 + 0.128) (y' := w / 2100.0 - 0.727) (by norm_num [linV, Co.val]; ring) (by norm_num [linV, Co.val]; ring)
    have := closeV_sound hP hu hv h hr hd
    simp only [ph2v_3a_reg3]
    generalize (poly_powi _ _ _ : ℝ) = z at *
    convert this using 2
    norm_num [Co.val]; ring

theorem phB_sound (h : phB P d ti p z = true) (hd : Enc P u v d x) (ht : Enc P u v ti y⁻¹) (hp : Enc P u v p q)
    (hz : Enc P u v z w) : |ph2T_3b_reg3 q w - 647.096 / y| ≤ 1 / 40 ∧ |ph2v_3b_reg3 q w * (322 * x) - 1| ≤ 1 / 10000 := by
  obtain ⟨h1, h2⟩ := gd_true h
  constructor
  · obtain ⟨r, hr, h⟩ := back3T_sound hP hu hv exT3b_eq eyT3b_eq (by decide) (by decide) tbT3b_ok flT3b_eq T3b_same h1 hp hz
      (x' := q / 100.0 + 0.298) (y' := w / 2800.0 - 0.720) (by norm_num [linV, Co.val]; ring) (by norm_num [linV, Co.val]; ring)
    have := closeT_sound hP hu hv h hr ht
    simp only [ph2T_3b_reg3]
    norm_num at this ⊢; exact this
  · obtain ⟨r, hr, h⟩ := back3T_sound hP hu hv exV3b_eq eyV3b_eq (by decide) (by decide) tbV3b_ok flV3b_eq V3b_same h2 hp hz
      (x' := q / 100.0 + 0.0661) (y' := w / 2800.0 - 0.720) (by norm_num [linV, Co.val]; ring) (by norm_num [linV, Co.val]; ring)
    have := closeV_sound hP hu hv h hr hd
    simp only [ph2v_3b_reg3]
    generalize (poly_powi _ _ _ : ℝ) = z at *
    convert this using 2
    norm_num [Co.val]; ring

theorem psA_sound (h : psA P d ti p z = true) (hd : Enc P u v d x) (ht : Enc P u v ti y⁻¹) (hp : Enc P u v p q)
    (hz : Enc P u v z w) : |ps2T_3a_reg3 q w - 647.096 / y| ≤ 1 / 40 ∧ |ps2v_3a_reg3 q w * (322 * x) - 1| ≤ 1 / 10000 := by
  obtain ⟨h1, h2⟩ := gd_true h
  constructor
  · obtain ⟨r, hr, h⟩ := back3S_sound hP hu hv exTs3a_eq eyTs3a_eq (by decide) (by decide) tbTs3a_ok flTs3a_eq Ts3a_same h1 hp hz
      (x' := q / 100.0 + 0.240) (y' := w / 4.4 - 0.703) (by norm_num [linV, Co.val]; ring) (by norm_num [linV, Co.val]; ring)
    have := closeT_sound hP hu hv h hr ht
    simp only [ps2T_3a_reg3]
    norm_num at this ⊢; exact this
  · obtain ⟨r, hr, h⟩ := back3S_sound hP hu hv exVs3a_eq eyVs3a_eq (by decide) (by decide) tbVs3a_ok flVs3a_eq Vs3a_same h2 hp hz
      (x' := q / 100.0 + 0.187) (y' := w / 4.4 - 0.755) (by norm_num [linV, Co.val]; ring) (by norm_num [linV, Co.val]; ring)
    have := closeV_sound hP hu hv h hr hd
    simp only [ps2v_3a_reg3]
    generalize (poly_powi _ _ _ : ℝ) = z at *
    convert this using 2
    norm_num [Co.val]; ring

theorem psB_sound (h : psB P d ti p z = true) (hd : Enc P u v d x) (ht : Enc P u v ti y⁻¹) (hp : Enc P u v p q)
    (hz : Enc P u v z w) : |ps2T_3b_reg3 q w - 647.096 / y| ≤ 1 / 40 ∧ |ps2v_3b_reg3 q w * (322 * x) - 1| ≤ 1 / 10000 := by
  obtain ⟨h1, h2⟩ := gd_true h
  constructor
  · obtain ⟨r, hr, h⟩ := back3S_sound hP hu hv exTs3b_eq eyTs3b_eq (by decide) (by decide) tbTs3b_ok flTs3b_eq Ts3b_same h1 hp hz
      (x' := q / 100.0 + 0.760) (y' := w / 5.3 - 0.818) (by norm_num [linV, Co.val]; ring) (by norm_num [linV, Co.val]; ring)
    have := closeT_sound hP hu hv h hr ht
    simp only [ps2T_3b_reg3]
    norm_num at this ⊢; exact this
  · obtain ⟨r, hr, h⟩ := back3S_sound hP hu hv exVs3b_eq eyVs3b_eq (by decide) (by decide) tbVs3b_ok flVs3b_eq Vs3b_same h2 hp hz
      (x' := q / 100.0 + 0.298) (y' := w / 5.3 - 0.816) (by norm_num [linV, Co.val]; ring) (by norm_num [linV, Co.val]; ring)
    have := closeV_sound hP hu hv h hr hd
    simp only [ps2v_3b_reg3]
    generalize (poly_powi _ _ _ : ℝ) = z at *
    convert this using 2
    norm_num [Co.val]; ring

theorem hw3_sound {d t : TM} {k : TM → TM → TM → TM → Bool} (h : hw3 P d t k = true) (hd : Enc P u v d x)
    (ht : Enc P u v t y) (hx : 0 < x) :
    ∃ ti p z w, Enc P u v ti y⁻¹ ∧ Enc P u v p (pP x y) ∧ Enc P u v z (pH x y) ∧
      Enc P u v w (pH x y - p2h_3ab (pP x y)) ∧ k ti p z w = true := by
  obtain ⟨h0, xs, ys, c, ti, p, hxs, hys, hc, hti, hp, h⟩ := st3t_sound hP hu hv h hd ht hx
  obtain ⟨a, ha, h⟩ := poly_sound0 hP hu hv hxs hys h
  obtain ⟨m, hm, h⟩ := mul_sound hP hu hv h ht ha
  obtain ⟨e, he, h⟩ := lin_sound hP hu hv (.cons hm (.cons hc .nil)) h
  obtain ⟨e, he, h⟩ := refresh_sound hP h he
  obtain ⟨e, he, h⟩ := mul_sound hP hu hv h he hti
  obtain ⟨z, hz, h⟩ := lin_sound hP hu hv (.cons he .nil) h
  obtain ⟨z, hz, h⟩ := refresh_sound hP h hz
  rw [j3_val] at hz
  obtain ⟨p2, hp2, h⟩ := mul_sound hP hu hv h hp hp
  obtain ⟨p3, hp3, h⟩ := mul_sound hP hu hv h hp2 hp
  have ez : pH x y = linV [linV [y * R3.ft x y, x * R3.fd x y] [(0, ⟨false, 1, 1⟩), (1, ⟨false, 1, 1⟩)] * y⁻¹]
      [(0, ⟨false, 18665726781, 62500000⟩)] := by
    rw [pH, R3.vH (by positivity) (by positivity), R3.H]
    have e2 : R3.xd (322 * x) = x := by unfold R3.xd; field_simp
    have e3 : R3.yt (647.096 / y) = y := by unfold R3.yt; field_simp
    rw [e2, e3]
    generalize R3.fd x y = z
    generalize R3.ft x y = z'
    simp only [linV, List.map_cons, List.map_nil, List.sum_cons, List.sum_nil, List.getD_cons_zero, List.getD_cons_succ,
      Co.val, gasR]
    norm_num
    field_simp
    norm_num
    ring
  rw [← ez] at hz
  obtain ⟨w, hw, h⟩ := lin_sound hP hu hv (.cons hz (.cons (enc_one hP) (.cons hp (.cons hp2 (.cons hp3 .nil))))) h
  obtain ⟨w, hw, h⟩ := refresh_sound hP h hw
  refine ⟨ti, p, z, w, hti, hp, hz, ?_, h⟩
  convert hw using 1
  generalize pP x y = a
  simp only [p2h_3ab, p2h_3ab_n, nthF, List.getD_cons_zero, List.getD_cons_succ]
  norm_num [linV, Co.val]
  ring

theorem sw3_sound {c : LogC} (hc : c.Ok) {d t : TM} {k : TM → TM → TM → TM → Bool} (h : sw3 P c d t k = true)
    (hd : Enc P u v d x) (ht : Enc P u v t y) (hx : 0 < x) :
    ∃ ti p z w, Enc P u v ti y⁻¹ ∧ Enc P u v p (pP x y) ∧ Enc P u v z (pS x y) ∧
      Enc P u v w (pS x y - SC_WATER) ∧ k ti p z w = true := by
  obtain ⟨h0, xs, ys, _, ti, p, hxs, hys, -, hti, hp, h⟩ := st3t_sound hP hu hv h hd ht hx
  obtain ⟨a, ha, h⟩ := poly_sound0 hP hu hv hxs hys h
  obtain ⟨f, hf, h⟩ := poly_sound0 hP hu hv hxs hys h
  obtain ⟨-, l, hl, h⟩ := logT_sound hP hu hv hc h hd
  obtain ⟨m, hm, h⟩ := mul_sound hP hu hv h ht ha
  obtain ⟨z, hz, h⟩ := lin_sound hP hu hv (.cons hm (.cons hf (.cons hl .nil))) h
  obtain ⟨z, hz, h⟩ := refresh_sound hP h hz
  rw [j3_val, z3_val] at hz
  have ez : pS x y = linV [y * R3.ft x y, poly_powi x y r3_IJn, Real.log x] [(0, ⟨false, 461526, 1000000⟩),
      (1, ⟨true, 461526, 1000000⟩), (2, ⟨true, 2459488213989745419, 5000000000000000000⟩)] := by
    rw [pS, R3.vS (by positivity) (by positivity), R3.S, R3.f]
    have e2 : R3.xd (322 * x) = x := by unfold R3.xd; field_simp
    have e3 : R3.yt (647.096 / y) = y := by unfold R3.yt; field_simp
    rw [e2, e3]
    generalize R3.ft _ _ = ft
    generalize (poly_powi _ _ _ : ℝ) = f0
    generalize Real.log _ = l0
    simp only [linV, List.map_cons, List.map_nil, List.sum_cons, List.sum_nil, List.getD_cons_zero, List.getD_cons_succ, Co.val,
      gasR, n1]
    norm_num
    ring
  rw [← ez] at hz
  obtain ⟨w, hw, h⟩ := lin_sound hP hu hv (.cons hz (.cons (enc_one hP) .nil)) h
  obtain ⟨w, hw, h⟩ := refresh_sound hP h hw
  refine ⟨ti, p, z, w, hti, hp, hz, ?_, h⟩
  convert hw using 1
  unfold SC_WATER
  norm_num [linV, Co.val]
  ring

theorem npos_sound {w : TM} {x : ℝ} (h : npos P w = true) (hw : Enc P u v w x) : x < 0 := by
  obtain ⟨w, hw, h⟩ := lin_sound hP hu hv (.cons hw .nil) h
  have := pos_sound hP hu hv h hw
  norm_num [linV, Co.val] at this
  linarith

end

/-- the two formulas for T and v agree with the state -/
def CloseAt (fT fv : ℝ → ℝ → ℝ) (q w x y : ℝ) : Prop :=
  |fT q w - 647.096 / y| ≤ 1 / 40 ∧ |fv q w * (322 * x) - 1| ≤ 1 / 10000

theorem closePh_a {x y : ℝ} (h : pH x y ≤ p2h_3ab (pP x y))
    (hc : CloseAt ph2T_3a_reg3 ph2v_3a_reg3 (pP x y) (pH x y) x y) : ClosePh (647.096 / y) (322 * x) := by
  have e : (pH x y <=. p2h_3ab (pP x y)) = true := by simpa using h
  simp only [pH, pP] at e
  simp only [ClosePh, ph2T_reg3, ph2v_reg3, e, if_true]
  exact hc

theorem closePh_b {x y : ℝ} (h : p2h_3ab (pP x y) < pH x y)
    (hc : CloseAt ph2T_3b_reg3 ph2v_3b_reg3 (pP x y) (pH x y) x y) : ClosePh (647.096 / y) (322 * x) := by
  have e : (pH x y <=. p2h_3ab (pP x y)) = false := by simpa using h
  simp only [pH, pP] at e
  simp only [ClosePh, ph2T_reg3, ph2v_reg3, e, if_false, Bool.false_eq_true]
  exact hc

theorem closePs_a {x y : ℝ} (h : pS x y ≤ SC_WATER)
    (hc : CloseAt ps2T_3a_reg3 ps2v_3a_reg3 (pP x y) (pS x y) x y) : ClosePs (647.096 / y) (322 * x) := by
  have e : (pS x y <=. SC_WATER) = true := by simpa using h
  simp only [pS] at e
  simp only [ClosePs, ps2T_reg3, ps2v_reg3, e, if_true]
  exact hc

theorem closePs_b {x y : ℝ} (h : SC_WATER < pS x y)
    (hc : CloseAt ps2T_3b_reg3 ps2v_3b_reg3 (pP x y) (pS x y) x y) : ClosePs (647.096 / y) (322 * x) := by
  have e : (pS x y <=. SC_WATER) = false := by simpa using h
  simp only [pS] at e
  simp only [ClosePs, ps2T_reg3, ps2v_reg3, e, if_false, Bool.false_eq_true]
  exact hc

/-- the pressure at (δ, τ) is at most 100 MPa and at least b2/τ² + b1/τ + b0 -/
def InP (b2 b1 b0 : Co) (x y : ℝ) : Prop :=
  0 < x ∧ pP x y ≤ 100 ∧ b2.val * (y⁻¹ * y⁻¹) + b1.val * y⁻¹ + b0.val ≤ pP x y

def RPh3 (b2 b1 b0 : Co) (x y : ℝ) : Prop := InP b2 b1 b0 x y → ClosePh (647.096 / y) (322 * x)
def RPs3 (b2 b1 b0 : Co) (x y : ℝ) : Prop := InP b2 b1 b0 x y → ClosePs (647.096 / y) (322 * x)

section
variable {P : Par} (hP : P.Ok) {b2 b1 b0 : Co}
include hP

theorem kOut_ok {R : ℝ → ℝ → Prop} : BodyOk P (kOut P b2 b1 b0) fun x y => InP b2 b1 b0 x y → R x y := by
  intro u v hu hv b tau x y hb ht h hx
  rcases kOut_sound hP hu hv h hb ht hx.1 with h | h
  · exact absurd h (not_lt.2 hx.2.1)
  · exact absurd h (not_lt.2 hx.2.2)

theorem bPh3a_ok : BodyOk P (bPh3a P) (RPh3 b2 b1 b0) := by
  intro u v hu hv b tau x y hb ht h hx
  obtain ⟨ti, p, z, w, hti, hp, hz, hw, h⟩ := hw3_sound hP hu hv h hb ht hx.1
  obtain ⟨h1, h2⟩ := gd_true h
  have := npos_sound hP hu hv h1 hw
  exact closePh_a (by linarith) (phA_sound hP hu hv h2 hb hti hp hz)

theorem bPh3b_ok : BodyOk P (bPh3b P) (RPh3 b2 b1 b0) := by
  intro u v hu hv b tau x y hb ht h hx
  obtain ⟨ti, p, z, w, hti, hp, hz, hw, h⟩ := hw3_sound hP hu hv h hb ht hx.1
  obtain ⟨h1, h2⟩ := gd_true h
  have := pos_sound hP hu hv h1 hw
  exact closePh_b (by linarith) (phB_sound hP hu hv h2 hb hti hp hz)

theorem bPh3c_ok : BodyOk P (bPh3c P) (RPh3 b2 b1 b0) := by
  intro u v hu hv b tau x y hb ht h hx
  obtain ⟨ti, p, z, w, hti, hp, hz, hw, h⟩ := hw3_sound hP hu hv h hb ht hx.1
  obtain ⟨h1, h2⟩ := gd_true h
  rcases le_or_gt (pH x y) (p2h_3ab (pP x y)) with hl | hl
  · exact closePh_a hl (phA_sound hP hu hv h1 hb hti hp hz)
  · exact closePh_b hl (phB_sound hP hu hv h2 hb hti hp hz)

variable {c : LogC} (hc : c.Ok)
include hc

theorem bPs3a_ok : BodyOk P (bPs3a P c) (RPs3 b2 b1 b0) := by
  intro u v hu hv b tau x y hb ht h hx
  obtain ⟨ti, p, z, w, hti, hp, hz, hw, h⟩ := sw3_sound hP hu hv hc h hb ht hx.1
  obtain ⟨h1, h2⟩ := gd_true h
  have := npos_sound hP hu hv h1 hw
  exact closePs_a (by linarith) (psA_sound hP hu hv h2 hb hti hp hz)

theorem bPs3b_ok : BodyOk P (bPs3b P c) (RPs3 b2 b1 b0) := by
  intro u v hu hv b tau x y hb ht h hx
  obtain ⟨ti, p, z, w, hti, hp, hz, hw, h⟩ := sw3_sound hP hu hv hc h hb ht hx.1
  obtain ⟨h1, h2⟩ := gd_true h
  have := pos_sound hP hu hv h1 hw
  exact closePs_b (by linarith) (psB_sound hP hu hv h2 hb hti hp hz)

theorem bPs3c_ok : BodyOk P (bPs3c P c) (RPs3 b2 b1 b0) := by
  intro u v hu hv b tau x y hb ht h hx
  obtain ⟨ti, p, z, w, hti, hp, hz, hw, h⟩ := sw3_sound hP hu hv hc h hb ht hx.1
  obtain ⟨h1, h2⟩ := gd_true h
  rcases le_or_gt (pS x y) SC_WATER with hl | hl
  · exact closePs_a hl (psA_sound hP hu hv h1 hb hti hp hz)
  · exact closePs_b hl (psB_sound hP hu hv h2 hb hti hp hz)

end

section
variable {xr yr xc D yc E : ℕ}

/-- B23 in 1/τ -/
abbrev RHot (R : Co → Co → Co → ℝ → ℝ → Prop) : ℝ → ℝ → Prop :=
  R ⟨false, 33344807036256208198847, 78125000000000000000⟩ ⟨true, 37764069204461513, 50000000000000⟩ ⟨false, 34805185628969, 100000000000⟩
/-- 22.064 MPa -/
abbrev RCold (R : Co → Co → Co → ℝ → ℝ → Prop) : ℝ → ℝ → Prop := R ⟨false, 0, 1⟩ ⟨false, 0, 1⟩ ⟨false, 22064, 1000⟩

theorem okPh3 (t : Tr4) (h : chk xr yr xc D yc E (vPh3 xr yr t) = true) : Good (RHot RPh3) xr yr xc D yc E :=
  chk_sound (R := RHot RPh3) (leafB_ok P64_ok (bPh3a_ok P64_ok)) (leafB_ok P64_ok (bPh3b_ok P64_ok))
    (leafB_ok P64_ok (bPh3c_ok P64_ok)) (leafB_ok P64_ok (kOut_ok P64_ok)) h

theorem okPh3l (t : Tr4) (h : chk xr yr xc D yc E (vPh3l xr yr t) = true) : Good (RCold RPh3) xr yr xc D yc E :=
  chk_sound (R := RCold RPh3) (leafB_ok P64_ok (bPh3a_ok P64_ok)) (leafB_ok P64_ok (bPh3b_ok P64_ok))
    (leafB_ok P64_ok (bPh3c_ok P64_ok)) (leafB_ok P64_ok (kOut_ok P64_ok)) h

variable {c : LogC} (hc : c.Ok)
include hc

theorem okPs3 (t : Tr4) (h : chk xr yr xc D yc E (vPs3 c xr yr t) = true) : Good (RHot RPs3) xr yr xc D yc E :=
  chk_sound (R := RHot RPs3) (leafB_ok P64_ok (bPs3a_ok P64_ok hc)) (leafB_ok P64_ok (bPs3b_ok P64_ok hc))
    (leafB_ok P64_ok (bPs3c_ok P64_ok hc)) (leafB_ok P64_ok (kOut_ok P64_ok)) h

theorem okPs3l (t : Tr4) (h : chk xr yr xc D yc E (vPs3l c xr yr t) = true) : Good (RCold RPs3) xr yr xc D yc E :=
  chk_sound (R := RCold RPs3) (leafB_ok P64_ok (bPs3a_ok P64_ok hc)) (leafB_ok P64_ok (bPs3b_ok P64_ok hc))
    (leafB_ok P64_ok (bPs3c_ok P64_ok hc)) (leafB_ok P64_ok (kOut_ok P64_ok)) h

end

end If97.Tm
