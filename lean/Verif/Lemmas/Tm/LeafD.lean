import Verif.Lemmas.Tm.Rd
import Verif.Lemmas.Tm.Leaf2
import Verif.Lemmas.Tm.Comp.Det
import Verif.Lemmas.Tm.Chk2

/-!
# The determinant of the second derivatives of the Gibbs function

With A = -τ²γ_ττ, B = γ_π - τγ_πτ and C = -γ_ππ, the heat capacity at constant volume and the square of the
speed of sound are positive exactly when A C - B² is.  In regions 2 and 5 the checks use π B and π² C, which
have no pole at π = 0.
-/

namespace If97.Tm

/-- A C - B² -/
noncomputable def _root_.If97.Gibbs.det (G : Gibbs) (x y : ℝ) : ℝ :=
  -(y ^ 2 * G.gtt x y) * -G.gpp x y - (G.gp x y - y * G.gpt x y) ^ 2

section
variable (x y : ℝ)

theorem i1d_val : polyV (ex1d.map (x ^ ·)) (ey1d.map (y ^ ·)) ti1d = poly_i_powi x y r1_IJn := by
  rw [polyV_eq ti1d_ok, fli1d_eq, sumT_eqW same_i1d, poly_i_powi_sum]; simp [wI]
theorem ii1d_val : polyV (ex1d.map (x ^ ·)) (ey1d.map (y ^ ·)) tii1d = poly_ii_powi x y r1_IJn := by
  rw [polyV_eq tii1d_ok, flii1d_eq, sumT_eqW same_ii1d, poly_ii_powi_sum]; simp [wII]
theorem ij1d_val : polyV (ex1d.map (x ^ ·)) (ey1d.map (y ^ ·)) tij1d = poly_ij_powi x y r1_IJn := by
  rw [polyV_eq tij1d_ok, flij1d_eq, sumT_eqW same_ij1d, poly_ij_powi_sum]
  congr 1; apply List.map_congr_left; intro e _; simp only [wIJ]; push_cast; ring
theorem jj1d_val : polyV (ex1d.map (x ^ ·)) (ey1d.map (y ^ ·)) tjj1d = poly_jj_powi x y r1_IJn := by
  rw [polyV_eq tjj1d_ok, fljj1d_eq, sumT_eqW same_jj1d, poly_jj_powi_sum]
  congr 1; apply List.map_congr_left; intro e _; simp only [wJJ, sub_zero]; ring

variable {x}
variable (hx : x ≠ 0) (T : List (Int × Int × ℝ))
include hx

theorem xi_sum : (T.map fun e => e.2.2 * (wI e.1 e.2.1 : ℝ) * x ^ (e.1 - 0) * y ^ (e.2.1 - 0)).sum = x * poly_i_powi x y T := by
  rw [poly_i_powi_sum, ← List.sum_map_mul_left]
  congr 1; apply List.map_congr_left; intro e _; simp only [wI, sub_zero, zpow_sub_one₀ hx]; field_simp
theorem xii_sum : (T.map fun e => e.2.2 * (wII e.1 e.2.1 : ℝ) * x ^ (e.1 - 0) * y ^ (e.2.1 - 0)).sum = x ^ 2 * poly_ii_powi x y T := by
  rw [poly_ii_powi_sum, ← List.sum_map_mul_left]
  congr 1; apply List.map_congr_left; intro e _; simp only [wII, sub_zero, zpow_sub₀ hx]; norm_cast; field_simp
theorem xij_sum : (T.map fun e => e.2.2 * (wIJ e.1 e.2.1 : ℝ) * x ^ (e.1 - 0) * y ^ (e.2.1 - 1)).sum = x * poly_ij_powi x y T := by
  rw [poly_ij_powi_sum, ← List.sum_map_mul_left]
  congr 1; apply List.map_congr_left; intro e _; simp only [wIJ, sub_zero, zpow_sub_one₀ hx]; push_cast; field_simp
omit hx in
theorem jj_sum : (T.map fun e => e.2.2 * (wJJ e.1 e.2.1 : ℝ) * x ^ (e.1 - 0) * y ^ (e.2.1 - 2)).sum = poly_jj_powi x y T := by
  rw [poly_jj_powi_sum]
  congr 1; apply List.map_congr_left; intro e _; simp only [wJJ, sub_zero]; ring

end

/-! ### region 1 -/

/-- what `bDet1` establishes -/
def RDet1 (k : Bool) (p τ : ℝ) : Prop :=
  0 < -(τ ^ 2 * G1.gtt (p / 16.53) τ) ∧ 0 < G1.gp (p / 16.53) τ ∧
  (k = true → 0 < G1.gp (p / 16.53) τ - τ * G1.gpt (p / 16.53) τ) ∧ 0 < G1.det (p / 16.53) τ

theorem bDet1_ok {P : Par} (hP : P.Ok) {k : Bool} : BodyOk P (bDet1 k P) (RDet1 k) := by
  intro u v hu hv p tau x y hp ht h
  obtain ⟨X, hX, h⟩ := lin_sound hP hu hv (.cons hp (.cons (enc_one hP) .nil)) h
  obtain ⟨X, hX, h⟩ := refresh_sound hP h hX
  obtain ⟨Y, hY, h⟩ := lin_sound hP hu hv (.cons ht (.cons (enc_one hP) .nil)) h
  obtain ⟨Y, hY, h⟩ := refresh_sound hP h hY
  have eX : linV [x, 1] [(1, ⟨false, 71, 10⟩), (0, ⟨true, 100, 1653⟩)] = 7.1 - x / 16.53 := by
    simp [linV, Co.val]; ring
  have eY : linV [y, 1] [(0, ⟨false, 1, 1⟩), (1, ⟨true, 1222, 1000⟩)] = y - 1.222 := by
    simp [linV, Co.val]; ring
  rw [eX] at hX
  rw [eY] at hY
  obtain ⟨h0, Yi, hYi, h⟩ := inv_sound hP hu hv h hY
  obtain ⟨xs, hxs, h⟩ := pows_sound hP hu hv h (.cons hX (.cons (enc_one hP) .nil))
  obtain ⟨ys, hys, h⟩ := pows_sound hP hu hv h (.cons hYi (.cons hY (.cons (enc_one hP) .nil)))
  have hxs' : List.Forall₂ (Enc P u v) xs (ex1d.map ((7.1 - x / 16.53) ^ ·)) := by
    rw [← ex1d_eq, ← powsV_eq (.inr (by decide)) (by decide)]
    simpa using hxs
  have hys' : List.Forall₂ (Enc P u v) ys (ey1d.map ((y - 1.222) ^ ·)) := by
    rw [← ey1d_eq, ← powsV_eq (.inl h0.ne') (by decide)]
    simpa using hys
  obtain ⟨gp, hgp, h⟩ := poly_sound0 hP hu hv hxs' hys' h
  obtain ⟨gpp, hgpp, h⟩ := poly_sound0 hP hu hv hxs' hys' h
  obtain ⟨gpt, hgpt, h⟩ := poly_sound0 hP hu hv hxs' hys' h
  obtain ⟨gtt, hgtt, h⟩ := poly_sound0 hP hu hv hxs' hys' h
  rw [i1d_val] at hgp
  rw [ii1d_val] at hgpp
  rw [ij1d_val] at hgpt
  rw [jj1d_val] at hgtt
  obtain ⟨t2, ht2, h⟩ := mul_sound hP hu hv h ht ht
  obtain ⟨a, ha, h⟩ := mul_sound hP hu hv h ht2 hgtt
  obtain ⟨a, ha, h⟩ := lin_sound hP hu hv (.cons ha .nil) h
  obtain ⟨a, ha, h⟩ := refresh_sound hP h ha
  obtain ⟨b, hb, h⟩ := mul_sound hP hu hv h ht hgpt
  obtain ⟨b, hb, h⟩ := lin_sound hP hu hv (.cons hgp (.cons hb .nil)) h
  obtain ⟨b, hb, h⟩ := refresh_sound hP h hb
  obtain ⟨c, hc, h⟩ := lin_sound hP hu hv (.cons hgpp .nil) h
  obtain ⟨c, hc, h⟩ := refresh_sound hP h hc
  obtain ⟨h1, h⟩ := gd_true h
  obtain ⟨h2, h⟩ := gd_true h
  obtain ⟨h3, h⟩ := gd_true h
  obtain ⟨g, hg, h2⟩ := lin_sound hP hu hv (.cons hgp .nil) h2
  obtain ⟨ac, hac, h⟩ := mul_sound hP hu hv h ha hc
  obtain ⟨bb, hbb, h⟩ := mul_sound hP hu hv h hb hb
  obtain ⟨d, hd, h⟩ := lin_sound hP hu hv (.cons hac (.cons hbb .nil)) h
  refine ⟨lt_of_lt_of_eq (pos_sound hP hu hv h1 ha) ?_, lt_of_lt_of_eq (pos_sound hP hu hv h2 hg) ?_, ?_,
    lt_of_lt_of_eq (pos_sound hP hu hv h hd) ?_⟩
  · simp [linV, Co.val, G1, sq]
  · simp [linV, Co.val, G1]
  · rintro rfl
    refine lt_of_lt_of_eq (pos_sound hP hu hv h3 hb) ?_
    norm_num [linV, Co.val, G1]
    try ring
  · norm_num [linV, Co.val, Gibbs.det, G1]
    ring

/-! ### regions 2 and 5 -/

theorem dets_sound {P : Par} (hP : P.Ok) {u v : ℝ} (hu : |u| ≤ 1) (hv : |v| ≤ 1) {k : Bool} {tau gp gpp gpt gtt : TM}
    {y a b c d : ℝ} (h : dets P k tau gp gpp gpt gtt = true) (ht : Enc P u v tau y) (hgp : Enc P u v gp a)
    (hgpp : Enc P u v gpp b) (hgpt : Enc P u v gpt c) (hgtt : Enc P u v gtt d) :
    (0 < -(y ^ 2 * d) ∧ 0 < 1 + a - y * c ∧ 0 < 1 + a) ∧
    0 < -(y ^ 2 * d) * (1 - b) - (1 + a - y * c) ^ 2 ∧ (k = true → 0 < -(y ^ 2 * d) - (1 + a - y * c) ^ 2 ∧
      0 < -(y ^ 2 * d) * (1 - b) + y ^ 2 * d + (1 + a - y * c) ^ 2) := by
  obtain ⟨t2, ht2, h⟩ := mul_sound hP hu hv h ht ht
  obtain ⟨a, ha, h⟩ := mul_sound hP hu hv h ht2 hgtt
  obtain ⟨a, ha, h⟩ := lin_sound hP hu hv (.cons ha .nil) h
  obtain ⟨a, ha, h⟩ := refresh_sound hP h ha
  obtain ⟨b, hb, h⟩ := mul_sound hP hu hv h ht hgpt
  obtain ⟨b, hb, h⟩ := lin_sound hP hu hv (.cons hgp (.cons (enc_one hP) (.cons hb .nil))) h
  obtain ⟨b, hb, h⟩ := refresh_sound hP h hb
  obtain ⟨c, hc, h⟩ := lin_sound hP hu hv (.cons hgpp (.cons (enc_one hP) .nil)) h
  obtain ⟨c, hc, h⟩ := refresh_sound hP h hc
  obtain ⟨k1, h⟩ := gd_true h
  obtain ⟨k2, h⟩ := gd_true h
  obtain ⟨k3, h⟩ := gd_true h
  obtain ⟨g, hg, k3⟩ := lin_sound hP hu hv (.cons hgp (.cons (enc_one hP) .nil)) k3
  obtain ⟨ac, hac, h⟩ := mul_sound hP hu hv h ha hc
  obtain ⟨bb, hbb, h⟩ := mul_sound hP hu hv h hb hb
  obtain ⟨h1, h⟩ := gd_true h
  obtain ⟨d, hd, h1⟩ := lin_sound hP hu hv (.cons hac (.cons hbb .nil)) h1
  refine ⟨⟨lt_of_lt_of_eq (pos_sound hP hu hv k1 ha) ?_, lt_of_lt_of_eq (pos_sound hP hu hv k2 hb) ?_,
    lt_of_lt_of_eq (pos_sound hP hu hv k3 hg) ?_⟩, lt_of_lt_of_eq (pos_sound hP hu hv h1 hd) ?_, ?_⟩
  · simp [linV, Co.val, sq]
  · norm_num [linV, Co.val]
    try ring
  · norm_num [linV, Co.val]
    try ring
  · norm_num [linV, Co.val]
    ring
  · rintro rfl
    obtain ⟨h2, h3⟩ := gd_true h
    obtain ⟨d, hd, h2⟩ := lin_sound hP hu hv (.cons ha (.cons hbb .nil)) h2
    obtain ⟨e, he, h3⟩ := lin_sound hP hu hv (.cons hac (.cons ha (.cons hbb .nil))) h3
    refine ⟨lt_of_lt_of_eq (pos_sound hP hu hv h2 hd) ?_, lt_of_lt_of_eq (pos_sound hP hu hv h3 he) ?_⟩ <;>
    · norm_num [linV, Co.val]
      ring

theorem tz2d_val (y : ℝ) : linV (et2d.map (y ^ ·)) tz2d = idealSum2 r2_n0 r2_J0 9 y := by
  simp only [idealSum2, List.range', List.map_cons, List.map_nil, List.sum_cons, List.sum_nil, nthF, nthI, r2_n0, r2_J0,
    List.getD_cons_zero, List.getD_cons_succ, linV, tz2d, et2d, Co.val]
  norm_num

theorem tz5d_val (y : ℝ) : linV (et5d.map (y ^ ·)) tz5d = idealSum2 r5_no r5_Jo 6 y := by
  simp only [idealSum2, List.range', List.map_cons, List.map_nil, List.sum_cons, List.sum_nil, nthF, nthI, r5_no, r5_Jo,
    List.getD_cons_zero, List.getD_cons_succ, linV, tz5d, et5d, Co.val]
  norm_num

/-- what `dets` establishes about a Gibbs function with an ideal part -/
def DetI (G : Gibbs) (k : Bool) (x y : ℝ) : Prop :=
  (0 < -(y ^ 2 * G.gtt x y) ∧ 0 < x * G.gp x y - y * (x * G.gpt x y) ∧ 0 < x * G.gp x y) ∧
  0 < -(y ^ 2 * G.gtt x y) * -(x ^ 2 * G.gpp x y) - (x * G.gp x y - y * (x * G.gpt x y)) ^ 2 ∧
  (k = true → 0 < -(y ^ 2 * G.gtt x y) - (x * G.gp x y - y * (x * G.gpt x y)) ^ 2 ∧
    0 < -(y ^ 2 * G.gtt x y) * -(x ^ 2 * G.gpp x y) + y ^ 2 * G.gtt x y + (x * G.gp x y - y * (x * G.gpt x y)) ^ 2)

theorem detI_of {n : List ℝ} {J : List Int} {m : Nat} {T : List (Int × Int × ℝ)} {c ps Ts x y : ℝ} {k : Bool} (hx : x ≠ 0)
    (h : (0 < -(y ^ 2 * (idealSum2 n J m y + poly_jj_powi x (y - c) T)) ∧
      0 < 1 + x * poly_i_powi x (y - c) T - y * (x * poly_ij_powi x (y - c) T) ∧ 0 < 1 + x * poly_i_powi x (y - c) T) ∧
      0 < -(y ^ 2 * (idealSum2 n J m y + poly_jj_powi x (y - c) T)) * (1 - x ^ 2 * poly_ii_powi x (y - c) T) -
      (1 + x * poly_i_powi x (y - c) T - y * (x * poly_ij_powi x (y - c) T)) ^ 2 ∧ (k = true →
      0 < -(y ^ 2 * (idealSum2 n J m y + poly_jj_powi x (y - c) T)) -
        (1 + x * poly_i_powi x (y - c) T - y * (x * poly_ij_powi x (y - c) T)) ^ 2 ∧
      0 < -(y ^ 2 * (idealSum2 n J m y + poly_jj_powi x (y - c) T)) * (1 - x ^ 2 * poly_ii_powi x (y - c) T) +
        y ^ 2 * (idealSum2 n J m y + poly_jj_powi x (y - c) T) +
        (1 + x * poly_i_powi x (y - c) T - y * (x * poly_ij_powi x (y - c) T)) ^ 2)) :
    DetI (idealGibbs n J m T c ps Ts) k x y := by
  have e1 : ∀ z : ℝ, x * (1 / x + z) = 1 + x * z := fun z => by field_simp
  have e2 : ∀ z : ℝ, -(x ^ 2 * (-1 / x ^ 2 + z)) = 1 - x ^ 2 * z := fun z => by field_simp; ring
  simp only [DetI, idealGibbs, e1, e2]
  exact h

theorem bDet2_ok {P : Par} (hP : P.Ok) : BodyOk P (bDet2 P) fun β τ => β ^ 4 ≠ 0 → DetI G2 false (β ^ 4) τ := by
  intro u v hu hv b tau β y hb ht h hx
  obtain ⟨p, hp, h⟩ := p4_sound hP hu hv h hb
  obtain ⟨Y, hY, h⟩ := lin_sound hP hu hv (.cons ht (.cons (enc_one hP) .nil)) h
  obtain ⟨Y, hY, h⟩ := refresh_sound hP h hY
  have eY : linV [y, 1] [(0, ⟨false, 1, 1⟩), (1, ⟨true, 1, 2⟩)] = y - 0.5 := by
    norm_num [linV, Co.val]; ring
  rw [eY] at hY
  obtain ⟨h0, ti, hti, h⟩ := inv_sound hP hu hv h ht
  obtain ⟨xs, hxs, h⟩ := pows_sound hP hu hv h (.cons hp (.cons (enc_one hP) .nil))
  obtain ⟨ys, hys, h⟩ := pows_sound hP hu hv h (.cons hY (.cons (enc_one hP) .nil))
  obtain ⟨ts, hts, h⟩ := pows_sound hP hu hv h (.cons hti (.cons ht (.cons (enc_one hP) .nil)))
  generalize β ^ 4 = x at *
  have hxs' : List.Forall₂ (Enc P u v) xs (ex2d.map (x ^ ·)) := by
    rw [← ex2d_eq, ← powsV_eq (.inr (by decide)) (by decide)]
    simpa using hxs
  have hys' : List.Forall₂ (Enc P u v) ys (ey2d.map ((y - 0.5) ^ ·)) := by
    rw [← ey2d_eq, ← powsV_eq (.inr (by decide)) (by decide)]
    simpa using hys
  have hts' : List.Forall₂ (Enc P u v) ts (et2d.map (y ^ ·)) := by
    rw [← et2d_eq, ← powsV_eq (.inl h0.ne') (by decide)]
    simpa using hts
  obtain ⟨gp, hgp, h⟩ := poly_sound0 hP hu hv hxs' hys' h
  obtain ⟨gpp, hgpp, h⟩ := poly_sound0 hP hu hv hxs' hys' h
  obtain ⟨gpt, hgpt, h⟩ := poly_sound0 hP hu hv hxs' hys' h
  obtain ⟨g0, hg0, h⟩ := lin_sound hP hu hv hts' h
  obtain ⟨gr, hgr, h⟩ := poly_sound0 hP hu hv hxs' hys' h
  obtain ⟨gtt, hgtt, h⟩ := lin_add hP hu hv hg0 hgr h
  rw [polyV_eq ti2d_ok, fli2d_eq, sumT_eqW same_i2d, xi_sum _ hx] at hgp
  rw [polyV_eq tii2d_ok, flii2d_eq, sumT_eqW same_ii2d, xii_sum _ hx] at hgpp
  rw [polyV_eq tij2d_ok, flij2d_eq, sumT_eqW same_ij2d, xij_sum _ hx] at hgpt
  rw [polyV_eq tjj2d_ok, fljj2d_eq, sumT_eqW same_jj2d, jj_sum, tz2d_val] at hgtt
  exact detI_of hx (dets_sound hP hu hv h ht hgp hgpp hgpt hgtt)

theorem bDet5_ok {P : Par} (hP : P.Ok) : BodyOk P (bDet5 P) fun x τ => x ≠ 0 → DetI G5 true x τ := by
  intro u v hu hv p tau x y hp ht h hx
  obtain ⟨h0, ti, hti, h⟩ := inv_sound hP hu hv h ht
  obtain ⟨xs, hxs, h⟩ := pows_sound hP hu hv h (.cons hp (.cons (enc_one hP) .nil))
  obtain ⟨ys, hys, h⟩ := pows_sound hP hu hv h (.cons ht (.cons (enc_one hP) .nil))
  obtain ⟨ts, hts, h⟩ := pows_sound hP hu hv h (.cons hti (.cons ht (.cons (enc_one hP) .nil)))
  have hxs' : List.Forall₂ (Enc P u v) xs (ex5d.map (x ^ ·)) := by
    rw [← ex5d_eq, ← powsV_eq (.inr (by decide)) (by decide)]
    simpa using hxs
  have hys' : List.Forall₂ (Enc P u v) ys (ey5d.map ((y - 0) ^ ·)) := by
    rw [sub_zero, ← ey5d_eq, ← powsV_eq (.inr (by decide)) (by decide)]
    simpa using hys
  have hts' : List.Forall₂ (Enc P u v) ts (et5d.map (y ^ ·)) := by
    rw [← et5d_eq, ← powsV_eq (.inl h0.ne') (by decide)]
    simpa using hts
  obtain ⟨gp, hgp, h⟩ := poly_sound0 hP hu hv hxs' hys' h
  obtain ⟨gpp, hgpp, h⟩ := poly_sound0 hP hu hv hxs' hys' h
  obtain ⟨gpt, hgpt, h⟩ := poly_sound0 hP hu hv hxs' hys' h
  obtain ⟨g0, hg0, h⟩ := lin_sound hP hu hv hts' h
  obtain ⟨gr, hgr, h⟩ := poly_sound0 hP hu hv hxs' hys' h
  obtain ⟨gtt, hgtt, h⟩ := lin_add hP hu hv hg0 hgr h
  rw [polyV_eq ti5d_ok, fli5d_eq, sumT_eqW same_i5d, xi_sum _ hx] at hgp
  rw [polyV_eq tii5d_ok, flii5d_eq, sumT_eqW same_ii5d, xii_sum _ hx] at hgpp
  rw [polyV_eq tij5d_ok, flij5d_eq, sumT_eqW same_ij5d, xij_sum _ hx] at hgpt
  rw [polyV_eq tjj5d_ok, fljj5d_eq, sumT_eqW same_jj5d, jj_sum, tz5d_val] at hgtt
  exact detI_of hx (dets_sound hP hu hv h ht hgp hgpp hgpt hgtt)

end If97.Tm

/-! What the generated subdivisions for the determinant establish. -/

namespace If97.Tm

theorem leafB_ok {P : Par} (hP : P.Ok) {body : TM → TM → Bool} {R : ℝ → ℝ → Prop} (hb : BodyOk P body R) {xr yr : ℕ} :
    LeafOk (leafB P body xr yr) xr yr R := by
  intro xc D yc E _ _ _ _ h u v hu hv
  obtain ⟨b, s, hb', hs, h⟩ := base_sound hP hu hv h
  exact hb u v hu hv b s _ _ hb' hs h

def RDet2 (β τ : ℝ) : Prop := β ^ 4 ≠ 0 → DetI G2 false (β ^ 4) τ
def RDet5 (x τ : ℝ) : Prop := x ≠ 0 → DetI G5 true x τ

variable {xr yr xc D yc E : ℕ}

theorem okDet1 {k : Bool} (t : Tr4)
    (h : chk xr yr xc D yc E (verify4 (leafB P12 (bDet1 k P12) xr yr) never never never xr yr t) = true) :
    Good (RDet1 k) xr yr xc D yc E :=
  chk_sound (leafB_ok P12_ok (bDet1_ok P12_ok)) never_ok never_ok never_ok h

theorem okDet2 {P : Par} (hP : P.Ok) (A B : Q6) (t : Tr4)
    (h : chk xr yr xc D yc E (verify4 (leafF P A B (bDet2 P) xr yr) never never never xr yr t) = true) :
    Good (Rf RDet2 A B) xr yr xc D yc E :=
  chk_sound (R := Rf RDet2 A B) (leafF_ok (R := RDet2) hP (bDet2_ok hP)) never_ok never_ok never_ok h

theorem okDet5 (t : Tr4)
    (h : chk xr yr xc D yc E (verify4 (leafB P12 (bDet5 P12) xr yr) never never never xr yr t) = true) :
    Good RDet5 xr yr xc D yc E :=
  chk_sound (R := RDet5) (leafB_ok P12_ok (bDet5_ok P12_ok)) never_ok never_ok never_ok h

end If97.Tm
