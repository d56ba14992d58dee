import Verif.Lemmas.Tm.R2s
import Verif.Lemmas.Tm.Leaf2
import Verif.Lemmas.Tm.Log
import Verif.Lemmas.Tm.Comp.Region2s

/-!
# Region 2: enclosures of the entropy and of T(p, s)
-/

namespace If97.Tm

theorem ti02_val (y : ℝ) : linV (et2.map (y ^ ·)) ti02 = idealSum r2_n0 r2_J0 9 y := by
  simp only [idealSum, List.range', List.map_cons, List.map_nil, List.sum_cons, List.sum_nil, nthF, nthI, r2_n0, r2_J0,
    List.getD_cons_zero, List.getD_cons_succ, linV, ti02, et2, Co.val]
  norm_num

theorem t02_val {K : Scl} (hK : K.Ok) (x y : ℝ) : polyV (ex2.map ((x * K.xd / K.xn) ^ ·))
    (ey2.map (((y - 0.5) * K.yd / K.yn) ^ ·)) K.t0 = poly_powi x (y - 0.5) r2_IJn := by
  rw [polyV_eq hK.ok0, sumT_sc hK.xn hK.xd hK.yn hK.yd _ _ _ _ hK.e0, sumT_eq z2_same, poly_powi_sum]

/-- the entropy over R at (β, τ) -/
noncomputable def s2R (β τ : ℝ) : ℝ := τ * G2.gt (β ^ 4) τ - G2.g (β ^ 4) τ
/-- the entropy at (β, τ) -/
noncomputable def s2 (β τ : ℝ) : ℝ := 0.461526 * s2R β τ

theorem quarter {x : ℝ} (hx : 0 < x) (a : ℤ) : (x ^ 4) ^ ((a : ℝ) / 4) = x ^ a := by
  rw [← Real.rpow_natCast x 4, ← Real.rpow_mul hx.le, ← Real.rpow_intCast]
  congr 1; push_cast; ring

theorem sumT_eqF {l : List (Int × Int × Co)} {T : List (ℝ × Int × ℝ)} (h : List.Forall₂ SameF l T) {x : ℝ} (hx : 0 < x)
    (y : ℝ) : sumT x y l = (T.map fun e => e.2.2 * (x ^ 4) ^ e.1 * y ^ e.2.1).sum := by
  induction h with
  | nil => simp [sumT]
  | cons h1 _ ih =>
    simp only [sumT, List.map_cons, List.sum_cons] at ih ⊢
    rw [ih, ← h1.1, h1.2.1, h1.2.2, quarter hx]

section
variable {P : Par} (hP : P.Ok) {u v : ℝ} (hu : |u| ≤ 1) (hv : |v| ≤ 1)
include hP hu hv

theorem gs2_sound {K : Scl} (hK : K.Ok) {c : LogC} (hc : c.Ok) {b p tau : TM} {k : TM → TM → Bool} {x y : ℝ}
    (h : gs2 P K c b p tau k = true) (hb : Enc P u v b x) (hp : Enc P u v p (x ^ 4)) (ht : Enc P u v tau y) :
    0 < x ∧ 0 < y ∧ ∃ g s, Enc P u v g (G2.gt (x ^ 4) y) ∧ Enc P u v s (s2R x y) ∧ k g s = true := by
  obtain ⟨h0, xs, ys, ts, hxs, hys, hts, h⟩ := st2_sound hP hu hv hK.yn h hp ht
  obtain ⟨g0, hg0, h⟩ := lin_sound hP hu hv hts h
  obtain ⟨f0, hf0, h⟩ := lin_sound hP hu hv hts h
  obtain ⟨gr, hgr, h⟩ := poly_sound0 hP hu hv hxs hys h
  obtain ⟨g, hg, h⟩ := lin_add hP hu hv hg0 hgr h
  obtain ⟨g, hg, h⟩ := refresh_sound hP h hg
  obtain ⟨fr, hfr, h⟩ := poly_sound0 hP hu hv hxs hys h
  obtain ⟨hx0, l, hl, h⟩ := logT_sound hP hu hv hc h hb
  obtain ⟨m, hm, h⟩ := mul_sound hP hu hv h ht hg
  obtain ⟨s, hs, h⟩ := lin_sound hP hu hv (.cons hm (.cons hf0 (.cons hfr (.cons hl .nil)))) h
  obtain ⟨s, hs, h⟩ := refresh_sound hP h hs
  rw [ti2_val, tg2_val hK] at hg hs
  rw [ti02_val, t02_val hK] at hs
  have eg : idealSum1 r2_n0 r2_J0 9 y + poly_j_powi (x ^ 4) (y - 0.5) r2_IJn = G2.gt (x ^ 4) y := rfl
  rw [eg] at hg hs
  refine ⟨hx0, h0, g, s, hg, ?_, h⟩
  convert hs using 1
  have el : Real.log (x ^ 4) = 4 * Real.log x := by rw [Real.log_pow]; norm_num
  have e0 : G2.g (x ^ 4) y = 4 * Real.log x + idealSum r2_n0 r2_J0 9 y + poly_powi (x ^ 4) (y - 0.5) r2_IJn := by
    rw [← el]; rfl
  rw [s2R, e0]
  norm_num [linV, Co.val]; ring

/-- `back3_sound` for negative powers of both variables, in quarter powers -/
theorem back4_sound {chx chy : List (Nat × Nat)}
    {tb : List (Nat × List (Nat × Co))} {ex ey : List Int} {fl : List (Int × Int × Co)} {T : List (ℝ × Int × ℝ)}
    (hx : powE chx [-1, 1, 0] = ex) (hy : powE chy [-1, 1, 0] = ey) (cx : chOk chx 3 = true) (cy : chOk chy 3 = true)
    (ht : tbOk tb ex.length ey.length = true) (hf : flat ex ey tb = fl) (hs : List.Forall₂ SameF fl T)
    {s t : TM} {k : TM → Bool} {x y : ℝ}
    (h : (inv P 4 s fun si => inv P 4 t fun ti => pows P chx (fun xs => pows P chy (fun ys => poly P xs ys k tb (nat_lit 0)
      (nat_lit 0) (nat_lit 0) (nat_lit 0)) [ti, t, tone P]) [si, s, tone P]) = true) (h1 : Enc P u v s x)
    (h2 : Enc P u v t y) : ∃ r, Enc P u v r (T.map fun e => e.2.2 * (x ^ 4) ^ e.1 * y ^ e.2.1).sum ∧ k r = true := by
  obtain ⟨h0, si, hsi, h⟩ := inv_sound hP hu hv h h1
  obtain ⟨h0', ti, hti, h⟩ := inv_sound hP hu hv h h2
  obtain ⟨xs, hxs, h⟩ := pows_sound hP hu hv h (.cons hsi (.cons h1 (.cons (enc_one hP) .nil)))
  obtain ⟨ys, hys, h⟩ := pows_sound hP hu hv h (.cons hti (.cons h2 (.cons (enc_one hP) .nil)))
  obtain ⟨r, hr, h⟩ := poly_sound0 hP hu hv hxs hys h
  refine ⟨r, ?_, h⟩
  have ex' : powsV chx [x⁻¹, x, 1] = ex.map (x ^ ·) := by
    rw [← hx, ← powsV_eq (.inl h0.ne') (by simpa using cx)]; simp
  have ey' : powsV chy [y⁻¹, y, 1] = ey.map (y ^ ·) := by
    rw [← hy, ← powsV_eq (.inl h0'.ne') (by simpa using cy)]; simp
  rw [ex', ey', polyV_eq ht, hf, sumT_eqF hs h0] at hr
  exact hr

end

theorem bPs2a_ok {P : Par} (hP : P.Ok) {K : Scl} (hK : K.Ok) {c : LogC} (hc : c.Ok) {tn td : ℕ} :
    BodyOk P (bPs2a P K c tn td) fun β τ => |ps2T_reg2a (β ^ 4) (s2 β τ) - 540 / τ| ≤ tn / td := by
  intro u v hu hv b tau β τ hb ht h
  obtain ⟨p, hp, h⟩ := p4_sound hP hu hv h hb
  obtain ⟨hx0, h0, g, s, hg, hs, h⟩ := gs2_sound hP hu hv hK hc h hb hp ht
  obtain ⟨sg, hsg, h⟩ := lin_sound hP hu hv (.cons hs (.cons (enc_one hP) .nil)) h
  obtain ⟨sg, hsg, h⟩ := refresh_sound hP h hsg
  obtain ⟨th, hth, h⟩ := back4_sound hP hu hv exPs2a_eq eyPs2a_eq (by decide) (by decide) tbPs2a_ok flPs2a_eq Ps2a_same h hb hsg
  have := close2_sound hP hu hv h hth ht h0
  have e : ∀ x g : ℝ, ps2T_reg2a x (0.461526 * g) = (ps2T_reg2a_IJn.map fun e => e.2.2 * x ^ e.1 *
      (linV [g, 1] [(0, ⟨false, 461526, 2000000⟩), (1, ⟨true, 2, 1⟩)]) ^ e.2.1).sum := by
    intro x g
    have e1 : x / 1.0 = x := by norm_num
    have e2 : 0.461526 * g / 2.0 - 2.0 = linV [g, 1] [(0, ⟨false, 461526, 2000000⟩), (1, ⟨true, 2, 1⟩)] := by
      norm_num [linV, Co.val]; ring
    simp only [ps2T_reg2a, e1, e2]
    rw [show (1.0 : ℝ) = 1 by norm_num, one_mul]
    exact foldl_add_sum0 _ _
  rw [s2, e]
  exact_mod_cast this

theorem bPs2b_ok {P : Par} (hP : P.Ok) {K : Scl} (hK : K.Ok) {c : LogC} (hc : c.Ok) {tn td : ℕ} :
    BodyOk P (bPs2b P K c tn td) fun β τ => |ps2T_reg2b (β ^ 4) (s2 β τ) - 540 / τ| ≤ tn / td := by
  intro u v hu hv b tau β τ hb ht h
  obtain ⟨p, hp, h⟩ := p4_sound hP hu hv h hb
  obtain ⟨hx0, h0, g, s, hg, hs, h⟩ := gs2_sound hP hu hv hK hc h hb hp ht
  obtain ⟨sg, hsg, h⟩ := lin_sound hP hu hv (.cons hs (.cons (enc_one hP) .nil)) h
  obtain ⟨sg, hsg, h⟩ := refresh_sound hP h hsg
  obtain ⟨th, hth, h⟩ := back3_sound hP hu hv exPs2b_eq eyPs2b_eq (by decide) (by decide) tbPs2b_ok flPs2b_eq Ps2b_same h hp hsg
  have := close2_sound hP hu hv h hth ht h0
  have e : ∀ x g : ℝ, ps2T_reg2b x (0.461526 * g) = poly_powi x
      (linV [g, 1] [(0, ⟨true, 461526, 785300⟩), (1, ⟨false, 10, 1⟩)]) ps2T_reg2b_IJn := by
    intro x g
    have e1 : x / 1.0 = x := by norm_num
    have e2 : 10.0 - 0.461526 * g / 0.7853 = linV [g, 1] [(0, ⟨true, 461526, 785300⟩), (1, ⟨false, 10, 1⟩)] := by
      norm_num [linV, Co.val]; ring
    simp only [ps2T_reg2b, e1, e2, poly_powi_steps]
    rw [stepsFold_eq _ _ _ _ (by decide +kernel)]
    unfold poly_powi
    norm_num
  rw [s2, e]
  exact_mod_cast this

theorem bPs2c_ok {P : Par} (hP : P.Ok) {K : Scl} (hK : K.Ok) {c : LogC} (hc : c.Ok) {tn td : ℕ} :
    BodyOk P (bPs2c P K c tn td) fun β τ => |ps2T_reg2c (β ^ 4) (s2 β τ) - 540 / τ| ≤ tn / td := by
  intro u v hu hv b tau β τ hb ht h
  obtain ⟨p, hp, h⟩ := p4_sound hP hu hv h hb
  obtain ⟨hx0, h0, g, s, hg, hs, h⟩ := gs2_sound hP hu hv hK hc h hb hp ht
  obtain ⟨sg, hsg, h⟩ := lin_sound hP hu hv (.cons hs (.cons (enc_one hP) .nil)) h
  obtain ⟨sg, hsg, h⟩ := refresh_sound hP h hsg
  obtain ⟨th, hth, h⟩ := back3_sound hP hu hv exPs2c_eq eyPs2c_eq (by decide) (by decide) tbPs2c_ok flPs2c_eq Ps2c_same h hp hsg
  have := close2_sound hP hu hv h hth ht h0
  have e : ∀ x g : ℝ, ps2T_reg2c x (0.461526 * g) = poly_powi x
      (linV [g, 1] [(0, ⟨true, 461526, 2925100⟩), (1, ⟨false, 2, 1⟩)]) ps2T_reg2c_IJn := by
    intro x g
    have e1 : x / 1.0 = x := by norm_num
    have e2 : 2.0 - 0.461526 * g / 2.9251 = linV [g, 1] [(0, ⟨true, 461526, 2925100⟩), (1, ⟨false, 2, 1⟩)] := by
      norm_num [linV, Co.val]; ring
    simp only [ps2T_reg2c, e1, e2]
    norm_num
  rw [s2, e]
  exact_mod_cast this

theorem kLt_ok {P : Par} (hP : P.Ok) {K : Scl} (hK : K.Ok) {c : LogC} (hc : c.Ok) : BodyOk P (kLt P K c) fun β τ => s2 β τ < 5.85 := by
  intro u v hu hv b tau β τ hb ht h
  obtain ⟨p, hp, h⟩ := p4_sound hP hu hv h hb
  obtain ⟨hx0, h0, g, s, hg, hs, h⟩ := gs2_sound hP hu hv hK hc h hb hp ht
  obtain ⟨d, hd, h⟩ := lin_sound hP hu hv (.cons hs (.cons (enc_one hP) .nil)) h
  have := pos_sound hP hu hv h hd
  norm_num [linV, Co.val] at this
  rw [s2]; norm_num; linarith

theorem kGt_ok {P : Par} (hP : P.Ok) {K : Scl} (hK : K.Ok) {c : LogC} (hc : c.Ok) : BodyOk P (kGt P K c) fun β τ => ¬ s2 β τ < 5.85 := by
  intro u v hu hv b tau β τ hb ht h
  obtain ⟨p, hp, h⟩ := p4_sound hP hu hv h hb
  obtain ⟨hx0, h0, g, s, hg, hs, h⟩ := gs2_sound hP hu hv hK hc h hb hp ht
  obtain ⟨d, hd, h⟩ := lin_sound hP hu hv (.cons hs (.cons (enc_one hP) .nil)) h
  have := pos_sound hP hu hv h hd
  norm_num [linV, Co.val] at this
  rw [s2]; norm_num; linarith

end If97.Tm
