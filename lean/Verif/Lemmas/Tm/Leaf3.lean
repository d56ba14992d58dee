import Verif.Lemmas.Tm.R3h
import Verif.Lemmas.Tm.LeafD
import Verif.Lemmas.Tm.Leaf2s
import Verif.Lemmas.Helmholtz

/-!
# The entropy of a two-phase state of given pressure and enthalpy

Enclosures of the saturated states with the equations of regions 1 and 2 and with those of region 3.
Coordinates β = p^(1/4) and τ = 540/T.
-/

namespace If97.Tm

/-- v(p, T) in 3c -/
noncomputable def v3c (P : Par) (p ti : TM) (k : TM → Bool) : Bool :=
  lin P [p, tone P] [(0, ⟨false, 1, 40⟩), (1, ⟨true, 259, 1000⟩)] fun X => refresh P X fun X =>
  lin P [ti, tone P] [(0, ⟨false, 540, 690⟩), (1, ⟨true, 903, 1000⟩)] fun Y => refresh P Y fun Y =>
  inv P 4 X fun Xi => pows P chxV3c (fun xs => pows P chyV3c (fun ys => poly P xs ys
    (fun r => lin P [r] [(0, ⟨false, 22, 10000⟩)] fun v => refresh P v k) tbV3c (nat_lit 0) (nat_lit 0) (nat_lit 0)
    (nat_lit 0)) [Y, tone P]) [Xi, X, tone P]

/-- v(p, T) in 3t -/
noncomputable def v3t (P : Par) (p ti : TM) (k : TM → Bool) : Bool :=
  lin P [p, tone P] [(0, ⟨false, 1, 20⟩), (1, ⟨true, 803, 1000⟩)] fun X => refresh P X fun X =>
  lin P [ti, tone P] [(0, ⟨false, 540, 650⟩), (1, ⟨true, 102, 100⟩)] fun Y => refresh P Y fun Y =>
  back P chxV3t chyV3t tbV3t X Y fun r => lin P [r] [(0, ⟨false, 88, 10000⟩)] fun v => refresh P v k

/-- v(p, h) in 3a -/
noncomputable def v3a (P : Par) (p h : TM) (k : TM → Bool) : Bool :=
  lin P [p, tone P] [(0, ⟨false, 1, 100⟩), (1, ⟨false, 128, 1000⟩)] fun X => refresh P X fun X =>
  lin P [h, tone P] [(0, ⟨false, 1, 2100⟩), (1, ⟨true, 727, 1000⟩)] fun Y => refresh P Y fun Y =>
  inv P 4 X fun Xi => pows P chxV3a (fun xs => pows P chyV3a (fun ys => poly P xs ys
    (fun r => lin P [r] [(0, ⟨false, 28, 10000⟩)] fun v => refresh P v k) tbV3a (nat_lit 0) (nat_lit 0) (nat_lit 0)
    (nat_lit 0)) [Y, tone P]) [Xi, X, tone P]

/-- v(p, h) in 3b -/
noncomputable def v3b (P : Par) (p h : TM) (k : TM → Bool) : Bool :=
  lin P [p, tone P] [(0, ⟨false, 1, 100⟩), (1, ⟨false, 661, 10000⟩)] fun X => refresh P X fun X =>
  lin P [h, tone P] [(0, ⟨false, 1, 2800⟩), (1, ⟨true, 720, 1000⟩)] fun Y => refresh P Y fun Y =>
  inv P 4 X fun Xi => pows P chxV3b (fun xs => pows P chyV3b (fun ys => poly P xs ys
    (fun r => lin P [r] [(0, ⟨false, 88, 10000⟩)] fun v => refresh P v k) tbV3b (nat_lit 0) (nat_lit 0) (nat_lit 0)
    (nat_lit 0)) [Y, tone P]) [Xi, X, tone P]

/-- δ, τ of region 3 and their powers, from v and 540/T -/
noncomputable def st3 (P : Par) (v tau : TM) (k : TM → TM → List TM → List TM → Bool) : Bool :=
  lin P [v] [(0, ⟨false, 322, 1⟩)] fun w => refresh P w fun w => inv P 4 w fun d =>
  lin P [tau] [(0, ⟨false, 647096, 540000⟩)] fun t => refresh P t fun t =>
  pows P chx3 (fun xs => pows P chy3 (fun ys => k d t xs ys) [t, tone P]) [d, tone P]

/-- the enthalpy of region 3 from v and T -/
noncomputable def h3 (P : Par) (v tau ti : TM) (k : TM → Bool) : Bool :=
  st3 P v tau fun _ t xs ys => poly P xs ys (fun a => poly P xs ys (fun c => mul P t a fun m =>
    lin P [m, c, tone P] [(0, ⟨false, 1, 1⟩), (1, ⟨false, 1, 1⟩), (2, ⟨false, 10658070028513, 10000000000000⟩)] fun e =>
    refresh P e fun e => mul P e ti fun e => lin P [e] [(0, ⟨false, 24922404, 100000⟩)] fun e => refresh P e k)
    ti3 (nat_lit 0) (nat_lit 0) (nat_lit 0) (nat_lit 0)) tj3 (nat_lit 0) (nat_lit 0) (nat_lit 0) (nat_lit 0)

/-- the entropy of region 3 from v and T -/
noncomputable def s3 (P : Par) (c : LogC) (v tau : TM) (k : TM → Bool) : Bool :=
  st3 P v tau fun d t xs ys => poly P xs ys (fun a => poly P xs ys (fun f => mul P t a fun m => logT P c d fun l =>
    lin P [m, f, l] [(0, ⟨false, 461526, 1000000⟩), (1, ⟨true, 461526, 1000000⟩),
      (2, ⟨true, 2459488213989745419, 5000000000000000000⟩)] fun e => refresh P e k)
    tz3 (nat_lit 0) (nat_lit 0) (nat_lit 0) (nat_lit 0)) tj3 (nat_lit 0) (nat_lit 0) (nat_lit 0) (nat_lit 0)

/-- the enthalpy and the entropy of region 1 -/
noncomputable def hs1 (P : Par) (p tau : TM) (k : TM → TM → Bool) : Bool :=
  lin P [tau] [(0, ⟨false, 1386, 540⟩)] fun t => refresh P t fun t => st1 P p t fun xs ys =>
  poly P xs ys (fun g => poly P xs ys (fun f => mul P t g fun m =>
    lin P [g] [(0, ⟨false, 639675036, 1000000⟩)] fun h => refresh P h fun h =>
    lin P [m, f] [(0, ⟨false, 461526, 1000000⟩), (1, ⟨true, 461526, 1000000⟩)] fun s => refresh P s fun s => k h s)
    t01 (nat_lit 0) (nat_lit 0) (nat_lit 0) (nat_lit 0)) tg1 (nat_lit 0) (nat_lit 0) (nat_lit 0) (nat_lit 0)

/-- the enthalpy and the entropy of region 2 -/
noncomputable def hs2 (P : Par) (c : LogC) (b p tau : TM) (k : TM → TM → Bool) : Bool :=
  gs2 P K1 c b p tau fun g s =>
  lin P [g] [(0, ⟨false, 24922404, 100000⟩)] fun h => refresh P h fun h =>
  lin P [s] [(0, ⟨false, 461526, 1000000⟩)] fun s => refresh P s fun s => k h s

/-- x s'' + (1 - x) s' with x = (h - h')/(h'' - h') -/
noncomputable def mix (P : Par) (H : Nat) (hL hv sL sv : TM) (k : TM → Bool) : Bool :=
  lin P [tone P, hL] [(0, ⟨false, H, 1⟩), (1, ⟨true, 1, 1⟩)] fun n => refresh P n fun n =>
  lin P [hv, hL] [(0, ⟨false, 1, 1⟩), (1, ⟨true, 1, 1⟩)] fun d => refresh P d fun d => inv P 4 d fun di =>
  mul P n di fun x =>
  lin P [sv, sL] [(0, ⟨false, 1, 1⟩), (1, ⟨true, 1, 1⟩)] fun e => refresh P e fun e =>
  mul P x e fun y => lin P [y, sL] [(0, ⟨false, 1, 1⟩), (1, ⟨false, 1, 1⟩)] fun r => refresh P r k

section
variable {P : Par} (hP : P.Ok) {u v : ℝ} (hu : |u| ≤ 1) (hv : |v| ≤ 1)
include hP hu hv

theorem v3c_sound {p ti : TM} {k : TM → Bool} {x y : ℝ} (h : v3c P p ti k = true) (hp : Enc P u v p x)
    (ht : Enc P u v ti y⁻¹) : ∃ t, Enc P u v t (pT2v_3c x (540 / y)) ∧ k t = true := by
  obtain ⟨X, hX, h⟩ := lin_sound hP hu hv (.cons hp (.cons (enc_one hP) .nil)) h
  obtain ⟨X, hX, h⟩ := refresh_sound hP h hX
  obtain ⟨Y, hY, h⟩ := lin_sound hP hu hv (.cons ht (.cons (enc_one hP) .nil)) h
  obtain ⟨Y, hY, h⟩ := refresh_sound hP h hY
  obtain ⟨r, hr, h⟩ := back3_sound hP hu hv exV3c_eq eyV3c_eq (by decide) (by decide) tbV3c_ok flV3c_eq V3c_same h hX hY
  obtain ⟨t, ht, h⟩ := lin_sound hP hu hv (.cons hr .nil) h
  obtain ⟨t, ht, h⟩ := refresh_sound hP h ht
  refine ⟨t, ?_, h⟩
  have e1 : linV [x, 1] [(0, ⟨false, 1, 40⟩), (1, ⟨true, 259, 1000⟩)] = (x / 40.0 - 0.259) ^ (1.0 : ℝ) := by
    rw [show (1.0 : ℝ) = 1 by norm_num, Real.rpow_one]
    norm_num [linV, Co.val]; ring
  have e2 : linV [y⁻¹, 1] [(0, ⟨false, 540, 690⟩), (1, ⟨true, 903, 1000⟩)] = (540 / y / 690.0 - 0.903) ^ (1.0 : ℝ) := by
    rw [show (1.0 : ℝ) = 1 by norm_num, Real.rpow_one]
    norm_num [linV, Co.val]; ring
  rw [e1, e2] at ht
  convert ht using 1
  simp only [pT2v_3c, pT2v_sum, real_powf]
  generalize (poly_powi _ _ _ : ℝ) = w
  rw [show (1.0 : ℝ) = 1 by norm_num, Real.rpow_one]
  norm_num [linV, Co.val]; ring

theorem v3t_sound {p ti : TM} {k : TM → Bool} {x y : ℝ} (h : v3t P p ti k = true) (hp : Enc P u v p x)
    (ht : Enc P u v ti y⁻¹) : ∃ t, Enc P u v t (pT2v_3t x (540 / y)) ∧ k t = true := by
  obtain ⟨X, hX, h⟩ := lin_sound hP hu hv (.cons hp (.cons (enc_one hP) .nil)) h
  obtain ⟨X, hX, h⟩ := refresh_sound hP h hX
  obtain ⟨Y, hY, h⟩ := lin_sound hP hu hv (.cons ht (.cons (enc_one hP) .nil)) h
  obtain ⟨Y, hY, h⟩ := refresh_sound hP h hY
  obtain ⟨r, hr, h⟩ := back_sound hP hu hv exV3t_eq eyV3t_eq (by decide) (by decide) tbV3t_ok flV3t_eq V3t_same h hX hY
  obtain ⟨t, ht, h⟩ := lin_sound hP hu hv (.cons hr .nil) h
  obtain ⟨t, ht, h⟩ := refresh_sound hP h ht
  refine ⟨t, ?_, h⟩
  have e1 : linV [x, 1] [(0, ⟨false, 1, 20⟩), (1, ⟨true, 803, 1000⟩)] = (x / 20.0 - 0.803) ^ (1.0 : ℝ) := by
    rw [show (1.0 : ℝ) = 1 by norm_num, Real.rpow_one]
    norm_num [linV, Co.val]; ring
  have e2 : linV [y⁻¹, 1] [(0, ⟨false, 540, 650⟩), (1, ⟨true, 102, 100⟩)] = (540 / y / 650.0 - 1.02) ^ (1.0 : ℝ) := by
    rw [show (1.0 : ℝ) = 1 by norm_num, Real.rpow_one]
    norm_num [linV, Co.val]; ring
  rw [e1, e2] at ht
  convert ht using 1
  simp only [pT2v_3t, pT2v_sum, real_powf]
  generalize (poly_powi _ _ _ : ℝ) = w
  rw [show (1.0 : ℝ) = 1 by norm_num, Real.rpow_one]
  norm_num [linV, Co.val]; ring

theorem v3a_sound {p h' : TM} {k : TM → Bool} {x y : ℝ} (h : v3a P p h' k = true) (hp : Enc P u v p x)
    (ht : Enc P u v h' y) : ∃ t, Enc P u v t (ph2v_3a_reg3 x y) ∧ k t = true := by
  obtain ⟨X, hX, h⟩ := lin_sound hP hu hv (.cons hp (.cons (enc_one hP) .nil)) h
  obtain ⟨X, hX, h⟩ := refresh_sound hP h hX
  obtain ⟨Y, hY, h⟩ := lin_sound hP hu hv (.cons ht (.cons (enc_one hP) .nil)) h
  obtain ⟨Y, hY, h⟩ := refresh_sound hP h hY
  obtain ⟨r, hr, h⟩ := back3_sound hP hu hv exV3a_eq eyV3a_eq (by decide) (by decide) tbV3a_ok flV3a_eq V3a_same h hX hY
  obtain ⟨t, ht, h⟩ := lin_sound hP hu hv (.cons hr .nil) h
  obtain ⟨t, ht, h⟩ := refresh_sound hP h ht
  refine ⟨t, ?_, h⟩
  have e1 : linV [x, 1] [(0, ⟨false, 1, 100⟩), (1, ⟨false, 128, 1000⟩)] = x / 100.0 + 0.128 := by
    norm_num [linV, Co.val]; ring
  have e2 : linV [y, 1] [(0, ⟨false, 1, 2100⟩), (1, ⟨true, 727, 1000⟩)] = y / 2100.0 - 0.727 := by
    norm_num [linV, Co.val]; ring
  rw [e1, e2] at ht
  convert ht using 1
  simp only [ph2v_3a_reg3]
  generalize (poly_powi _ _ _ : ℝ) = w
  norm_num [linV, Co.val]

theorem v3b_sound {p h' : TM} {k : TM → Bool} {x y : ℝ} (h : v3b P p h' k = true) (hp : Enc P u v p x)
    (ht : Enc P u v h' y) : ∃ t, Enc P u v t (ph2v_3b_reg3 x y) ∧ k t = true := by
  obtain ⟨X, hX, h⟩ := lin_sound hP hu hv (.cons hp (.cons (enc_one hP) .nil)) h
  obtain ⟨X, hX, h⟩ := refresh_sound hP h hX
  obtain ⟨Y, hY, h⟩ := lin_sound hP hu hv (.cons ht (.cons (enc_one hP) .nil)) h
  obtain ⟨Y, hY, h⟩ := refresh_sound hP h hY
  obtain ⟨r, hr, h⟩ := back3_sound hP hu hv exV3b_eq eyV3b_eq (by decide) (by decide) tbV3b_ok flV3b_eq V3b_same h hX hY
  obtain ⟨t, ht, h⟩ := lin_sound hP hu hv (.cons hr .nil) h
  obtain ⟨t, ht, h⟩ := refresh_sound hP h ht
  refine ⟨t, ?_, h⟩
  have e1 : linV [x, 1] [(0, ⟨false, 1, 100⟩), (1, ⟨false, 661, 10000⟩)] = x / 100.0 + 0.0661 := by
    norm_num [linV, Co.val]; ring
  have e2 : linV [y, 1] [(0, ⟨false, 1, 2800⟩), (1, ⟨true, 720, 1000⟩)] = y / 2800.0 - 0.720 := by
    norm_num [linV, Co.val]; ring
  rw [e1, e2] at ht
  convert ht using 1
  simp only [ph2v_3b_reg3]
  generalize (poly_powi _ _ _ : ℝ) = w
  norm_num [linV, Co.val]

theorem st3_sound {w tau : TM} {k : TM → TM → List TM → List TM → Bool} {x y : ℝ} (h : st3 P w tau k = true)
    (hw : Enc P u v w x) (ht : Enc P u v tau y) :
    0 < x ∧ ∃ d t xs ys, Enc P u v d (R3.xd (1 / x)) ∧ Enc P u v t (R3.yt (540 / y)) ∧
      List.Forall₂ (Enc P u v) xs (ex3.map (R3.xd (1 / x) ^ ·)) ∧
      List.Forall₂ (Enc P u v) ys (ey3.map (R3.yt (540 / y) ^ ·)) ∧ k d t xs ys = true := by
  obtain ⟨w, hw, h⟩ := lin_sound hP hu hv (.cons hw .nil) h
  obtain ⟨w, hw, h⟩ := refresh_sound hP h hw
  obtain ⟨h0, d, hd, h⟩ := inv_sound hP hu hv h hw
  obtain ⟨t, ht, h⟩ := lin_sound hP hu hv (.cons ht .nil) h
  obtain ⟨t, ht, h⟩ := refresh_sound hP h ht
  obtain ⟨xs, hxs, h⟩ := pows_sound hP hu hv h (.cons hd (.cons (enc_one hP) .nil))
  obtain ⟨ys, hys, h⟩ := pows_sound hP hu hv h (.cons ht (.cons (enc_one hP) .nil))
  have e1 : (linV [x] [(0, ⟨false, 322, 1⟩)])⁻¹ = R3.xd (1 / x) := by
    simp only [linV, Co.val, R3.xd, List.map_cons, List.map_nil, List.sum_cons, List.sum_nil, List.getD_cons_zero]
    norm_num; ring
  have e2 : linV [y] [(0, ⟨false, 647096, 540000⟩)] = R3.yt (540 / y) := by
    norm_num [linV, Co.val, R3.yt]; rw [div_div_eq_mul_div]; ring
  rw [e1] at hd hxs
  rw [e2] at ht hys
  refine ⟨?_, d, t, xs, ys, hd, ht, ?_, ?_, h⟩
  · have : linV [x] [(0, ⟨false, 322, 1⟩)] = 322 * x := by norm_num [linV, Co.val]
    rw [this] at h0; linarith
  · rw [← ex3_eq, ← powsV_eq (.inr (by decide)) (by decide)]
    simpa using hxs
  · rw [← ey3_eq, ← powsV_eq (.inr (by decide)) (by decide)]
    simpa using hys

omit hP hu hv in
theorem j3_val (x y : ℝ) : polyV (ex3.map (x ^ ·)) (ey3.map (y ^ ·)) tj3 = R3.ft x y := by
  rw [polyV_eq tj3_ok, flj3_eq, sumT_eqW same_j3, R3.ft, poly_j_powi_sum]
  congr 1; apply List.map_congr_left; intro e _; simp only [wJ, sub_zero]; ring
omit hP hu hv in
theorem z3_val (x y : ℝ) : polyV (ex3.map (x ^ ·)) (ey3.map (y ^ ·)) tz3 = poly_powi x y r3_IJn := by
  rw [polyV_eq tz3_ok, flz3_eq, sumT_eqW same_z3, poly_powi_sum]
  congr 1; apply List.map_congr_left; intro e _; simp [wO]

theorem h3_sound {w tau ti : TM} {k : TM → Bool} {x y : ℝ} (h : h3 P w tau ti k = true)
    (hw : Enc P u v w x) (ht : Enc P u v tau y) (hti : Enc P u v ti y⁻¹) (hy : 0 < y) :
    0 < x ∧ ∃ t, Enc P u v t (Td2h_reg3 (540 / y) (1 / x)) ∧ k t = true := by
  obtain ⟨hx, d, t, xs, ys, hd, ht, hxs, hys, h⟩ := st3_sound hP hu hv h hw ht
  refine ⟨hx, ?_⟩
  obtain ⟨a, ha, h⟩ := poly_sound0 hP hu hv hxs hys h
  obtain ⟨c, hc, h⟩ := poly_sound0 hP hu hv hxs hys h
  obtain ⟨m, hm, h⟩ := mul_sound hP hu hv h ht ha
  obtain ⟨e, he, h⟩ := lin_sound hP hu hv (.cons hm (.cons hc (.cons (enc_one hP) .nil))) h
  obtain ⟨e, he, h⟩ := refresh_sound hP h he
  obtain ⟨e, he, h⟩ := mul_sound hP hu hv h he hti
  obtain ⟨e, he, h⟩ := lin_sound hP hu hv (.cons he .nil) h
  obtain ⟨e, he, h⟩ := refresh_sound hP h he
  refine ⟨e, ?_, h⟩
  have x0 : R3.xd (1 / x) ≠ 0 := by unfold R3.xd; positivity
  rw [j3_val, polyV_eq ti3_ok, fli3_eq, sumT_eqW same_i3, xi_sum _ x0] at he
  rw [R3.vH (by positivity) (by positivity), R3.H, R3.fd]
  convert he using 1
  have e1 : R3.yt (540 / y) = 647.096 / 540 * y := by unfold R3.yt; field_simp
  have e2 : R3.xd (1 / x) = 1 / x / 322 := rfl
  rw [e2] at x0 ⊢
  generalize R3.ft _ _ = ft
  generalize (poly_i_powi _ _ _ : ℝ) = fi
  rw [e1]
  have x1 : 1 / x ≠ 0 := by positivity
  generalize 1 / x = z at *
  have hz : z * n1 / (z / 322) = 322 * n1 := by field_simp
  simp only [linV, List.map_cons, List.map_nil, List.sum_cons, List.sum_nil, List.getD_cons_zero, List.getD_cons_succ, Co.val,
    gasR]
  have e4 : 540 / y * z / 322 * (n1 / (z / 322) + fi) = 540 / y * (n1 + z / 322 * fi) := by field_simp
  rw [e4, n1]
  norm_num
  field_simp
  ring

theorem s3_sound {c : LogC} (hc : c.Ok) {w tau : TM} {k : TM → Bool} {x y : ℝ} (h : s3 P c w tau k = true)
    (hw : Enc P u v w x) (ht : Enc P u v tau y) (hy : 0 < y) :
    ∃ t, Enc P u v t (Td2s_reg3 (540 / y) (1 / x)) ∧ k t = true := by
  obtain ⟨hx, d, t, xs, ys, hd, ht, hxs, hys, h⟩ := st3_sound hP hu hv h hw ht
  obtain ⟨a, ha, h⟩ := poly_sound0 hP hu hv hxs hys h
  obtain ⟨f, hf, h⟩ := poly_sound0 hP hu hv hxs hys h
  obtain ⟨m, hm, h⟩ := mul_sound hP hu hv h ht ha
  obtain ⟨-, l, hl, h⟩ := logT_sound hP hu hv hc h hd
  obtain ⟨e, he, h⟩ := lin_sound hP hu hv (.cons hm (.cons hf (.cons hl .nil))) h
  obtain ⟨e, he, h⟩ := refresh_sound hP h he
  refine ⟨e, ?_, h⟩
  rw [j3_val, z3_val] at he
  rw [R3.vS (by positivity) (by positivity), R3.S, R3.f]
  convert he using 1
  generalize R3.ft _ _ = ft
  generalize (poly_powi _ _ _ : ℝ) = f0
  generalize Real.log _ = l0
  simp only [linV, List.map_cons, List.map_nil, List.sum_cons, List.sum_nil, List.getD_cons_zero, List.getD_cons_succ, Co.val,
    gasR, n1]
  norm_num
  ring

theorem hs1_sound {p tau : TM} {k : TM → TM → Bool} {x y : ℝ} (h : hs1 P p tau k = true)
    (hp : Enc P u v p x) (ht : Enc P u v tau y) :
    ∃ h s, Enc P u v h (G1.H x (540 / y)) ∧ Enc P u v s (G1.S x (540 / y)) ∧ k h s = true := by
  obtain ⟨t, ht, h⟩ := lin_sound hP hu hv (.cons ht .nil) h
  obtain ⟨t, ht, h⟩ := refresh_sound hP h ht
  have et : linV [y] [(0, ⟨false, 1386, 540⟩)] = 1386 / (540 / y) := by
    norm_num [linV, Co.val]; rw [div_div_eq_mul_div]; ring
  rw [et] at ht
  obtain ⟨xs, ys, hxs, hys, hy0, h⟩ := st1_sound hP hu hv h hp ht
  obtain ⟨g, hg, h⟩ := poly_sound0 hP hu hv hxs hys h
  obtain ⟨f, hf, h⟩ := poly_sound0 hP hu hv hxs hys h
  obtain ⟨m, hm, h⟩ := mul_sound hP hu hv h ht hg
  obtain ⟨H, hH, h⟩ := lin_sound hP hu hv (.cons hg .nil) h
  obtain ⟨H, hH, h⟩ := refresh_sound hP h hH
  obtain ⟨s, hs, h⟩ := lin_sound hP hu hv (.cons hm (.cons hf .nil)) h
  obtain ⟨s, hs, h⟩ := refresh_sound hP h hs
  rw [tg1_val] at hH hs
  rw [t01_val] at hs
  refine ⟨H, s, ?_, ?_, h⟩
  · convert hH using 1
    simp only [Gibbs.H, gasR]
    rw [show G1.ps = 16.53 from rfl, show G1.Ts = 1386 from rfl]
    generalize G1.gt _ _ = z
    norm_num [linV, Co.val]
  · convert hs using 1
    simp only [Gibbs.S, gasR]
    rw [show G1.ps = 16.53 from rfl, show G1.Ts = 1386 from rfl]
    generalize G1.gt _ _ = z
    generalize G1.g _ _ = z'
    norm_num [linV, Co.val]; ring

theorem hs2_sound {c : LogC} (hc : c.Ok) {b p tau : TM} {k : TM → TM → Bool} {x y : ℝ} (h : hs2 P c b p tau k = true)
    (hb : Enc P u v b x) (hp : Enc P u v p (x ^ 4)) (ht : Enc P u v tau y) :
    0 < x ∧ 0 < y ∧ ∃ h s, Enc P u v h (G2.H (x ^ 4) (540 / y)) ∧ Enc P u v s (G2.S (x ^ 4) (540 / y)) ∧ k h s = true := by
  obtain ⟨hx0, h0, g, s, hg, hs, h⟩ := gs2_sound hP hu hv K1_ok hc h hb hp ht
  obtain ⟨H, hH, h⟩ := lin_sound hP hu hv (.cons hg .nil) h
  obtain ⟨H, hH, h⟩ := refresh_sound hP h hH
  obtain ⟨s, hs, h⟩ := lin_sound hP hu hv (.cons hs .nil) h
  obtain ⟨s, hs, h⟩ := refresh_sound hP h hs
  refine ⟨hx0, h0, H, s, ?_, ?_, h⟩
  · convert hH using 1
    simp only [Gibbs.H, gasR]
    rw [show G2.ps = 1 from rfl, show G2.Ts = 540 from rfl, div_div_cancel₀ (by norm_num), div_one]
    generalize G2.gt _ _ = z
    norm_num [linV, Co.val]
  · convert hs using 1
    simp only [Gibbs.S, gasR, s2R]
    rw [show G2.ps = 1 from rfl, show G2.Ts = 540 from rfl, div_div_cancel₀ (by norm_num), div_one]
    generalize G2.gt _ _ = z
    generalize G2.g _ _ = z'
    norm_num [linV, Co.val]

theorem mix_sound {H : ℕ} {hL hv' sL sv : TM} {k : TM → Bool} {a b c d : ℝ} (h : mix P H hL hv' sL sv k = true)
    (ha : Enc P u v hL a) (hb : Enc P u v hv' b) (hc : Enc P u v sL c) (hd : Enc P u v sv d) :
    ∃ t, Enc P u v t ((H - a) / (b - a) * d + (1 - (H - a) / (b - a)) * c) ∧ k t = true := by
  obtain ⟨n, hn, h⟩ := lin_sound hP hu hv (.cons (enc_one hP) (.cons ha .nil)) h
  obtain ⟨n, hn, h⟩ := refresh_sound hP h hn
  obtain ⟨e, he, h⟩ := lin_sound hP hu hv (.cons hb (.cons ha .nil)) h
  obtain ⟨e, he, h⟩ := refresh_sound hP h he
  obtain ⟨h0, ei, hei, h⟩ := inv_sound hP hu hv h he
  obtain ⟨x, hx, h⟩ := mul_sound hP hu hv h hn hei
  obtain ⟨f, hf, h⟩ := lin_sound hP hu hv (.cons hd (.cons hc .nil)) h
  obtain ⟨f, hf, h⟩ := refresh_sound hP h hf
  obtain ⟨y, hy, h⟩ := mul_sound hP hu hv h hx hf
  obtain ⟨r, hr, h⟩ := lin_sound hP hu hv (.cons hy (.cons hc .nil)) h
  obtain ⟨r, hr, h⟩ := refresh_sound hP h hr
  refine ⟨r, ?_, h⟩
  convert hr using 1
  have e1 : linV [1, a] [(0, ⟨false, H, 1⟩), (1, ⟨true, 1, 1⟩)] = H - a := by
    simp [linV, Co.val]; ring
  have e2 : linV [b, a] [(0, ⟨false, 1, 1⟩), (1, ⟨true, 1, 1⟩)] = b - a := by
    simp [linV, Co.val]; ring
  have e3 : linV [d, c] [(0, ⟨false, 1, 1⟩), (1, ⟨true, 1, 1⟩)] = d - c := by
    simp [linV, Co.val]; ring
  rw [e1, e2, e3]
  norm_num [linV, Co.val]; ring

end

end If97.Tm
