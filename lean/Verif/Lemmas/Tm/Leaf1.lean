import Verif.Lemmas.Tm.R1
import Verif.Lemmas.Tm.Comp.Region1

/-!
# Region 1: enclosures of the enthalpy, the entropy and the backward equations

`leafPh1` and `leafPs1` check, on one box of pressures and of τ = 1386/T, that T(p, h(p, T)) and
T(p, s(p, T)) differ from T by at most a given tolerance.
-/

namespace If97.Tm

section
variable {P : Par} (hP : P.Ok) {u v : ℝ} (hu : |u| ≤ 1) (hv : |v| ≤ 1)
include hP hu hv

theorem poly_sound0 {xt yt : List TM} {xs ys : List ℝ} (hxs : List.Forall₂ (Enc P u v) xt xs)
    (hys : List.Forall₂ (Enc P u v) yt ys) {k : TM → Bool} {tb : List (Nat × List (Nat × Co))}
    (h : poly P xt yt k tb (nat_lit 0) (nat_lit 0) (nat_lit 0) (nat_lit 0) = true) :
    ∃ t, Enc P u v t (polyV xs ys tb) ∧ k t = true := by
  simpa using poly_sound hP hu hv hxs hys h (fun _ => enc_zero hP)

end

section
variable {P : Par} (hP : P.Ok) {u v : ℝ} (hu : |u| ≤ 1) (hv : |v| ≤ 1)
include hP hu hv

theorem st1_sound {p tau : TM} {k : List TM → List TM → Bool} {x y : ℝ} (h : st1 P p tau k = true)
    (hp : Enc P u v p x) (ht : Enc P u v tau y) :
    ∃ xs ys, List.Forall₂ (Enc P u v) xs (ex1.map ((7.1 - x / 16.53) ^ ·)) ∧
      List.Forall₂ (Enc P u v) ys (ey1.map ((y - 1.222) ^ ·)) ∧ 0 < y - 1.222 ∧ k xs ys = true := by
  obtain ⟨X, hX, h⟩ := lin_sound hP hu hv (.cons hp (.cons (enc_one hP) .nil)) h
  obtain ⟨X, hX, h⟩ := refresh_sound hP h hX
  obtain ⟨Y, hY, h⟩ := lin_sound hP hu hv (.cons ht (.cons (enc_one hP) .nil)) h
  obtain ⟨Y, hY, h⟩ := refresh_sound hP h hY
  have eX : linV [x, 1] [(1, ⟨false, 71, 10⟩), (0, ⟨true, 100, 1653⟩)] = 7.1 - x / 16.53 := by
    simp [linV, Co.val]; ring
  have eY : linV [y, 1] [(0, ⟨false, 1, 1⟩), (1, ⟨true, 1222, 1000⟩)] = y - 1.222 := by
    simp [linV, Co.val]; ring
  rw [eX] at hX
  rw [eY] at hY
  obtain ⟨h0, Yi, hYi, h⟩ := inv_sound hP hu hv h hY
  obtain ⟨xs, hxs, h⟩ := pows_sound hP hu hv h (.cons hX (.cons (enc_one hP) .nil))
  obtain ⟨ys, hys, h⟩ := pows_sound hP hu hv h (.cons hYi (.cons hY (.cons (enc_one hP) .nil)))
  refine ⟨xs, ys, ?_, ?_, h0, h⟩
  · rw [← ex1_eq, ← powsV_eq (.inr (by decide)) (by decide)]
    simpa using hxs
  · rw [← ey1_eq, ← powsV_eq (.inl h0.ne') (by decide)]
    simpa using hys

end

theorem tg1_val (x y : ℝ) : polyV (ex1.map ((7.1 - x) ^ ·)) (ey1.map ((y - 1.222) ^ ·)) tg1 = G1.gt x y := by
  rw [polyV_eq tg1_ok, flg1_eq, sumT_eqJ g1_same]
  simp only [G1, poly_j_powi_sum]
theorem t01_val (x y : ℝ) : polyV (ex1.map ((7.1 - x) ^ ·)) (ey1.map ((y - 1.222) ^ ·)) t01 = G1.g x y := by
  rw [polyV_eq t01_ok, fl01_eq, sumT_eq z1_same]
  simp only [G1, poly_powi_sum]

theorem back_sound {P : Par} (hP : P.Ok) {u v : ℝ} (hu : |u| ≤ 1) (hv : |v| ≤ 1) {chx chy : List (Nat × Nat)}
    {tb : List (Nat × List (Nat × Co))} {ex ey : List Int} {fl : List (Int × Int × Co)} {T : List (Int × Int × ℝ)}
    (hx : powE chx [1, 0] = ex) (hy : powE chy [1, 0] = ey) (cx : chOk chx 2 = true) (cy : chOk chy 2 = true)
    (ht : tbOk tb ex.length ey.length = true) (hf : flat ex ey tb = fl) (hs : List.Forall₂ SameT fl T)
    {s t : TM} {k : TM → Bool} {x y : ℝ} (h : back P chx chy tb s t k = true) (h1 : Enc P u v s x)
    (h2 : Enc P u v t y) : ∃ r, Enc P u v r (poly_powi x y T) ∧ k r = true := by
  obtain ⟨xs, hxs, h⟩ := pows_sound hP hu hv h (.cons h1 (.cons (enc_one hP) .nil))
  obtain ⟨ys, hys, h⟩ := pows_sound hP hu hv h (.cons h2 (.cons (enc_one hP) .nil))
  obtain ⟨r, hr, h⟩ := poly_sound0 hP hu hv hxs hys h
  refine ⟨r, ?_, h⟩
  have ex' : powsV chx [x, 1] = ex.map (x ^ ·) := by
    rw [← hx, ← powsV_eq (.inr (by decide)) (by simpa using cx)]; simp
  have ey' : powsV chy [y, 1] = ey.map (y ^ ·) := by
    rw [← hy, ← powsV_eq (.inr (by decide)) (by simpa using cy)]; simp
  rw [ex', ey', polyV_eq ht, hf, sumT_eq hs] at hr
  rwa [poly_powi_sum]

theorem close_sound {P : Par} (hP : P.Ok) {u v : ℝ} (hu : |u| ≤ 1) (hv : |v| ≤ 1) {th tau : TM} {Ts tn td yr yc E : ℕ}
    {x : ℝ} (h : close P th tau Ts tn td yr yc E = true) (h1 : Enc P u v th x)
    (h2 : Enc P u v tau (yc / E + yr / E * v)) (hE : 0 < E) (htd : 0 < td) (hy : yr ≤ yc)
    (h0 : 0 < (yc / E + yr / E * v : ℝ)) : |x - Ts / (yc / E + yr / E * v)| ≤ tn / td := by
  obtain ⟨e, he, h⟩ := mul_sound hP hu hv h h1 h2
  obtain ⟨e, he, h⟩ := lin_sound hP hu hv (.cons he (.cons (enc_one hP) .nil)) h
  simp only [force_eq] at h
  have hb := bnd_sound hP hu hv h he
  set y : ℝ := yc / E + yr / E * v with hy'
  have eL : linV [x * y, 1] [(0, ⟨false, 1, 1⟩), (1, ⟨true, Ts, 1⟩)] = x * y - Ts := by
    simp [linV, Co.val]; ring
  rw [eL] at hb
  have hEr : (0 : ℝ) < E := by exact_mod_cast hE
  have htr : (0 : ℝ) < td := by exact_mod_cast htd
  have hS : (0 : ℝ) < 2 ^ P.S := by positivity
  have k1 : ((Nat.div (Nat.mul (Nat.mul tn P.one) (Nat.sub yc yr)) (Nat.mul td E) : ℕ) : ℝ)
      ≤ ((tn * P.one * (yc - yr) : ℕ) : ℝ) / ((td * E : ℕ) : ℝ) := Nat.cast_div_le
  rw [hP.one] at k1
  push_cast [Nat.cast_sub hy] at k1
  have k2 : 2 ^ P.S * |x * y - Ts| ≤ tn * 2 ^ P.S * (yc - yr) / (td * E) := by
    refine hb.trans (le_trans ?_ k1)
    rw [hP.one]
  have k3 : ((yc : ℝ) - yr) / E ≤ y := by
    rw [hy', sub_div]
    have := (abs_le.1 hv).1
    have : 0 ≤ (yr : ℝ) / E := by positivity
    nlinarith
  have k4 : |x * y - Ts| ≤ tn / td * y := by
    have e1 : (tn : ℝ) * 2 ^ P.S * (yc - yr) / (td * E) = 2 ^ P.S * (tn / td * ((yc - yr) / E)) := by
      field_simp
    rw [e1] at k2
    refine (le_of_mul_le_mul_left k2 hS).trans ?_
    exact mul_le_mul_of_nonneg_left k3 (by positivity)
  have e2 : x - Ts / y = (x * y - Ts) / y := by field_simp
  rw [e2, abs_div, abs_of_pos h0, div_le_iff₀ h0]
  exact k4

theorem leafPh1_ok {P : Par} (hP : P.Ok) {tn td xr yr : ℕ} (htd : 0 < td) :
    LeafOk (leafPh1 P tn td xr yr) xr yr fun p τ =>
      |ph2T_reg1 p (0.461526 * 1386 * G1.gt (p / 16.53) τ) - 1386 / τ| ≤ tn / td := by
  intro xc D yc E hD hE hx hy h u v hu hv
  obtain ⟨p, tau, hp, ht, h⟩ := base_sound hP hu hv h
  obtain ⟨xs, ys, hxs, hys, hy0, h⟩ := st1_sound hP hu hv h hp ht
  obtain ⟨g, hg, h⟩ := poly_sound0 hP hu hv hxs hys h
  rw [tg1_val] at hg
  obtain ⟨eta, heta, h⟩ := lin_sound hP hu hv (.cons hg (.cons (enc_one hP) .nil)) h
  obtain ⟨eta, heta, h⟩ := refresh_sound hP h heta
  obtain ⟨th, hth, h⟩ := back_sound hP hu hv exPh1_eq eyPh1_eq (by decide) (by decide) tbPh1_ok flPh1_eq Ph1_same h hp heta
  have := close_sound hP hu hv h hth ht hE htd hy (by linarith)
  have e : ∀ x g : ℝ, ph2T_reg1 x (0.461526 * 1386 * g) = poly_powi x (linV [g, 1] [(0, ⟨false, 639675036, 2500000000⟩),
      (1, ⟨false, 1, 1⟩)]) ph2T_reg1_IJn := by
    intro x g
    have e1 : x / 1.0 = x := by norm_num
    have e2 : 0.461526 * 1386 * g / 2500.0 + 1.0 = linV [g, 1] [(0, ⟨false, 639675036, 2500000000⟩),
        (1, ⟨false, 1, 1⟩)] := by
      norm_num [linV, Co.val]; ring
    simp only [ph2T_reg1, e1, e2]
    norm_num
  rw [e]
  exact_mod_cast this

theorem leafPs1_ok {P : Par} (hP : P.Ok) {tn td xr yr : ℕ} (htd : 0 < td) :
    LeafOk (leafPs1 P tn td xr yr) xr yr fun p τ =>
      |ps2T_reg1 p (0.461526 * (τ * G1.gt (p / 16.53) τ - G1.g (p / 16.53) τ)) - 1386 / τ| ≤ tn / td := by
  intro xc D yc E hD hE hx hy h u v hu hv
  obtain ⟨p, tau, hp, ht, h⟩ := base_sound hP hu hv h
  obtain ⟨xs, ys, hxs, hys, hy0, h⟩ := st1_sound hP hu hv h hp ht
  obtain ⟨g, hg, h⟩ := poly_sound0 hP hu hv hxs hys h
  obtain ⟨g0, hg0, h⟩ := poly_sound0 hP hu hv hxs hys h
  rw [tg1_val] at hg
  rw [t01_val] at hg0
  obtain ⟨gy, hgy, h⟩ := mul_sound hP hu hv h hg ht
  obtain ⟨eta, heta, h⟩ := lin_sound hP hu hv (.cons hgy (.cons hg0 (.cons (enc_one hP) .nil))) h
  obtain ⟨eta, heta, h⟩ := refresh_sound hP h heta
  obtain ⟨th, hth, h⟩ := back_sound hP hu hv exPs1_eq eyPs1_eq (by decide) (by decide) tbPs1_ok flPs1_eq Ps1_same h hp heta
  have := close_sound hP hu hv h hth ht hE htd hy (by linarith)
  have e : ∀ x y g z : ℝ, ps2T_reg1 x (0.461526 * (y * g - z)) = poly_powi x (linV [g * y, z, 1]
      [(0, ⟨false, 461526, 1000000⟩), (1, ⟨true, 461526, 1000000⟩), (2, ⟨false, 2, 1⟩)]) ps2T_reg1_IJn := by
    intro x y g z
    have e1 : x / 1.0 = x := by norm_num
    have e2 : 0.461526 * (y * g - z) / 1.0 + 2.0 = linV [g * y, z, 1]
        [(0, ⟨false, 461526, 1000000⟩), (1, ⟨true, 461526, 1000000⟩), (2, ⟨false, 2, 1⟩)] := by
      norm_num [linV, Co.val]; ring
    simp only [ps2T_reg1, e1, e2]
    norm_num
  rw [e]
  exact_mod_cast this

theorem bnd_div {P : Par} (hP : P.Ok) {u v : ℝ} (hu : |u| ≤ 1) (hv : |v| ≤ 1) {t : TM} {pn pd : ℕ} {x : ℝ}
    (h : (force (Nat.div (Nat.mul pn P.one) pd) fun tol => bnd P t tol) = true) (ht : Enc P u v t x) :
    |x| ≤ pn / pd := by
  simp only [force_eq] at h
  have hb := bnd_sound hP hu hv h ht
  have k1 : ((Nat.div (Nat.mul pn P.one) pd : ℕ) : ℝ) ≤ ((pn * P.one : ℕ) : ℝ) / (pd : ℝ) := Nat.cast_div_le
  rw [hP.one] at k1
  push_cast at k1
  have hS : (0 : ℝ) < 2 ^ P.S := by positivity
  have k2 : 2 ^ P.S * |x| ≤ 2 ^ P.S * (pn / pd) := by
    refine hb.trans ((le_of_eq (by rw [hP.one])).trans (k1.trans (le_of_eq (by ring))))
  exact le_of_mul_le_mul_left k2 hS

theorem ph1_arg (x g : ℝ) : ph2T_reg1 x (0.461526 * 1386 * g) = poly_powi x (linV [g, 1]
    [(0, ⟨false, 639675036, 2500000000⟩), (1, ⟨false, 1, 1⟩)]) ph2T_reg1_IJn := by
  have e1 : x / 1.0 = x := by norm_num
  have e2 : 0.461526 * 1386 * g / 2500.0 + 1.0 = linV [g, 1] [(0, ⟨false, 639675036, 2500000000⟩),
      (1, ⟨false, 1, 1⟩)] := by
    norm_num [linV, Co.val]; ring
  simp only [ph2T_reg1, e1, e2]
  norm_num

theorem leafHs1_ok {P : Par} (hP : P.Ok) {pn pd tn td xr yr : ℕ} (htd : 0 < td) :
    LeafOk (leafHs1 P pn pd tn td xr yr) xr yr fun p τ =>
      |hs2p_reg1 (0.461526 * 1386 * G1.gt (p / 16.53) τ) (0.461526 * (τ * G1.gt (p / 16.53) τ - G1.g (p / 16.53) τ)) - p|
        ≤ pn / pd ∧
      |ph2T_reg1 (hs2p_reg1 (0.461526 * 1386 * G1.gt (p / 16.53) τ)
        (0.461526 * (τ * G1.gt (p / 16.53) τ - G1.g (p / 16.53) τ))) (0.461526 * 1386 * G1.gt (p / 16.53) τ) - 1386 / τ|
        ≤ tn / td := by
  intro xc D yc E hD hE hx hy h u v hu hv
  obtain ⟨p, tau, hp, ht, h⟩ := base_sound hP hu hv h
  obtain ⟨xs, ys, hxs, hys, hy0, h⟩ := st1_sound hP hu hv h hp ht
  obtain ⟨g, hg, h⟩ := poly_sound0 hP hu hv hxs hys h
  obtain ⟨g0, hg0, h⟩ := poly_sound0 hP hu hv hxs hys h
  rw [tg1_val] at hg
  rw [t01_val] at hg0
  obtain ⟨gy, hgy, h⟩ := mul_sound hP hu hv h hg ht
  obtain ⟨g, hg, h⟩ := refresh_sound hP h hg
  obtain ⟨eta, heta, h⟩ := lin_sound hP hu hv (.cons hg (.cons (enc_one hP) .nil)) h
  obtain ⟨eta, heta, h⟩ := refresh_sound hP h heta
  obtain ⟨sig, hsig, h⟩ := lin_sound hP hu hv (.cons hgy (.cons hg0 (.cons (enc_one hP) .nil))) h
  obtain ⟨sig, hsig, h⟩ := refresh_sound hP h hsig
  obtain ⟨q, hq, h⟩ := back_sound hP hu hv exHs1_eq eyHs1_eq (by decide) (by decide) tbHs1_ok flHs1_eq Hs1_same h heta hsig
  obtain ⟨q, hq, h⟩ := lin_sound hP hu hv (.cons hq .nil) h
  obtain ⟨q, hq, h⟩ := refresh_sound hP h hq
  obtain ⟨e, he, h⟩ := lin_sound hP hu hv (.cons hq (.cons hp .nil)) h
  obtain ⟨h1, h⟩ := gd_true h
  have b1 := bnd_div hP hu hv h1 he
  obtain ⟨eta, heta, h⟩ := lin_sound hP hu hv (.cons hg (.cons (enc_one hP) .nil)) h
  obtain ⟨eta, heta, h⟩ := refresh_sound hP h heta
  obtain ⟨th, hth, h⟩ := back_sound hP hu hv exPh1_eq eyPh1_eq (by decide) (by decide) tbPh1_ok flPh1_eq Ph1_same h hq heta
  have b2 := close_sound hP hu hv h hth ht hE htd hy (by linarith)
  have e : ∀ y g z : ℝ, hs2p_reg1 (0.461526 * 1386 * g) (0.461526 * (y * g - z)) = linV [poly_powi
      (linV [g, 1] [(0, ⟨false, 639675036, 3400000000⟩), (1, ⟨false, 5, 100⟩)])
      (linV [g * y, z, 1] [(0, ⟨false, 461526, 7600000⟩), (1, ⟨true, 461526, 7600000⟩), (2, ⟨false, 5, 100⟩)])
      hs2p_reg1_IJn] [(0, ⟨false, 100, 1⟩)] := by
    intro y g z
    have e1 : 0.461526 * 1386 * g / 3400.0 + 0.05 = linV [g, 1] [(0, ⟨false, 639675036, 3400000000⟩),
        (1, ⟨false, 5, 100⟩)] := by
      norm_num [linV, Co.val]; ring
    have e2 : 0.461526 * (y * g - z) / 7.6 + 0.05 = linV [g * y, z, 1] [(0, ⟨false, 461526, 7600000⟩),
        (1, ⟨true, 461526, 7600000⟩), (2, ⟨false, 5, 100⟩)] := by
      norm_num [linV, Co.val]; ring
    simp only [hs2p_reg1, e1, e2]
    generalize poly_powi (F := ℝ) _ _ hs2p_reg1_IJn = w
    norm_num [linV, Co.val]
  rw [← e] at b1 b2
  rw [ph1_arg]
  constructor
  · convert b1 using 2
    generalize hs2p_reg1 (F := ℝ) _ _ = w
    norm_num [linV, Co.val]; ring
  · exact_mod_cast b2

end If97.Tm
