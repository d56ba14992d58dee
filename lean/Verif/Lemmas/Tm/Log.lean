import Verif.Lemmas.Tm.Tree4
import Mathlib.Analysis.SpecialFunctions.Log.Deriv
import Mathlib.Analysis.Complex.ExponentialBounds
import Verif.Lemmas.Tm.Comp.Region2s

/-!
# The logarithm of a Taylor model

ln x = ln c + ln (x/c) with the Taylor polynomial of degree 20 of ln (1 + t) and its remainder.
-/

namespace If97.Tm

/-- the Taylor polynomial of ln (1 + t) -/
noncomputable def log1p (t : ℝ) : ℝ := -∑ i ∈ Finset.range 20, (-t) ^ (i + 1) / (i + 1)

def LogC.Ok (c : LogC) : Prop :=
  0 < c.rd ∧ 0 < c.cn ∧ 0 < c.cd ∧ c.rn < c.rd ∧ (c.rn / c.rd : ℝ) ^ 21 / (1 - c.rn / c.rd) + |Real.log (c.cn / c.cd) - c.l.val| ≤ c.w / 10 ^ 18

/-- from the logarithm of c -/
theorem LogC.ok_of {c : LogC} {e : ℝ} (h1 : 0 < c.rd ∧ 0 < c.cn ∧ 0 < c.cd ∧ c.rn < c.rd)
    (h2 : |Real.log (c.cn / c.cd) - c.l.val| ≤ e) (h3 : (c.rn / c.rd : ℝ) ^ 21 / (1 - c.rn / c.rd) + e ≤ c.w / 10 ^ 18) : c.Ok :=
  ⟨h1.1, h1.2.1, h1.2.2.1, h1.2.2.2, by linarith⟩

/-- the logarithm of 2 -/
theorem log2_near : |Real.log 2 - 693147180559945309 / 10 ^ 18| ≤ 1 / 10 ^ 15 := by
  have h := Real.abs_log_sub_add_sum_range_le (x := 1 / 2) (by norm_num [abs_lt]) 52
  have e : Real.log (1 - 1 / 2) = -Real.log 2 := by rw [← Real.log_inv]; norm_num
  rw [e] at h
  have h2 : |(1 / 2 : ℝ)| ^ (52 + 1) / (1 - |1 / 2|) ≤ 5 / 10 ^ 16 := by norm_num [abs_of_pos]
  have h := abs_le.1 (h.trans h2)
  norm_num [Finset.sum_range_succ] at h
  rw [abs_le]
  constructor <;> linarith [h.1, h.2]

/-- the logarithm of 2^k (1 - x) -/
theorem log_near {k : ℤ} {x l e : ℝ} (hx : |x| < 1) (n : ℕ)
    (h : |-(∑ i ∈ Finset.range n, x ^ (i + 1) / (i + 1)) + k * (693147180559945309 / 10 ^ 18) - l| + |x| ^ (n + 1) / (1 - |x|) + |(k : ℝ)| * (1 / 10 ^ 15) ≤ e) :
    |Real.log ((2 : ℝ) ^ k * (1 - x)) - l| ≤ e := by
  have h0 : 0 < 1 - x := by have := (abs_lt.1 hx).2; linarith
  have h1 := Real.abs_log_sub_add_sum_range_le hx n
  have h2 := log2_near
  rw [Real.log_mul (by positivity) h0.ne', Real.log_zpow]
  have h3 : |(k : ℝ) * Real.log 2 - k * (693147180559945309 / 10 ^ 18)| ≤ |(k : ℝ)| * (1 / 10 ^ 15) := by
    rw [← mul_sub, abs_mul]; exact mul_le_mul_of_nonneg_left h2 (abs_nonneg _)
  have e1 : k * Real.log 2 + Real.log (1 - x) - l = (-(∑ i ∈ Finset.range n, x ^ (i + 1) / (i + 1)) + k * (693147180559945309 / 10 ^ 18) - l) +
      ((∑ i ∈ Finset.range n, x ^ (i + 1) / (i + 1)) + Real.log (1 - x)) + (k * Real.log 2 - k * (693147180559945309 / 10 ^ 18)) := by ring
  rw [e1]
  refine ((abs_add_le _ _).trans (add_le_add_left (abs_add_le _ _) _)).trans ?_
  linarith

theorem LogC.Ok.near {c : LogC} (hc : c.Ok) {x : ℝ} (hx : |x * (c.cd / c.cn) - 1| ≤ c.rn / c.rd) :
    0 < x ∧ |Real.log x - (log1p (x * (c.cd / c.cn) - 1) + c.l.val)| ≤ c.w / 10 ^ 18 := by
  obtain ⟨h1, h2, h3, h4, h5⟩ := hc
  have r1 : (0 : ℝ) < c.rd := by exact_mod_cast h1
  have r2 : (0 : ℝ) < c.cn := by exact_mod_cast h2
  have r3 : (0 : ℝ) < c.cd := by exact_mod_cast h3
  have r4 : (c.rn : ℝ) / c.rd < 1 := by rw [div_lt_one r1]; exact_mod_cast h4
  generalize ht : x * ((c.cd : ℝ) / c.cn) - 1 = t at *
  have hx' : x = c.cn / c.cd * (1 + t) := by rw [← ht]; field_simp; ring
  have ht1 := lt_of_le_of_lt hx r4
  have t0 : 0 < 1 + t := by have := (abs_lt.1 ht1).1; linarith
  refine ⟨by rw [hx']; positivity, ?_⟩
  have k := Real.abs_log_sub_add_sum_range_le (x := -t) (by rwa [abs_neg]) 20
  rw [sub_neg_eq_add, abs_neg] at k
  have k2 : |t| ^ 21 / (1 - |t|) ≤ (c.rn / c.rd : ℝ) ^ 21 / (1 - c.rn / c.rd) :=
    div_le_div₀ (by positivity) (pow_le_pow_left₀ (abs_nonneg _) hx _) (by linarith) (by linarith)
  rw [hx', Real.log_mul (by positivity) t0.ne']
  have e : Real.log (c.cn / c.cd) + Real.log (1 + t) - (log1p t + c.l.val) =
      ((∑ i ∈ Finset.range 20, (-t) ^ (i + 1) / (i + 1)) + Real.log (1 + t)) + (Real.log (c.cn / c.cd) - c.l.val) := by
    rw [log1p]; ring
  rw [e]
  refine (abs_add_le _ _).trans ?_
  linarith

section
variable {P : Par} (hP : P.Ok) {u v : ℝ} (hu : |u| ≤ 1) (hv : |v| ≤ 1)
include hP

theorem widen_sound {t : TM} {w : ℕ} {k : TM → Bool} {x y : ℝ} (h : widen P t w k = true) (ht : Enc P u v t x)
    (hy : |y - x| ≤ w / 10 ^ 18) : ∃ t, Enc P u v t y ∧ k t = true := by
  obtain ⟨p, q, r, nm⟩ := t
  simp only [widen, force_eq] at h
  refine ⟨_, ?_, h⟩
  obtain ⟨h1, f, g, h2, h3, h4, h5, h6, h7⟩ := ht
  refine ⟨h1, f, g, h2, h3, h4, h5, h6, ?_⟩
  have e : 2 ^ P.S * y - (psi u v f - psi u v g) = (2 ^ P.S * x - (psi u v f - psi u v g)) + 2 ^ P.S * (y - x) := by ring
  rw [e]
  refine (abs_add_le _ _).trans ?_
  rw [abs_mul, abs_of_pos (by positivity : (0 : ℝ) < 2 ^ P.S)]
  have k1 : (2 : ℝ) ^ P.S * |y - x| ≤ 2 ^ P.S * (w / 10 ^ 18) := mul_le_mul_of_nonneg_left hy (by positivity)
  have k2 : (w * P.one : ℕ) < (w * P.one / 1000000000000000000 + 1) * 1000000000000000000 := by
    have := Nat.div_add_mod (w * P.one) 1000000000000000000
    have := Nat.mod_lt (w * P.one) (show 1000000000000000000 > 0 by norm_num)
    omega
  have k3 : ((w * P.one : ℕ) : ℝ) < ((w * P.one / 1000000000000000000 + 1) * 1000000000000000000 : ℕ) := by exact_mod_cast k2
  rw [hP.one] at k3
  show _ ≤ ((r + (w * P.one / 1000000000000000000 + 1) : ℕ) : ℝ)
  rw [hP.one]
  push_cast at k3 h7 ⊢
  have k4 : (2 : ℝ) ^ P.S * (w / 10 ^ 18) = w * 2 ^ P.S / 1000000000000000000 := by norm_num; ring
  have k5 : (w : ℝ) * 2 ^ P.S / 1000000000000000000 ≤ ((w * 2 ^ P.S / 1000000000000000000 : ℕ) : ℝ) + 1 := by
    rw [div_le_iff₀ (by norm_num)]
    linarith
  linarith

include hu hv

theorem logT_sound {c : LogC} (hc : c.Ok) {b : TM} {k : TM → Bool} {x : ℝ} (h : logT P c b k = true)
    (hb : Enc P u v b x) : 0 < x ∧ ∃ t, Enc P u v t (Real.log x) ∧ k t = true := by
  obtain ⟨cn, cd, l, rn, rd, w⟩ := c
  obtain ⟨t, ht, h⟩ := lin_sound hP hu hv (.cons hb (.cons (enc_one hP) .nil)) h
  obtain ⟨t, ht, h⟩ := refresh_sound hP h ht
  obtain ⟨hbd, h⟩ := gd_true h
  have hbd := bnd_div hP hu hv hbd ht
  have et : linV [x, 1] [(0, ⟨false, cd, cn⟩), (1, ⟨true, 1, 1⟩)] = x * (cd / cn) - 1 := by
    simp [linV, Co.val]; ring
  rw [et] at ht hbd
  obtain ⟨h0, hn⟩ := hc.near hbd
  refine ⟨h0, ?_⟩
  simp only at hn
  generalize x * ((cd : ℝ) / cn) - 1 = z at *
  obtain ⟨a, ha, h⟩ := lin_sound hP hu hv (.cons ht (.cons (enc_one hP) .nil)) h
  obtain ⟨a, ha, h⟩ := mul_sound hP hu hv h ha ht
  obtain ⟨a, ha, h⟩ := lin_const hP hu hv ha h
  obtain ⟨a, ha, h⟩ := mul_sound hP hu hv h ha ht
  obtain ⟨a, ha, h⟩ := lin_const hP hu hv ha h
  obtain ⟨a, ha, h⟩ := mul_sound hP hu hv h ha ht
  obtain ⟨a, ha, h⟩ := lin_const hP hu hv ha h
  obtain ⟨a, ha, h⟩ := mul_sound hP hu hv h ha ht
  obtain ⟨a, ha, h⟩ := lin_const hP hu hv ha h
  obtain ⟨a, ha, h⟩ := mul_sound hP hu hv h ha ht
  obtain ⟨a, ha, h⟩ := lin_const hP hu hv ha h
  obtain ⟨a, ha, h⟩ := mul_sound hP hu hv h ha ht
  obtain ⟨a, ha, h⟩ := lin_const hP hu hv ha h
  obtain ⟨a, ha, h⟩ := mul_sound hP hu hv h ha ht
  obtain ⟨a, ha, h⟩ := lin_const hP hu hv ha h
  obtain ⟨a, ha, h⟩ := mul_sound hP hu hv h ha ht
  obtain ⟨a, ha, h⟩ := lin_const hP hu hv ha h
  obtain ⟨a, ha, h⟩ := mul_sound hP hu hv h ha ht
  obtain ⟨a, ha, h⟩ := lin_const hP hu hv ha h
  obtain ⟨a, ha, h⟩ := mul_sound hP hu hv h ha ht
  obtain ⟨a, ha, h⟩ := lin_const hP hu hv ha h
  obtain ⟨a, ha, h⟩ := mul_sound hP hu hv h ha ht
  obtain ⟨a, ha, h⟩ := lin_const hP hu hv ha h
  obtain ⟨a, ha, h⟩ := mul_sound hP hu hv h ha ht
  obtain ⟨a, ha, h⟩ := lin_const hP hu hv ha h
  obtain ⟨a, ha, h⟩ := mul_sound hP hu hv h ha ht
  obtain ⟨a, ha, h⟩ := lin_const hP hu hv ha h
  obtain ⟨a, ha, h⟩ := mul_sound hP hu hv h ha ht
  obtain ⟨a, ha, h⟩ := lin_const hP hu hv ha h
  obtain ⟨a, ha, h⟩ := mul_sound hP hu hv h ha ht
  obtain ⟨a, ha, h⟩ := lin_const hP hu hv ha h
  obtain ⟨a, ha, h⟩ := mul_sound hP hu hv h ha ht
  obtain ⟨a, ha, h⟩ := lin_const hP hu hv ha h
  obtain ⟨a, ha, h⟩ := mul_sound hP hu hv h ha ht
  obtain ⟨a, ha, h⟩ := lin_const hP hu hv ha h
  obtain ⟨a, ha, h⟩ := mul_sound hP hu hv h ha ht
  obtain ⟨a, ha, h⟩ := lin_const hP hu hv ha h
  obtain ⟨a, ha, h⟩ := mul_sound hP hu hv h ha ht
  obtain ⟨a, ha, h⟩ := lin_const hP hu hv ha h
  have ea : ∀ y : ℝ, Enc P u v a y → y = log1p z + l.val → ∃ t, Enc P u v t (Real.log x) ∧ k t = true := by
    rintro y hy rfl
    obtain ⟨a, ha, h⟩ := widen_sound hP h hy hn
    exact refresh_sound hP h ha
  refine ea _ ha ?_
  simp only [linV, List.map_cons, List.map_nil, List.sum_cons, List.sum_nil, List.getD_cons_zero, List.getD_cons_succ,
    log1p, Finset.sum_range_succ, Finset.sum_range_zero, Co.val]
  norm_num
  ring

end

end If97.Tm
