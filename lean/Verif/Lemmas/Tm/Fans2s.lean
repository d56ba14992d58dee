import Verif.Lemmas.Tm.Chk2
import Verif.Lemmas.Tm.Leaf2s
import Verif.Lemmas.Tm.Comp.Region2s

/-! Polynomials that follow s = 5.85 in region 2, and the constants for the logarithm (generated). -/

namespace If97.Tm

theorem lcA0_ok : lcA0.Ok := by
  refine LogC.ok_of (e := 9 / 10 ^ 15) (by decide) ?_ (by norm_num [lcA0])
  have e : ((lcA0.cn : ℝ) / lcA0.cd) = (2 : ℝ) ^ (-2 : ℤ) * (1 - (9/50)) := by norm_num [lcA0]
  rw [e]
  refine log_near (by norm_num [abs_lt]) 34 ?_
  norm_num [Finset.sum_range_succ, lcA0, Co.val, abs_le]

theorem lcA1_ok : lcA1.Ok := by
  refine LogC.ok_of (e := 9 / 10 ^ 15) (by decide) ?_ (by norm_num [lcA1])
  have e : ((lcA1.cn : ℝ) / lcA1.cd) = (2 : ℝ) ^ (-2 : ℤ) * (1 - (-(3/10))) := by norm_num [lcA1]
  rw [e]
  refine log_near (by norm_num [abs_lt]) 34 ?_
  norm_num [Finset.sum_range_succ, lcA1, Co.val, abs_le]

theorem lcA2_ok : lcA2.Ok := by
  refine LogC.ok_of (e := 9 / 10 ^ 15) (by decide) ?_ (by norm_num [lcA2])
  have e : ((lcA2.cn : ℝ) / lcA2.cd) = (2 : ℝ) ^ (-1 : ℤ) * (1 - (0)) := by norm_num [lcA2]
  rw [e]
  refine log_near (by norm_num [abs_lt]) 34 ?_
  norm_num [Finset.sum_range_succ, lcA2, Co.val, abs_le]

theorem lcA3_ok : lcA3.Ok := by
  refine LogC.ok_of (e := 9 / 10 ^ 15) (by decide) ?_ (by norm_num [lcA3])
  have e : ((lcA3.cn : ℝ) / lcA3.cd) = (2 : ℝ) ^ (0 : ℤ) * (1 - (11/40)) := by norm_num [lcA3]
  rw [e]
  refine log_near (by norm_num [abs_lt]) 34 ?_
  norm_num [Finset.sum_range_succ, lcA3, Co.val, abs_le]

theorem lcA4_ok : lcA4.Ok := by
  refine LogC.ok_of (e := 9 / 10 ^ 15) (by decide) ?_ (by norm_num [lcA4])
  have e : ((lcA4.cn : ℝ) / lcA4.cd) = (2 : ℝ) ^ (0 : ℤ) * (1 - (1/40)) := by norm_num [lcA4]
  rw [e]
  refine log_near (by norm_num [abs_lt]) 34 ?_
  norm_num [Finset.sum_range_succ, lcA4, Co.val, abs_le]

theorem lcA5_ok : lcA5.Ok := by
  refine LogC.ok_of (e := 9 / 10 ^ 15) (by decide) ?_ (by norm_num [lcA5])
  have e : ((lcA5.cn : ℝ) / lcA5.cd) = (2 : ℝ) ^ (0 : ℤ) * (1 - (-(51/200))) := by norm_num [lcA5]
  rw [e]
  refine log_near (by norm_num [abs_lt]) 34 ?_
  norm_num [Finset.sum_range_succ, lcA5, Co.val, abs_le]

theorem lcU0_ok : lcU0.Ok := by
  refine LogC.ok_of (e := 9 / 10 ^ 15) (by decide) ?_ (by norm_num [lcU0])
  have e : ((lcU0.cn : ℝ) / lcU0.cd) = (2 : ℝ) ^ (1 : ℤ) * (1 - (99/400)) := by norm_num [lcU0]
  rw [e]
  refine log_near (by norm_num [abs_lt]) 34 ?_
  norm_num [Finset.sum_range_succ, lcU0, Co.val, abs_le]

theorem lcU1_ok : lcU1.Ok := by
  refine LogC.ok_of (e := 9 / 10 ^ 15) (by decide) ?_ (by norm_num [lcU1])
  have e : ((lcU1.cn : ℝ) / lcU1.cd) = (2 : ℝ) ^ (1 : ℤ) * (1 - (3/20)) := by norm_num [lcU1]
  rw [e]
  refine log_near (by norm_num [abs_lt]) 34 ?_
  norm_num [Finset.sum_range_succ, lcU1, Co.val, abs_le]

theorem lcU2_ok : lcU2.Ok := by
  refine LogC.ok_of (e := 9 / 10 ^ 15) (by decide) ?_ (by norm_num [lcU2])
  have e : ((lcU2.cn : ℝ) / lcU2.cd) = (2 : ℝ) ^ (1 : ℤ) * (1 - (9/200)) := by norm_num [lcU2]
  rw [e]
  refine log_near (by norm_num [abs_lt]) 34 ?_
  norm_num [Finset.sum_range_succ, lcU2, Co.val, abs_le]

theorem lcU3_ok : lcU3.Ok := by
  refine LogC.ok_of (e := 9 / 10 ^ 15) (by decide) ?_ (by norm_num [lcU3])
  have e : ((lcU3.cn : ℝ) / lcU3.cd) = (2 : ℝ) ^ (1 : ℤ) * (1 - (-(2/25))) := by norm_num [lcU3]
  rw [e]
  refine log_near (by norm_num [abs_lt]) 34 ?_
  norm_num [Finset.sum_range_succ, lcU3, Co.val, abs_le]

theorem lcU4_ok : lcU4.Ok := by
  refine LogC.ok_of (e := 9 / 10 ^ 15) (by decide) ?_ (by norm_num [lcU4])
  have e : ((lcU4.cn : ℝ) / lcU4.cd) = (2 : ℝ) ^ (1 : ℤ) * (1 - (-(1/4))) := by norm_num [lcU4]
  rw [e]
  refine log_near (by norm_num [abs_lt]) 34 ?_
  norm_num [Finset.sum_range_succ, lcU4, Co.val, abs_le]

theorem lcU5_ok : lcU5.Ok := by
  refine LogC.ok_of (e := 9 / 10 ^ 15) (by decide) ?_ (by norm_num [lcU5])
  have e : ((lcU5.cn : ℝ) / lcU5.cd) = (2 : ℝ) ^ (2 : ℤ) * (1 - (107/400)) := by norm_num [lcU5]
  rw [e]
  refine log_near (by norm_num [abs_lt]) 34 ?_
  norm_num [Finset.sum_range_succ, lcU5, Co.val, abs_le]

end If97.Tm

/-! What the generated subdivisions for T(p, s) in region 2 establish. -/

namespace If97.Tm

def RPs2a (β τ : ℝ) : Prop := |ps2T_reg2a (β ^ 4) (s2 β τ) - 540 / τ| ≤ (1 : ℕ) / (100 : ℕ)
def RPs2b (β τ : ℝ) : Prop := ¬ s2 β τ < 5.85 → |ps2T_reg2b (β ^ 4) (s2 β τ) - 540 / τ| ≤ (1 : ℕ) / (100 : ℕ)
def RPs2c (β τ : ℝ) : Prop := s2 β τ < 5.85 → |ps2T_reg2c (β ^ 4) (s2 β τ) - 540 / τ| ≤ (25 : ℕ) / (1000 : ℕ)

variable {xr yr xc D yc E : ℕ}

theorem okPs2a {K : Scl} (hK : K.Ok) (A B : Q6) {c : LogC} (hc : c.Ok) (t : Tr4) (h : chk xr yr xc D yc E (vPs2a K A B c xr yr t) = true) :
    Good (Rf RPs2a A B) xr yr xc D yc E :=
  chk_sound (R := Rf RPs2a A B) (leafF_ok (R := RPs2a) P64_ok (bPs2a_ok P64_ok hK hc)) never_ok never_ok never_ok h

theorem okPs2b {K : Scl} (hK : K.Ok) (A B : Q6) {c : LogC} (hc : c.Ok) (t : Tr4) (h : chk xr yr xc D yc E (vPs2b K A B c xr yr t) = true) :
    Good (Rf RPs2b A B) xr yr xc D yc E :=
  chk_sound (R := Rf RPs2b A B) (leafF_ok (R := RPs2b) P64_ok ((bPs2b_ok P64_ok hK hc).imp fun _ _ h _ => h)) never_ok never_ok
    (leafF_ok (R := RPs2b) P64_ok ((kLt_ok P64_ok hK hc).imp fun _ _ h k => absurd h k)) h

theorem okPs2c {K : Scl} (hK : K.Ok) (A B : Q6) {c : LogC} (hc : c.Ok) (t : Tr4) (h : chk xr yr xc D yc E (vPs2c K A B c xr yr t) = true) :
    Good (Rf RPs2c A B) xr yr xc D yc E :=
  chk_sound (R := Rf RPs2c A B) (leafF_ok (R := RPs2c) P64_ok ((bPs2c_ok P64_ok hK hc).imp fun _ _ h _ => h)) never_ok never_ok
    (leafF_ok (R := RPs2c) P64_ok ((kGt_ok P64_ok hK hc).imp fun _ _ h k => absurd k h)) h

end If97.Tm
