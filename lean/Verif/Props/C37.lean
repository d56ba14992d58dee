import Verif.Props.C05
import Verif.Props.C07

/-!
# C37 `tv`, `th` and `ts` between 590 °C and 800 °C

The property fails for every state of the band.  Exact arithmetic:

* `C37_violated`: for 590 °C < t ≤ 800 °C the three functions find no region, whatever the second input:
  every output other than the two echoes is an error code;
* `C37_pt_assigns`: `pt` assigns region 2 to every accepted pressure at these temperatures.
-/

namespace If97
open Domain

private theorem tv_none (t v : ℝ) (h1 : 590 < t) (h2 : t ≤ 800) : tv_sub_region t v = -9999 := by
  have a1 : 863.15 < t + 273.15 := by norm_num; linarith
  have a2 : t + 273.15 ≤ 1073.15 := by norm_num; linarith
  unfold tv_sub_region
  generalize t + 273.15 = T at a1 a2
  have b1 : (T <=. (T_MAX1 : ℝ)) = false := by simp only [T_MAX1, real_le, decide_eq_false_iff_not, not_le]; norm_num at *; linarith
  have b2 : (T <=. (TC_WATER : ℝ)) = false := by simp only [TC_WATER, real_le, decide_eq_false_iff_not, not_le]; norm_num at *; linarith
  have b3 : (T <=. (T_MAX3 : ℝ)) = false := by simp only [T_MAX3, real_le, decide_eq_false_iff_not, not_le]; norm_num at *; linarith
  have b5 : (T >. (T_MIN5 : ℝ)) = false := by simp only [T_MIN5, real_lt, decide_eq_false_iff_not, not_lt]; norm_num at *; linarith
  have b0 : (T <. (273.15 : ℝ)) = false := by simp only [real_lt, decide_eq_false_iff_not, not_lt]; norm_num at *; linarith
  have b6 : (T >. (2273.15 : ℝ)) = false := by simp only [real_lt, decide_eq_false_iff_not, not_lt]; norm_num at *; linarith
  simp only [b0, b6, b1, b2, b3, b5, Bool.and_false, Bool.false_and, Bool.or_false, Bool.or_self, if_false, Bool.false_eq_true]
  rfl

private theorem ts_none (t s : ℝ) (h1 : 590 < t) (h2 : t ≤ 800) :
    ts_sub_region t s = -9999 ∨ ts_sub_region t s = -2102 := by
  have a1 : 863.15 < t + 273.15 := by norm_num; linarith
  have a2 : t + 273.15 ≤ 1073.15 := by norm_num; linarith
  unfold ts_sub_region
  generalize t + 273.15 = T at a1 a2
  have b1 : (T <=. (T_MAX1 : ℝ)) = false := by simp only [T_MAX1, real_le, decide_eq_false_iff_not, not_le]; norm_num at *; linarith
  have b2 : (T <=. (TC_WATER : ℝ)) = false := by simp only [TC_WATER, real_le, decide_eq_false_iff_not, not_le]; norm_num at *; linarith
  have b3 : (T <=. (T_MAX3 : ℝ)) = false := by simp only [T_MAX3, real_le, decide_eq_false_iff_not, not_le]; norm_num at *; linarith
  have b5 : (T >. (T_MIN5 : ℝ)) = false := by simp only [T_MIN5, real_lt, decide_eq_false_iff_not, not_lt]; norm_num at *; linarith
  have b0 : (T <. (273.15 : ℝ)) = false := by simp only [real_lt, decide_eq_false_iff_not, not_lt]; norm_num at *; linarith
  have b6 : (T >. (2273.15 : ℝ)) = false := by simp only [real_lt, decide_eq_false_iff_not, not_lt]; norm_num at *; linarith
  simp only [b0, b6, b1, b2, b3, b5, Bool.and_false, Bool.false_and, Bool.or_false, Bool.or_self, if_false, Bool.false_eq_true]
  by_cases hs : ((s >. (S_MAX : ℝ)) || (s <. S_MIN)) = true
  · rw [if_pos hs]; right; rfl
  · rw [if_neg hs]; left; rfl

private theorem th_none (t h : ℝ) (h1 : 590 < t) (h2 : t ≤ 800) : th_sub_region t h = some (-9999) := by
  have a1 : 863.15 < t + 273.15 := by norm_num; linarith
  have a2 : t + 273.15 ≤ 1073.15 := by norm_num; linarith
  unfold th_sub_region
  generalize t + 273.15 = T at a1 a2
  have b1 : (T <=. (T_MAX1 : ℝ)) = false := by simp only [T_MAX1, real_le, decide_eq_false_iff_not, not_le]; norm_num at *; linarith
  have b2 : (T <=. (TC_WATER : ℝ)) = false := by simp only [TC_WATER, real_le, decide_eq_false_iff_not, not_le]; norm_num at *; linarith
  have b3 : (T <=. (T_MAX3 : ℝ)) = false := by simp only [T_MAX3, real_le, decide_eq_false_iff_not, not_le]; norm_num at *; linarith
  have b5 : (T >. (T_MIN5 : ℝ)) = false := by simp only [T_MIN5, real_lt, decide_eq_false_iff_not, not_lt]; norm_num at *; linarith
  have b0 : (T <. (273.15 : ℝ)) = false := by simp only [real_lt, decide_eq_false_iff_not, not_lt]; norm_num at *; linarith
  have b6 : (T >. (2273.15 : ℝ)) = false := by simp only [real_lt, decide_eq_false_iff_not, not_lt]; norm_num at *; linarith
  have b7 : (T <. (250.0 + T_MIN1 : ℝ)) = false := by simp only [T_MIN1, real_lt, decide_eq_false_iff_not, not_lt]; norm_num at *; linarith
  simp only [b0, b6, b1, b2, b3, b5, b7, Bool.and_false, Bool.false_and, Bool.or_false, Bool.or_self, if_false, Bool.false_eq_true]
  rfl

/-- **No state of the band has a region.** -/
theorem C37_violated (f : Fn) (hf : f = .tv ∨ f = .th ∨ f = .ts) (t b : ℝ) (h1 : 590 < t) (h2 : t ≤ 800) (o : Int)
    (ho : ¬ f.Echo o) : ∃ e : ℝ, (e = -9999 ∨ e = -2102) ∧ f.call0 t b o = some e := by
  have key : ∀ k : Int, k = -9999 ∨ k = -2102 → f.detect t b = some k →
      ∃ e : ℝ, (e = -9999 ∨ e = -2102) ∧ f.call0 t b o = some e := by
    intro k hk hd
    refine ⟨((if o = Doc.idX then Doc.errValue else k : Int) : ℝ), ?_, ?_⟩
    · split
      · left; norm_num [Doc.errValue]
      · rcases hk with rfl | rfl <;> norm_num
    · exact C07_error_code f t b k o hd (by rcases hk with rfl | rfl <;> decide) ho
  rcases hf with rfl | rfl | rfl
  · exact key _ (.inl rfl) (congrArg some (tv_none t b h1 h2))
  · exact key _ (.inl rfl) (th_none t b h1 h2)
  · rcases ts_none t b h1 h2 with h | h
    · exact key _ (.inl rfl) (congrArg some h)
    · exact key _ (.inr rfl) (congrArg some h)

/-- `pt` assigns region 2 to all of them. -/
theorem C37_pt_assigns (p t : ℝ) (h1 : 590 < t) (h2 : t ≤ 800) (hp : pMin ≤ p ∧ p ≤ 100) :
    Fn.pt.call0 p t Doc.idR = some 2 := by
  have h3 : 863.15 < t + 273.15 := by norm_num; linarith
  have h4 : t + 273.15 ≤ 1073.15 := by norm_num; linarith
  have := (C05_map_partial p t ⟨hp.1, hp.2, fun h => by linarith⟩ ⟨by norm_num at *; linarith, by norm_num at *; linarith⟩
    (fun h => by have := h.2.1; norm_num at *; linarith) 2).mpr (.r2_hot h3 h4)
  rw [this]; norm_num

/-- Concrete: 700 °C. -/
example : Fn.pt.call0 (10 : ℝ) 700 Doc.idR = some 2 ∧
    ∃ e : ℝ, (e = -9999 ∨ e = -2102) ∧ Fn.tv.call0 (700 : ℝ) 0.04 Doc.idH = some e :=
  ⟨C37_pt_assigns 10 700 (by norm_num) (by norm_num) (by unfold pMin; norm_num),
    C37_violated .tv (.inl rfl) 700 0.04 (by norm_num) (by norm_num) _ (by decide)⟩

end If97
