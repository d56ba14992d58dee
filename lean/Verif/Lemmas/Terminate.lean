import Verif.Lemmas.Saturation
import Mathlib.Tactic.IntervalCases

/-! Helper lemmas for C35, C46: the bracketing loops of regions 2 and 5 stop (exact arithmetic). -/

namespace If97

private theorem unit_bound {p : ℝ} (h : ¬ p < 1.0) (h' : p ≠ 1) : 1 < p := by
  norm_num at h; exact lt_of_le_of_ne h (Ne.symm h')

/-- one pass of the loop: it ends, or goes on with the next pressure -/
private theorem bracket2_step (fy : ℝ → ℝ → ℝ) (T y pmax p1 y1 p2 y2 q : ℝ)
    (hq : q = if 1.0 < p2 then p2 + 1.0 else if p2 < 1.0 then p2 * 5.0 else p2)
    (hc : (pmax ≤ q) ∨ ∀ y1 y2, (bracket_reg2 fy T y pmax p2 y1 q y2).isSome) :
    (bracket_reg2 fy T y pmax p1 y1 p2 y2).isSome := by
  rw [bracket_reg2]
  have hq' : (if (Flt.lt p2 1.0) = true then p2 * 5.0 else if (Flt.lt 1.0 p2) = true then p2 + 1.0 else p2) = q := by
    simp only [real_lt, decide_eq_true_eq]
    rw [hq]
    by_cases h1 : (1.0 : ℝ) < p2
    · rw [if_pos h1, if_neg (by linarith), if_pos h1]
    · rw [if_neg h1, if_neg h1]
  simp only [hq']
  by_cases hm : pmax ≤ q
  · have : Flt.le pmax q = true := by simpa using hm
    simp only [this, if_true]
    split
    · rfl
    · simp
  · have : Flt.le pmax q = false := by simpa using hm
    have hc := hc.resolve_left hm
    simp only [this, Bool.false_eq_true, if_false]
    split
    · rfl
    · split
      · rfl
      · simp at *
        apply hc

private theorem bracket2_up (fy : ℝ → ℝ → ℝ) (T y pmax : ℝ) (n : ℕ) :
    ∀ p1 y1 p2 y2 : ℝ, 1 < p2 → pmax ≤ p2 + n → (bracket_reg2 fy T y pmax p1 y1 p2 y2).isSome := by
  induction n with
  | zero =>
    intro p1 y1 p2 y2 h1 h2
    refine bracket2_step fy T y pmax p1 y1 p2 y2 (p2 + 1) (by rw [if_pos (by norm_num; exact h1)]; norm_num) (.inl ?_)
    simp at h2; linarith
  | succ n ih =>
    intro p1 y1 p2 y2 h1 h2
    refine bracket2_step fy T y pmax p1 y1 p2 y2 (p2 + 1) (by rw [if_pos (by norm_num; exact h1)]; norm_num) (.inr ?_)
    intro a b
    refine ih _ _ _ _ (by linarith) ?_
    push_cast at h2; linarith

private theorem bracket2_low (fy : ℝ → ℝ → ℝ) (T y pmax : ℝ) (hm : pmax ≤ 1000) (k : ℕ) (hk : k ≤ 12) :
    ∀ p1 y1 y2 : ℝ, (bracket_reg2 fy T y pmax p1 y1 (1e-8 * 5 ^ (12 - k)) y2).isSome := by
  induction k with
  | zero =>
    intro p1 y1 y2
    refine bracket2_up fy T y pmax 1000 _ _ _ _ (by norm_num) ?_
    norm_num; linarith
  | succ k ih =>
    intro p1 y1 y2
    have e : (1e-8 * 5 ^ (12 - k) : ℝ) = 1e-8 * 5 ^ (12 - (k + 1)) * 5.0 := by
      have : 12 - k = 12 - (k + 1) + 1 := by omega
      rw [this, pow_succ]; norm_num; ring
    have hlt : (1e-8 * 5 ^ (12 - (k + 1)) : ℝ) < 1.0 := by
      have : (5 : ℝ) ^ (12 - (k + 1)) ≤ 5 ^ 11 := pow_le_pow_right₀ (by norm_num) (by omega)
      norm_num at *; linarith
    refine bracket2_step fy T y pmax _ y1 _ y2 _ ?_ (.inr fun a b => ih (by omega) _ a b)
    rw [if_neg (by linarith), if_pos hlt, e]

/-- the loop of region 2, from its starting pressure 5e-8, with an upper limit of at most 1000 MPa -/
theorem bracket_reg2_returns (fy : ℝ → ℝ → ℝ) (T y pmax p1 y1 y2 : ℝ) (hm : pmax ≤ 1000) :
    (bracket_reg2 fy T y pmax p1 y1 (P_MIN2 * 5.0) y2).isSome := by
  have := bracket2_low fy T y pmax hm 11 (by norm_num) p1 y1 y2
  convert this using 2
  norm_num [P_MIN2]

private theorem bracket5_step (T y p1 y1 p2 y2 q : ℝ) (hq : q = 5.0 * p2)
    (hc : (50 ≤ q) ∨ ∀ y1 y2, (bracket_reg5 T y p2 y1 q y2).isSome) :
    (bracket_reg5 T y p1 y1 p2 y2).isSome := by
  rw [bracket_reg5]
  simp only [← hq]
  by_cases hm : 50 ≤ q
  · have : Flt.le (P_MAX5 : ℝ) q = true := by simp [P_MAX5]; norm_num; exact hm
    simp only [this, if_true]
    split
    · rfl
    · simp
  · have : Flt.le (P_MAX5 : ℝ) q = false := by simp [P_MAX5]; norm_num; linarith
    have hc := hc.resolve_left hm
    simp only [this, Bool.false_eq_true, if_false]
    split
    · rfl
    · split
      · rfl
      · simp at *
        apply hc

theorem bracket_reg5_returns' (T y : ℝ) (n : ℕ) :
    ∀ p1 y1 p2 y2 : ℝ, 50 ≤ p2 * 5 ^ (n + 1) → (bracket_reg5 T y p1 y1 p2 y2).isSome := by
  induction n with
  | zero =>
    intro p1 y1 p2 y2 h
    exact bracket5_step T y p1 y1 p2 y2 _ rfl (.inl (by norm_num at *; linarith))
  | succ n ih =>
    intro p1 y1 p2 y2 h
    refine bracket5_step T y p1 y1 p2 y2 _ rfl (.inr fun a b => ih _ _ _ _ ?_)
    refine h.trans (le_of_eq ?_)
    rw [pow_succ _ (n + 1)]; norm_num; ring

theorem bracket_reg5_returns (T y p1 y1 y2 : ℝ) : (bracket_reg5 T y p1 y1 (10.0 * P_MIN5) y2).isSome :=
  bracket_reg5_returns' T y 10 _ _ _ _ (by norm_num [P_MIN5])

/-! ### the inversions that use them -/

theorem T2pmax_le (T : ℝ) : T2pmax_reg2 T ≤ 1000 := by
  simp only [T2pmax_reg2, real_lt, real_le, Bool.and_eq_true, decide_eq_true_eq]
  split
  · rename_i h
    rw [Sat.p_saturation_eq, if_neg (by push Not; constructor <;> norm_num at * <;> linarith)]
    have := Sat.psat_strictMonoOn.monotoneOn (a := T) (b := 647.096) (by constructor <;> norm_num at * <;> linarith)
      (by norm_num) (by norm_num at *; linarith)
    linarith [Sat.psat_max.2]
  · split
    · rename_i h
      obtain ⟨h1, h2⟩ := h
      simp only [B23_T2p, nthF, B23_T2p_n23, List.getD_cons_succ, List.getD_cons_zero]
      norm_num at *; nlinarith
    · split
      · norm_num
      · norm_num [P_MAX2]

private theorem bind_isSome {b : Bracket ℝ} {g : Bracket ℝ → Option ℝ} (hg : ∀ c, (g c).isSome) :
    (some b >>= g).isSome := hg b

private theorem ite_isSome {c : Prop} [Decidable c] {a b : Option ℝ} (ha : a.isSome) (hb : b.isSome) :
    (if c then a else b).isSome := by split <;> assumption

theorem Tv2p_reg2_returns (T v : ℝ) : (Tv2p_reg2 T v).isSome := by
  have hb := bracket_reg2_returns pT2v_reg2 T v (T2pmax_reg2 T) P_MIN2 (pT2v_reg2 P_MIN2 T)
    (pT2v_reg2 (P_MIN2 * 5.0) T) (T2pmax_le T)
  obtain ⟨b, hb⟩ := Option.isSome_iff_exists.mp hb
  unfold Tv2p_reg2
  simp only [hb]
  split
  · rfl
  · split
    · rfl
    · split <;> (apply bind_isSome; intro c; cases c with
        | ret p => rfl
        | found p1 v1 p2 v2 => exact ite_isSome rfl rfl)

theorem Th2p_reg2_returns (T h : ℝ) : (Th2p_reg2 T h).isSome := by
  have hb := bracket_reg2_returns pT2h_reg2 T h (T2pmax_reg2 T) P_MIN2 (pT2h_reg2 P_MIN2 T)
    (pT2h_reg2 (P_MIN2 * 5.0) T) (T2pmax_le T)
  obtain ⟨b, hb⟩ := Option.isSome_iff_exists.mp hb
  unfold Th2p_reg2
  simp only [hb]
  split
  · rfl
  · split
    · rfl
    · split <;> (apply bind_isSome; intro c; cases c with
        | ret p => rfl
        | found p1 v1 p2 v2 => exact ite_isSome rfl rfl)

theorem Tv2p_reg5_returns (T v : ℝ) : (Tv2p_reg5 T v).isSome := by
  unfold Tv2p_reg5
  have e : (if Flt.lt (P_MAX5 : ℝ) (10.0 * P_MIN5) = true then (P_MAX5 : ℝ) else 10.0 * P_MIN5) = 10.0 * P_MIN5 := by
    rw [if_neg]; simp [P_MAX5, P_MIN5]; norm_num
  simp only [e]
  have hb := bracket_reg5_returns T v P_MIN5 (pT2v_reg5 P_MIN5 T) (pT2v_reg5 (10.0 * P_MIN5) T)
  obtain ⟨b, hb⟩ := Option.isSome_iff_exists.mp hb
  simp only [hb]
  split
  · rfl
  · split
    · rfl
    · split <;> (apply bind_isSome; intro c; cases c with
        | ret p => rfl
        | found p1 v1 p2 v2 => exact ite_isSome rfl rfl)

end If97
