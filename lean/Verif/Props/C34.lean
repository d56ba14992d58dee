import Verif.Props.C39
import Verif.Lemmas.TwoPhase

/-!
# C34 `hx` and `sx` stay on the saturation curve

Exact arithmetic.  An accepted call of `hx` or `sx` is a call of `tx`, with the same quality, at one
temperature between 0 and 373.946 °C, found by bisection.  That temperature either reproduces the quality
within 1e-5, or is the end of 1000 halvings of the bracket: it then lies in a bracket of width
373.946/2^1000 K, at whose ends the residual has opposite signs if it had at the ends of the
saturation curve.
-/

namespace If97
open Set TwoPhase

/-- the quality that the value y (h or s, by id) has at the temperature t, from the saturated values of `tx`;
minus the wanted quality -/
noncomputable def qualityResidual (id : Int) (y x t : ℝ) : ℝ :=
  let l := (FnX.tx.call t 0 id).getD 0
  let v := (FnX.tx.call t 1 id).getD 0
  (y - l) / (v - l) - x

/-- What the temperature t has to do with the wanted quality. -/
def Located (id : Int) (y x t : ℝ) : Prop :=
  |qualityResidual id y x t| < 1e-5 ∨
  ∃ a b, 0 ≤ a ∧ a ≤ t ∧ t ≤ b ∧ b ≤ 373.946 ∧ b - a = 373.946 / 2 ^ 999 ∧ t = (a + b) / 2 ∧
    (qualityResidual id y x 0 ≠ 0 → qualityResidual id y x 0 * qualityResidual id y x 373.946 ≤ 0 →
      qualityResidual id y x a * qualityResidual id y x b ≤ 0)

section
variable (id : Int) (x y tol : ℝ) (htol : 0 < tol)
include htol

/-- the loop, with its bracket -/
private theorem loop (n : Nat) : ∀ T a b : ℝ, a ≤ b →
    bisection_reg4_loop x y id tol (n + 1) T a b (Ty2x_residuals a x y id) ∈ Icc a b ∧
    (|Ty2x_residuals (bisection_reg4_loop x y id tol (n + 1) T a b (Ty2x_residuals a x y id)) x y id| < tol ∨
      ∃ a' b', a ≤ a' ∧ b' ≤ b ∧ b' - a' = (b - a) / 2 ^ n ∧
        bisection_reg4_loop x y id tol (n + 1) T a b (Ty2x_residuals a x y id) = (a' + b') / 2 ∧
        (Ty2x_residuals a x y id ≠ 0 → Ty2x_residuals a x y id * Ty2x_residuals b x y id ≤ 0 →
          Ty2x_residuals a' x y id * Ty2x_residuals b' x y id ≤ 0)) := by
  induction n with
  | zero =>
    intro T a b hab
    have e : bisection_reg4_loop x y id tol 1 T a b (Ty2x_residuals a x y id) = (a + b) / 2 := by
      unfold bisection_reg4_loop
      simp only [bisection_reg4_loop, ite_self]; norm_num; ring
    rw [Nat.zero_add, e]
    exact ⟨⟨by linarith, by linarith⟩, .inr ⟨a, b, le_rfl, le_rfl, by norm_num, rfl, fun _ h => h⟩⟩
  | succ n ih =>
    intro T a b hab
    obtain ⟨m, hm⟩ : ∃ m, m = (a + b) / 2 := ⟨_, rfl⟩
    have em : (0.5 : ℝ) * (a + b) = m := by rw [hm]; norm_num; ring
    have hf : Ty2x_residuals m x y id = Ty2x_residuals m x y id := rfl
    by_cases h1 : |Ty2x_residuals m x y id| < tol
    · have e : bisection_reg4_loop x y id tol (n + 1 + 1) T a b (Ty2x_residuals a x y id) = m := by
        rw [bisection_reg4_loop]; simp only [em, fabs, real_abs, real_lt, decide_eq_true_eq, if_pos h1]
      rw [e]
      exact ⟨⟨by linarith, by linarith⟩, .inl h1⟩
    · have hne : Ty2x_residuals m x y id ≠ 0 := by
        intro h; rw [h, abs_zero] at h1; exact h1 htol
      by_cases h2 : Ty2x_residuals m x y id * Ty2x_residuals a x y id < 0
      · have e : bisection_reg4_loop x y id tol (n + 1 + 1) T a b (Ty2x_residuals a x y id) =
            bisection_reg4_loop x y id tol (n + 1) m a m (Ty2x_residuals a x y id) := by
          rw [bisection_reg4_loop]
          simp only [em, fabs, real_abs, real_lt, decide_eq_true_eq, if_neg h1]
          rw [if_pos (by norm_num; exact h2)]
        rw [e]
        obtain ⟨i1, i2⟩ := ih m a m (by linarith)
        refine ⟨⟨i1.1, i1.2.trans (by linarith)⟩, i2.imp (fun h => h) fun ⟨a', b', j1, j2, j3, j4, j5⟩ =>
          ⟨a', b', j1, by linarith, ?_, j4, fun k _ => j5 k (by linarith [mul_comm (Ty2x_residuals a x y id) (Ty2x_residuals m x y id)])⟩⟩
        rw [j3, hm, pow_succ]; field_simp; ring
      · have e : bisection_reg4_loop x y id tol (n + 1 + 1) T a b (Ty2x_residuals a x y id) =
            bisection_reg4_loop x y id tol (n + 1) m m b (Ty2x_residuals m x y id) := by
          rw [bisection_reg4_loop]
          simp only [em, fabs, real_abs, real_lt, decide_eq_true_eq, if_neg h1]
          rw [if_neg (by norm_num; exact not_lt.mp h2)]
        rw [e]
        obtain ⟨i1, i2⟩ := ih m m b (by linarith)
        refine ⟨⟨le_trans (by linarith) i1.1, i1.2⟩, i2.imp (fun h => h) fun ⟨a', b', j1, j2, j3, j4, j5⟩ =>
          ⟨a', b', by linarith, j2, ?_, j4, fun k k' => j5 hne ?_⟩⟩
        · rw [j3, hm, pow_succ]; field_simp; ring
        · rw [not_lt] at h2
          have h3 : 0 < Ty2x_residuals m x y id * Ty2x_residuals a x y id := lt_of_le_of_ne h2 (mul_ne_zero hne k).symm
          by_contra hc
          push Not at hc
          have := mul_pos h3 hc
          have e2 : Ty2x_residuals m x y id * Ty2x_residuals a x y id * (Ty2x_residuals m x y id * Ty2x_residuals b x y id) =
            Ty2x_residuals m x y id ^ 2 * (Ty2x_residuals a x y id * Ty2x_residuals b x y id) := by ring
          rw [e2] at this
          have := mul_nonpos_of_nonneg_of_nonpos (sq_nonneg (Ty2x_residuals m x y id)) k'
          linarith
end

private theorem res_eq {id : Int} (hid : id = Doc.idH ∨ id = Doc.idS) (y x t : ℝ) (h1 : 0 ≤ t) (h2 : t ≤ 373.946) :
    Ty2x_residuals (t + 273.15) x y id = qualityResidual id y x t := by
  have e0 : Tx_reg4 (t + 273.15) 0 id = T2sat_water (t + 273.15) id := by
    unfold Tx_reg4
    rw [if_neg (by rcases hid with rfl | rfl <;> decide), if_pos (by norm_num)]
  have e1 : Tx_reg4 (t + 273.15) 1 id = T2sat_steam (t + 273.15) id := by
    unfold Tx_reg4
    rw [if_neg (by rcases hid with rfl | rfl <;> decide), if_neg (by norm_num), if_pos (by norm_num)]
  unfold qualityResidual
  rw [tx_call h1 h2 (by norm_num) (by rcases hid with rfl | rfl <;> decide) (by rcases hid with rfl | rfl <;> decide),
    tx_call h1 h2 (by norm_num) (by rcases hid with rfl | rfl <;> decide) (by rcases hid with rfl | rfl <;> decide), e0, e1]
  rfl

private theorem located {id : Int} (hid : id = Doc.idH ∨ id = Doc.idS) (y x : ℝ) :
    ∃ t, bisection_reg4 x y id T_MIN4 T_MAX4 0.00001 1000 = t + 273.15 ∧ 0 ≤ t ∧ t ≤ 373.946 ∧ Located id y x t := by
  have h := loop id x y 0.00001 (by norm_num) 999 0.0 273.15 647.096 (by norm_num)
  have e : bisection_reg4 x y id (T_MIN4 : ℝ) T_MAX4 0.00001 1000 =
    bisection_reg4_loop x y id 0.00001 (999 + 1) 0.0 273.15 647.096 (Ty2x_residuals 273.15 x y id) := rfl
  rw [e]
  generalize bisection_reg4_loop x y id (0.00001 : ℝ) (999 + 1) 0.0 273.15 647.096 (Ty2x_residuals 273.15 x y id) = T at h
  obtain ⟨⟨m1, m2⟩, h⟩ := h
  have ht1 : 0 ≤ T - 273.15 := by linarith
  have ht2 : T - 273.15 ≤ 373.946 := by norm_num at *; linarith
  refine ⟨T - 273.15, by ring, ht1, ht2, ?_⟩
  have r : ∀ z : ℝ, 273.15 ≤ z → z ≤ 647.096 → Ty2x_residuals z x y id = qualityResidual id y x (z - 273.15) := fun z k1 k2 => by
    rw [← res_eq hid y x (z - 273.15) (by linarith) (by norm_num at *; linarith), sub_add_cancel]
  rcases h with h | ⟨a, b, h1, h2, h3, h4, h5⟩
  · left
    rw [r T m1 m2] at h
    norm_num at h ⊢; exact h
  · right
    have hab : a ≤ b := by
      have : 0 ≤ (647.096 - 273.15 : ℝ) / 2 ^ 999 := by positivity
      linarith
    refine ⟨a - 273.15, b - 273.15, by linarith, by rw [h4]; linarith, by rw [h4]; linarith, by norm_num at *; linarith,
      ?_, by rw [h4]; ring, ?_⟩
    · rw [sub_sub_sub_cancel_right, h3]; norm_num
    · rw [← r a h1 (by linarith), ← r b (by linarith) h2]
      intro k1 k2
      refine h5 ?_ ?_
      · rw [r 273.15 le_rfl (by norm_num), sub_self]; exact k1
      · rw [r 273.15 le_rfl (by norm_num), r 647.096 (by norm_num) le_rfl, sub_self]
        norm_num at *; exact k2

private theorem tx_eq {t x : ℝ} (h1 : 0 ≤ t) (h2 : t ≤ 373.946) (hx : x ∈ Icc (0 : ℝ) 1) (o : Int) (hX : o ≠ Doc.idX) :
    FnX.tx.call t x o = some (if o = Doc.idT then t else Tx_reg4 (t + 273.15) x o) := by
  by_cases hT : o = Doc.idT
  · subst hT; rfl
  · rw [if_neg hT, tx_call h1 h2 hx hT hX]

/-- **`hx`** -/
theorem C34_hx (h x : ℝ) (hok : FnX.hx.Ok h x) :
    ∃ t, 0 ≤ t ∧ t ≤ 373.946 ∧ Located Doc.idH h x t ∧
      ∀ o, o ≠ Doc.idH → FnX.hx.call h x o = FnX.tx.call t x o := by
  obtain ⟨t, e, h1, h2, hl⟩ := located (.inl rfl) h x
  refine ⟨t, h1, h2, hl, fun o ho => ?_⟩
  have hg : ((h >. (H_MAX4 : ℝ)) || (h <. H_MIN4) || (x >. 1.0) || (x <. 0.0)) = false := by
    obtain ⟨⟨k1, k2⟩, k3, k4⟩ := hok
    simp only [H_MAX4, H_MIN4, real_lt, Bool.or_eq_false_iff, decide_eq_false_iff_not, not_lt]
    exact ⟨⟨⟨k2, k1⟩, by norm_num; exact k4⟩, by norm_num; exact k3⟩
  have hc : FnX.hx.call h x o = if o = Doc.idX then some x else some (hx_reg4 h x o) := by
    show (if (_ : Bool) = true then _ else if (o == OH) = true then _ else if (o == OX) = true then _ else _) = _
    rw [if_neg (by rw [hg]; decide), if_neg (fun h : (o == OH) = true => ho (beq_iff_eq.mp h))]
    simp only [beq_iff_eq]; rfl
  rw [hc]
  by_cases hX : o = Doc.idX
  · subst hX; rfl
  · rw [if_neg hX, tx_eq h1 h2 hok.2 o hX]
    unfold hx_reg4
    have e' : bisection_reg4 x h OH T_MIN4 T_MAX4 0.00001 1000 = t + 273.15 := e
    rw [e']
    simp only [beq_iff_eq]
    congr 1
    by_cases hT : o = Doc.idT
    · rw [if_pos hT, if_pos (show o = OT from hT), add_sub_cancel_right]
    · rw [if_neg hT, if_neg (show ¬ o = OT from hT)]

/-- **`sx`** -/
theorem C34_sx (s x : ℝ) (hok : FnX.sx.Ok s x) :
    ∃ t, 0 ≤ t ∧ t ≤ 373.946 ∧ Located Doc.idS s x t ∧
      ∀ o, o ≠ Doc.idS → FnX.sx.call s x o = FnX.tx.call t x o := by
  obtain ⟨t, e, h1, h2, hl⟩ := located (.inr rfl) s x
  refine ⟨t, h1, h2, hl, fun o ho => ?_⟩
  have hg : ((s >. (S_MAX4 : ℝ)) || (s <. S_MIN4) || (x >. 1.0) || (x <. 0.0)) = false := by
    obtain ⟨⟨k1, k2⟩, k3, k4⟩ := hok
    simp only [S_MAX4, S_MIN4, real_lt, Bool.or_eq_false_iff, decide_eq_false_iff_not, not_lt]
    exact ⟨⟨⟨k2, k1⟩, by norm_num; exact k4⟩, by norm_num; exact k3⟩
  have hc : FnX.sx.call s x o = if o = Doc.idX then some x else some (sx_reg4 s x o) := by
    show (if (_ : Bool) = true then _ else if (o == OS) = true then _ else if (o == OX) = true then _ else _) = _
    rw [if_neg (by rw [hg]; decide), if_neg (fun h : (o == OS) = true => ho (beq_iff_eq.mp h))]
    simp only [beq_iff_eq]; rfl
  rw [hc]
  by_cases hX : o = Doc.idX
  · subst hX; rfl
  · rw [if_neg hX, tx_eq h1 h2 hok.2 o hX]
    unfold sx_reg4
    have e' : bisection_reg4 x s OS T_MIN4 T_MAX4 0.00001 1000 = t + 273.15 := e
    rw [e']
    simp only [beq_iff_eq]
    congr 1
    by_cases hT : o = Doc.idT
    · rw [if_pos hT, if_pos (show o = OT from hT), add_sub_cancel_right]
    · rw [if_neg hT, if_neg (show ¬ o = OT from hT)]

/-- In particular the returned temperature is on the curve. -/
theorem C34_temperature (h x : ℝ) (hok : FnX.hx.Ok h x) :
    ∃ t, FnX.hx.call h x Doc.idT = some t ∧ 0 ≤ t ∧ t ≤ 373.946 := by
  obtain ⟨t, h1, h2, -, h3⟩ := C34_hx h x hok
  exact ⟨t, h3 _ (by decide), h1, h2⟩

/-- Concrete: h = 1000 kJ/kg, x = 0.2. -/
example : ∃ t, FnX.hx.call (1000 : ℝ) 0.2 Doc.idT = some t ∧ 0 ≤ t ∧ t ≤ 373.946 :=
  C34_temperature 1000 0.2 (by unfold FnX.Ok FnX.Range; norm_num)

end If97
