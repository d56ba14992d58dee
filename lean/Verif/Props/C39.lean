import Verif.Inst.Real
import Verif.Spec.PairFn

/-!
# C39 Range guards of the quality functions

Exact arithmetic.  `px`, `hx` and `sx` answer −9999 for every output id as soon as an input is outside
its documented range.  `tx` does so for every id except the two that echo an input, which it answers
before looking at the range: the four functions do not behave alike (`C39_tx_violated`).
-/

namespace If97

/-- the documented range of the first input of a quality function -/
def FnX.Range : FnX → ℝ → Prop
  | .px, p => 0.000611212677444 ≤ p ∧ p ≤ 22.064
  | .tx, t => 273.15 ≤ t + 273.15 ∧ t + 273.15 ≤ 647.096
  | .hx, h => 0.38039218566765925 ≤ h ∧ h ≤ 2803.2738880203456
  | .sx, s => 0.33567511183921145 ≤ s ∧ s ≤ 9.153081306725117

/-- both inputs are in range -/
def FnX.Ok (f : FnX) (a x : ℝ) : Prop := f.Range a ∧ 0 ≤ x ∧ x ≤ 1

/-- **The guard**, for every function and output id, except the echo ids of `tx`. -/
theorem C39_guard_partial (f : FnX) (a x : ℝ) (h : ¬ f.Ok a x) (o : Int)
    (ho : f = .tx → o ≠ Doc.idT ∧ o ≠ Doc.idX) : f.call a x o = some (-9999) := by
  have key : ∀ {c : Bool} {y : Option ℝ}, c = true →
      (if c = true then some ((INVALID_VALUE : Int) : ℝ) else y) = some (-9999) := fun h => by
    rw [if_pos h]; norm_num [INVALID_VALUE]
  unfold FnX.Ok at h
  cases f
  · refine key (c := _) ?_
    simp only [real_lt, Bool.or_eq_true, decide_eq_true_eq, P_MAX4, P_MIN4]
    by_contra hc; push Not at hc; norm_num [FnX.Range] at h hc; grind
  · obtain ⟨h1, h2⟩ := ho rfl
    show (if _ then _ else if _ then _ else _) = _
    rw [if_neg (fun h : (o == OT) = true => h1 (beq_iff_eq.mp h)),
      if_neg (fun h : (o == OX) = true => h2 (beq_iff_eq.mp h))]
    refine key (c := _) ?_
    simp only [real_lt, Bool.or_eq_true, decide_eq_true_eq, T_MAX4, T_MIN4]
    by_contra hc; push Not at hc; norm_num [FnX.Range] at h hc; grind
  · refine key (c := _) ?_
    simp only [real_lt, Bool.or_eq_true, decide_eq_true_eq, H_MAX4, H_MIN4]
    by_contra hc; push Not at hc; norm_num [FnX.Range] at h hc; grind
  · refine key (c := _) ?_
    simp only [real_lt, Bool.or_eq_true, decide_eq_true_eq, S_MAX4, S_MIN4]
    by_contra hc; push Not at hc; norm_num [FnX.Range] at h hc; grind

/-- The echo ids of `tx` bypass the guard. -/
theorem C39_tx_echo (t x : ℝ) :
    FnX.tx.call t x Doc.idT = some t ∧ FnX.tx.call t x Doc.idX = some x := ⟨rfl, rfl⟩

/-- So the property fails for `tx`: out of range in both inputs, and still answered. -/
theorem C39_tx_violated : ∃ t x : ℝ, ∃ o, ¬ FnX.tx.Ok t x ∧ FnX.tx.call t x o ≠ some (-9999) :=
  ⟨5000, 7, Doc.idT, by unfold FnX.Ok FnX.Range; norm_num, by
    rw [(C39_tx_echo 5000 7).1]; norm_num⟩

/-- Concrete out-of-range calls. -/
example : FnX.px.call (30 : ℝ) 0.5 Doc.idP = some (-9999) :=
  C39_guard_partial .px 30 0.5 (by unfold FnX.Ok FnX.Range; norm_num) _ (by simp)
example : FnX.tx.call (100 : ℝ) (-1) Doc.idH = some (-9999) :=
  C39_guard_partial .tx 100 (-1) (by unfold FnX.Ok FnX.Range; norm_num) _ (fun _ => by decide)

end If97
