import Verif.Lemmas.IvCover
import Verif.Lemmas.ApiVal
import Verif.Spec.Domain

/-! The states on which the equations of regions 1, 2, 5 are used. -/

namespace If97
open Iv

/-- the states on which the equation of region `r` is used (closed ranges), widened by 1e-7 K at 273.15 K
and by 1e-7 MPa at the saturation line, B23 and (region 2) 100 MPa: the code evaluates the equations a little outside -/
def InRange (r : Int) (p T : ℝ) : Prop :=
  (r = 1 ∧ 0 < p ∧ 273.1499999 ≤ T ∧ T ≤ 623.15 ∧ Sat.psat T ≤ p + 1e-7 ∧ p ≤ 100) ∨
  (r = 2 ∧ 0 < p ∧ 273.1499999 ≤ T ∧ T ≤ 1073.15 ∧ p ≤ 100.0000001 ∧ (T ≤ 623.15 → p ≤ Sat.psat T + 1e-7) ∧
    (623.15 < T → T ≤ 863.15 → p ≤ Domain.pB23 T + 1e-7)) ∨
  (r = 5 ∧ 0 < p ∧ p ≤ 50 ∧ 1073.15 ≤ T ∧ T ≤ 2273.15)

theorem InRange.gibbs {r p T} (h : InRange r p T) : GibbsRegion r := by
  rcases h with h | h | h
  exacts [.inl h.1, .inr (.inl h.1), .inr (.inr h.1)]

theorem InRange.p_pos {r p T} (h : InRange r p T) : 0 < p := by
  rcases h with h | h | h
  exacts [h.2.1, h.2.1, h.2.1]

theorem InRange.T_pos {r p T} (h : InRange r p T) : 0 < T := by
  rcases h with h | h | h
  · linarith [h.2.2.1]
  · linarith [h.2.2.1]
  · linarith [h.2.2.2.1]

theorem InRange.regular {r p T} (h : InRange r p T) : Regular r p T := by
  refine ⟨h.p_pos, h.T_pos, fun hr => ?_, fun hr => ?_⟩
  · rcases h with h | h | h
    · constructor
      · intro e; have := h.2.2.2.2.2; rw [e] at this; norm_num at this
      · intro e; have := h.2.2.2.1; rw [e] at this; norm_num at this
    all_goals omega
  · rcases h with h | h | h
    · omega
    · intro e; have := h.2.2.2.1; rw [e] at this; norm_num at this
    · omega

end If97
