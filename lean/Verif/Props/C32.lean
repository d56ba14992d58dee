import Verif.Model.Root
import Verif.Inst.Real
import Mathlib.Logic.Function.Iterate

/-!
# C32 The root finders stop

Any number type, any function (it may return NaN), any starting points and tolerance.

The specification is the secant iteration itself, as a transition system: a state, a step, and the
condition under which the search goes on.  The theorems say that the two root finders run this system
until the condition fails — for at most `i_max` steps (100 in every call of the library) — and return the
abscissa of the state reached.  `C32_residual` adds that the residual of that state is the residual
of the returned abscissa, so "the residual is zero" in the stopping condition is about the result.
-/

namespace If97
open Flt
variable {F : Type} [Add F] [Sub F] [Mul F] [Div F] [Neg F] [OfScientific F] [Flt F]

namespace Secant

/-- last step, last two abscissae and their residuals -/
structure State (F : Type) where
  dx : F
  xl : F
  x : F
  fl : F
  f : F

/-- one secant step for the residual `res`; `fix` is applied to the new abscissa -/
def step (res fix : F → F) (s : State F) : State F :=
  let dx := (s.xl - s.x) * s.f / (s.f - s.fl)
  let x := fix (s.x + dx)
  ⟨dx, s.x, x, s.f, res x⟩

/-- the search goes on at step `i` -/
def Going (tol : F) (iMax i : Nat) (s : State F) : Bool :=
  (fabs s.dx >. tol) && decide (i < iMax) && (s.f !=. 0.0) && ((s.f - s.fl) !=. 0.0)

/-- `r` is the abscissa at which the search from `s` stops, after `k` steps -/
def StopsAfter (res fix : F → F) (tol : F) (iMax : Nat) (s : State F) (k : Nat) (r : F) : Prop :=
  (∀ j < k, Going tol iMax j ((step res fix)^[j] s) = true) ∧
  Going tol iMax k ((step res fix)^[k] s) = false ∧ r = ((step res fix)^[k] s).x

/-- the start: the point with the smaller residual comes last -/
def start (x1 x2 f1 f2 : F) : State F :=
  let (xl, x, fl, f) := if fabs f1 <. fabs f2 then (x2, x1, f2, f1) else (x1, x2, f1, f2)
  ⟨(xl - x) * f / (f - fl), xl, x, fl, f⟩

/-- non-positive arguments are replaced (`rtsec1` only) -/
def positive (x : F) : F := if x <=. 0.0 then 0.000001 else x

theorem going_zero (tol : F) (i : Nat) (s : State F) : Going tol i i s = false := by
  simp [Going]

end Secant
open Secant

private theorem shift (res fix : F → F) (tol : F) (n i : Nat) (s : State F) (k : Nat) (r : F)
    (h0 : Going tol (i + n + 1) i s = true)
    (h : (∀ j < k, Going tol (i + 1 + n) (i + 1 + j) ((step res fix)^[j] (step res fix s)) = true) ∧
      Going tol (i + 1 + n) (i + 1 + k) ((step res fix)^[k] (step res fix s)) = false ∧
      r = ((step res fix)^[k] (step res fix s)).x) :
    (∀ j < k + 1, Going tol (i + n + 1) (i + j) ((step res fix)^[j] s) = true) ∧
      Going tol (i + n + 1) (i + (k + 1)) ((step res fix)^[k + 1] s) = false ∧
      r = ((step res fix)^[k + 1] s).x := by
  obtain ⟨h1, h2, h3⟩ := h
  have e : i + n + 1 = i + 1 + n := by omega
  refine ⟨fun j hj => ?_, ?_, h3⟩
  · cases j with
    | zero => exact h0
    | succ j =>
      rw [e, show i + (j + 1) = i + 1 + j by omega]; exact h1 j (by omega)
  · rw [e, show i + (k + 1) = i + 1 + k by omega]; exact h2

private theorem loop1 (g : F → F → F) (c fr tol : F) (n : Nat) : ∀ (i : Nat) (s : State F),
    ∃ k ≤ n, (∀ j < k, Going tol (i + n) (i + j) ((step (fun x => fr - g x c) positive)^[j] s) = true) ∧
      Going tol (i + n) (i + k) ((step (fun x => fr - g x c) positive)^[k] s) = false ∧
      rtsec1_loop g c fr tol n s.dx s.xl s.x s.fl s.f = ((step (fun x => fr - g x c) positive)^[k] s).x := by
  induction n with
  | zero => intro i s; exact ⟨0, le_rfl, by simp, going_zero tol _ s, rfl⟩
  | succ n ih =>
    intro i s
    by_cases h : ((fabs s.dx >. tol) && (s.f !=. 0.0) && ((s.f - s.fl) !=. 0.0)) = true
    · obtain ⟨k, hk, h1, h2, h3⟩ := ih (i + 1) (step (fun x => fr - g x c) positive s)
      have e : rtsec1_loop g c fr tol (n + 1) s.dx s.xl s.x s.fl s.f =
          rtsec1_loop g c fr tol n (step (fun x => fr - g x c) positive s).dx (step (fun x => fr - g x c) positive s).xl
            (step (fun x => fr - g x c) positive s).x (step (fun x => fr - g x c) positive s).fl
            (step (fun x => fr - g x c) positive s).f := by
        rw [rtsec1_loop, if_pos h]; rfl
      have hg : Going tol (i + n + 1) i s = true := by
        simp only [Going, Bool.and_eq_true, decide_eq_true_eq] at h ⊢
        exact ⟨⟨⟨h.1.1, by omega⟩, h.1.2⟩, h.2⟩
      obtain ⟨a1, a2, a3⟩ := shift _ _ tol n i s k _ hg ⟨h1, h2, h3⟩
      exact ⟨k + 1, by omega, a1, a2, e.trans a3⟩
    · refine ⟨0, by omega, by simp, ?_, ?_⟩
      · rw [Bool.not_eq_true, Bool.and_eq_false_iff, Bool.and_eq_false_iff] at h
        simp only [Going, Bool.and_eq_false_iff, Function.iterate_zero, id]
        tauto
      · rw [rtsec1_loop, if_neg h]; rfl

private theorem loop2 (g : F → F → F) (c fr tol : F) (n : Nat) : ∀ (i : Nat) (s : State F),
    ∃ k ≤ n, (∀ j < k, Going tol (i + n) (i + j) ((step (fun x => fr - g c x) (fun x => x))^[j] s) = true) ∧
      Going tol (i + n) (i + k) ((step (fun x => fr - g c x) (fun x => x))^[k] s) = false ∧
      rtsec2_loop g c fr tol n s.dx s.xl s.x s.fl s.f = ((step (fun x => fr - g c x) (fun x => x))^[k] s).x := by
  induction n with
  | zero => intro i s; exact ⟨0, le_rfl, by simp, going_zero tol _ s, rfl⟩
  | succ n ih =>
    intro i s
    by_cases h : ((fabs s.dx >. tol) && (s.f !=. 0.0) && ((s.f - s.fl) !=. 0.0)) = true
    · obtain ⟨k, hk, h1, h2, h3⟩ := ih (i + 1) (step (fun x => fr - g c x) (fun x => x) s)
      have e : rtsec2_loop g c fr tol (n + 1) s.dx s.xl s.x s.fl s.f =
          rtsec2_loop g c fr tol n (step (fun x => fr - g c x) (fun x => x) s).dx (step (fun x => fr - g c x) (fun x => x) s).xl
            (step (fun x => fr - g c x) (fun x => x) s).x (step (fun x => fr - g c x) (fun x => x) s).fl
            (step (fun x => fr - g c x) (fun x => x) s).f := by
        rw [rtsec2_loop, if_pos h]; rfl
      have hg : Going tol (i + n + 1) i s = true := by
        simp only [Going, Bool.and_eq_true, decide_eq_true_eq] at h ⊢
        exact ⟨⟨⟨h.1.1, by omega⟩, h.1.2⟩, h.2⟩
      obtain ⟨a1, a2, a3⟩ := shift _ _ tol n i s k _ hg ⟨h1, h2, h3⟩
      exact ⟨k + 1, by omega, a1, a2, e.trans a3⟩
    · refine ⟨0, by omega, by simp, ?_, ?_⟩
      · rw [Bool.not_eq_true, Bool.and_eq_false_iff, Bool.and_eq_false_iff] at h
        simp only [Going, Bool.and_eq_false_iff, Function.iterate_zero, id]
        tauto
      · rw [rtsec2_loop, if_neg h]; rfl

/-- **`rtsec1`** (secant search in the first variable): the search stops after at most `i_max` steps, at the
point returned.  If the two starting residuals coincide, no step is made. -/
theorem C32_first_variable (g : F → F → F) (c fr x1 x2 f1 f2 tol : F) (iMax : Nat) :
    ∃ k ≤ iMax, StopsAfter (fun x => fr - g x c) positive tol iMax (start x1 x2 f1 f2) k
      (rtsec1 g c fr x1 x2 f1 f2 tol iMax) := by
  obtain ⟨k, hk, h1, h2, h3⟩ := loop1 g c fr tol iMax 0 (start x1 x2 f1 f2)
  simp only [Nat.zero_add] at h1 h2
  by_cases hc : ((start x1 x2 f1 f2).f - (start x1 x2 f1 f2).fl !=. 0.0) = true
  · refine ⟨k, hk, h1, h2, ?_⟩
    rw [← h3]
    unfold rtsec1
    by_cases hs : (fabs f1 <. fabs f2) = true
    · simp only [start, if_pos hs] at hc ⊢
      rw [if_pos hc]; rfl
    · simp only [start, if_neg hs] at hc ⊢
      rw [if_pos hc]; rfl
  · refine ⟨0, Nat.zero_le _, by simp, ?_, ?_⟩
    · rw [Bool.not_eq_true] at hc
      simp [Going, hc]
    · unfold rtsec1
      by_cases hs : (fabs f1 <. fabs f2) = true
      · simp only [start, if_pos hs] at hc ⊢
        rw [if_neg hc]; rfl
      · simp only [start, if_neg hs] at hc ⊢
        rw [if_neg hc]; rfl

/-- **`rtsec2`** (secant search in the second variable). -/
theorem C32_second_variable (g : F → F → F) (c fr x1 x2 f1 f2 tol : F) (iMax : Nat) :
    ∃ k ≤ iMax, StopsAfter (fun x => fr - g c x) (fun x => x) tol iMax (start x1 x2 f1 f2) k
      (rtsec2 g c fr x1 x2 f1 f2 tol iMax) := by
  obtain ⟨k, hk, h1, h2, h3⟩ := loop2 g c fr tol iMax 0 (start x1 x2 f1 f2)
  simp only [Nat.zero_add] at h1 h2
  by_cases hc : ((start x1 x2 f1 f2).f - (start x1 x2 f1 f2).fl !=. 0.0) = true
  · refine ⟨k, hk, h1, h2, ?_⟩
    rw [← h3]
    unfold rtsec2
    by_cases hs : (fabs f1 <. fabs f2) = true
    · simp only [start, if_pos hs] at hc ⊢
      rw [if_pos hc]; rfl
    · simp only [start, if_neg hs] at hc ⊢
      rw [if_pos hc]; rfl
  · refine ⟨0, Nat.zero_le _, by simp, ?_, ?_⟩
    · rw [Bool.not_eq_true] at hc
      simp [Going, hc]
    · unfold rtsec2
      by_cases hs : (fabs f1 <. fabs f2) = true
      · simp only [start, if_pos hs] at hc ⊢
        rw [if_neg hc]; rfl
      · simp only [start, if_neg hs] at hc ⊢
        rw [if_neg hc]; rfl

/-- The step limit of the library's calls is 100. -/
theorem C32_limit : (I_MAX : Int) = ((100 : Nat) : Int) := rfl

/-- The residual carried by the search is that of its abscissa, if the caller passed residuals in. -/
theorem C32_residual (res fix : F → F) (x1 x2 : F) (k : Nat) :
    ((step res fix)^[k] (start x1 x2 (res x1) (res x2))).f = res ((step res fix)^[k] (start x1 x2 (res x1) (res x2))).x := by
  cases k with
  | zero =>
    by_cases hs : (fabs (res x1) <. fabs (res x2)) = true
    · simp only [start, if_pos hs, Function.iterate_zero, id]
    · simp only [start, if_neg hs, Function.iterate_zero, id]
  | succ k => rw [Function.iterate_succ_apply']; rfl

/-- What a stopped search means, in exact arithmetic: the last step was within the tolerance, or the result
is a root, or the last two residuals coincide, or all steps were used. -/
theorem C32_meaning (res fix : ℝ → ℝ) (x1 x2 tol r : ℝ) (iMax k : Nat)
    (h : StopsAfter res fix tol iMax (start x1 x2 (res x1) (res x2)) k r) :
    |((step res fix)^[k] (start x1 x2 (res x1) (res x2))).dx| ≤ tol ∨ res r = 0 ∨
      res r = ((step res fix)^[k] (start x1 x2 (res x1) (res x2))).fl ∨ iMax ≤ k := by
  obtain ⟨-, h2, h3⟩ := h
  simp only [Going, Bool.and_eq_false_iff, real_lt, fabs, real_abs, decide_eq_false_iff_not, not_lt, real_eq,
    Bool.not_eq_false', decide_eq_true_eq] at h2
  rw [h3, ← C32_residual res fix x1 x2 k]
  rcases h2 with ((h | h) | h) | h
  · exact .inl h
  · exact .inr (.inr (.inr h))
  · right; left; rw [h]; norm_num
  · right; right; left; norm_num at h; linarith

/-- Concrete: the search for the root of x² − 2 from 1 and 2 stops within 100 steps. -/
example : ∃ k ≤ 100, StopsAfter (fun x : ℝ => 0 - (2 - x * x)) (fun x => x) 1e-8 100 (start 1 2 (-1) 2) k
    (rtsec2 (fun c x : ℝ => c - x * x) 2 0 1 2 (-1) 2 1e-8 100) :=
  C32_second_variable (fun c x : ℝ => c - x * x) 2 0 1 2 (-1) 2 1e-8 100

end If97
