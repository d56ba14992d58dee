import Verif.Spec.PairFn
import Verif.Inst.Real

/-!
# C06 Region results are a closed set

Whatever the number semantics, a detector that returns yields one of the five regions
or one of the documented error codes of that function.
-/

namespace If97
variable {F : Type} [Add F] [Sub F] [Mul F] [Div F] [Neg F] [OfScientific F] [Flt F]

/-- Specification: the error codes a function may report. -/
def Fn.errors : Fn → List Int
  | .pt => [Doc.errP, Doc.errT, Doc.errValue]
  | .ts => [Doc.errT, Doc.errS, Doc.errValue]
  | _ => [Doc.errValue]

namespace C06
/-- `r` is a region or one of the codes `E` -/
def In (E : List Int) (r : Int) : Prop := r ∈ [1, 2, 3, 4, 5] ∨ r ∈ E
def OIn (E : List Int) (o : Option Int) : Prop := ∀ r, o = some r → In E r

theorem In.ite {E} {c : Prop} [Decidable c] {a b : Int} (ha : In E a) (hb : In E b) : In E (if c then a else b) := by
  split <;> assumption
theorem In.getD {E} {o : Option Int} {d : Int} (ho : OIn E o) (hd : In E d) : In E (o.getD d) := by
  cases o with
  | none => exact hd
  | some r => exact ho r rfl
theorem OIn.none {E} : OIn E none := by intro r h; cases h
theorem OIn.some {E} {r : Int} (h : In E r) : OIn E (some r) := by intro s hs; cases hs; exact h
theorem OIn.ite {E} {c : Prop} [Decidable c] {a b : Option Int} (ha : OIn E a) (hb : OIn E b) :
    OIn E (if c then a else b) := by split <;> assumption
theorem OIn.bind {E} {α : Type} {o : Option α} {f : α → Option Int} (h : ∀ a, OIn E (f a)) : OIn E (o >>= f) := by
  cases o with
  | none => exact OIn.none
  | some a => exact h a

/-- walk over all paths of a detector -/
macro "paths" : tactic => `(tactic| repeat' (first
  | (left; decide) | (right; decide) | (left; decide)
  | apply In.ite | apply In.getD | apply OIn.none | apply OIn.ite | apply OIn.some
  | (apply OIn.bind; intro _)))
end C06

open C06

/-- Every detector returns a region 1..5 or a documented error code of its function. -/
theorem C06_closed (f : Fn) (a b : F) (r : Int) (h : f.detect a b = some r) :
    r ∈ [1, 2, 3, 4, 5] ∨ r ∈ f.errors := by
  have key : OIn f.errors (f.detect a b) := by
    cases f <;> simp only [Fn.detect, Fn.errors]
    · apply OIn.some; unfold pT_sub_region; paths
    · apply OIn.some; unfold ph_sub_region; paths
    · apply OIn.some; unfold ps_sub_region; paths
    · apply OIn.some; unfold hs_sub_region; paths
    · apply OIn.some; unfold pv_sub_region; paths
    · apply OIn.some; unfold tv_sub_region; paths
    · unfold th_sub_region; paths
    · apply OIn.some; unfold ts_sub_region; paths
  exact key r h

/-- Hence the documented region output `OR`, without an explicit region, is one of those numbers. -/
theorem C06_OR (f : Fn) (a b : F) (v : F) (h : f.call0 a b Doc.idR = some v) :
    ∃ r : Int, v = Flt.ofInt r ∧ (r ∈ [1, 2, 3, 4, 5] ∨ r ∈ f.errors) := by
  have : ∃ r, f.detect a b = some r ∧ v = Flt.ofInt r := by
    cases f
    case th =>
      simp only [Fn.call0, Fn.rust, Rust.th, OIdRegionArgs.ofId, o_id_reg_info, Doc.idR, OT, OH] at h
      have h' : (th_sub_region a b).map (fun r => (Flt.ofInt r : F)) = some v := by
        rw [← h]
        simp [pair_properties, OR]
        cases th_sub_region a b <;> rfl
      cases hd : th_sub_region a b with
      | none => rw [hd] at h'; cases h'
      | some r => rw [hd] at h'; simp at h'; exact ⟨r, by simp [Fn.detect, hd], h'.symm⟩
    all_goals exact ⟨_, rfl, (Option.some.inj h).symm⟩
  obtain ⟨r, hr, hv⟩ := this
  exact ⟨r, hv, C06_closed f a b r hr⟩

end If97
