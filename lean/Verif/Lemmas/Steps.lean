import Verif.Model.Poly
import Mathlib.Data.List.GetD
import Mathlib.Data.List.Induction

/-! Helper lemmas for C09: the step loops visit `visited steps`. -/

namespace If97

/-- The table indices a step list visits, in order. -/
def visited (steps : List (Nat × Nat)) : List Nat :=
  steps.flatMap fun st => List.range' st.1 (st.2 - st.1)

section
variable {F : Type} [OfScientific F]

theorem stepsFold_visited {σ : Type} (body : σ → Int × Int × F → σ) (init : σ)
    (IJn : List (Int × Int × F)) (steps : List (Nat × Nat)) :
    stepsFold body init IJn steps =
      (visited steps).foldl (fun acc k => body acc (IJn.getD k (0, 0, 0.0))) init := by
  unfold stepsFold visited
  rw [List.foldl_flatMap]

theorem foldl_congr' {σ α : Type} {f g : σ → α → σ} (l : List α) (h : ∀ s, ∀ a ∈ l, f s a = g s a) (init : σ) :
    l.foldl f init = l.foldl g init := by
  induction l generalizing init with
  | nil => rfl
  | cons a l ih =>
    rw [List.foldl_cons, List.foldl_cons, h init a (by simp)]
    exact ih (fun s b hb => h s b (by simp [hb])) _

theorem foldl_range_getD {σ α : Type} (body : σ → α → σ) (d : α) (l : List α) (init : σ) :
    (List.range l.length).foldl (fun acc k => body acc (l.getD k d)) init = l.foldl body init := by
  induction l using List.reverseRecOn generalizing init with
  | nil => rfl
  | append_singleton l a ih =>
    rw [List.length_append, List.length_singleton, List.range_succ, List.foldl_append, List.foldl_append,
      List.foldl_cons, List.foldl_nil, List.foldl_cons, List.foldl_nil, ← ih]
    congr 1
    · apply foldl_congr'
      intro acc k hk
      rw [List.getD_append _ _ _ _ (List.mem_range.mp hk)]
    · rw [List.getD_append_right _ _ _ _ (Nat.le_refl _)]; simp

theorem foldlM_flatMap' {σ α β : Type} (g : α → List β) (f : σ → β → Option σ) (l : List α) (init : σ) :
    (l.flatMap g).foldlM f init = l.foldlM (fun acc a => (g a).foldlM f acc) init := by
  induction l generalizing init with
  | nil => rfl
  | cons a l ih =>
    rw [List.flatMap_cons, List.foldlM_append, List.foldlM_cons]
    congr 1; funext s; exact ih s

omit [OfScientific F] in
theorem stepsFold?_visited {σ : Type} (body : σ → Int × Int × F → σ) (init : σ)
    (IJn : List (Int × Int × F)) (steps : List (Nat × Nat)) :
    stepsFold? body init IJn steps =
      (visited steps).foldlM (fun acc k => (IJn[k]?).map (body acc)) init := by
  unfold stepsFold? visited
  rw [foldlM_flatMap']

/-- If every visited index is inside the table, the checked loop succeeds with the value of the unchecked one. -/
theorem foldlM_checked {σ α : Type} (body : σ → α → σ) (d : α) (l : List α) (ks : List Nat)
    (h : ∀ k ∈ ks, k < l.length) (init : σ) :
    ks.foldlM (fun acc k => (l[k]?).map (body acc)) init =
      some (ks.foldl (fun acc k => body acc (l.getD k d)) init) := by
  induction ks generalizing init with
  | nil => rfl
  | cons k ks ih =>
    have hk := h k (by simp)
    rw [List.foldlM_cons, List.foldl_cons]
    simp only [List.getElem?_eq_getElem hk, Option.map_some]
    rw [List.getD_eq_getElem _ _ hk]
    exact ih (fun k hk => h k (by simp [hk])) _

theorem stepsFold_eq {σ : Type} (body : σ → Int × Int × F → σ) (init : σ)
    (IJn : List (Int × Int × F)) (steps : List (Nat × Nat)) (h : visited steps = List.range IJn.length) :
    stepsFold body init IJn steps = IJn.foldl body init := by
  rw [stepsFold_visited, h, foldl_range_getD]

theorem stepsFold?_eq {σ : Type} (body : σ → Int × Int × F → σ) (init : σ)
    (IJn : List (Int × Int × F)) (steps : List (Nat × Nat)) (h : visited steps = List.range IJn.length) :
    stepsFold? body init IJn steps = some (IJn.foldl body init) := by
  rw [stepsFold?_visited, foldlM_checked body (0, 0, 0.0) _ _ (by rw [h]; simp), h, foldl_range_getD]

end

end If97
