import Verif.Props.C07

/-!
# C08 NaN inputs are never assigned a region

For every number type with a set of NaN values obeying the IEEE 754 rules listed in `NanLaws`, and
for each of the eight functions with region detection: if either input is NaN the detector returns
an error code.  (`pt` is the function named in the property; the other seven are proved as well.)
-/

namespace If97
variable {F : Type} [Add F] [Sub F] [Mul F] [Div F] [Neg F] [OfScientific F] [Flt F]

/-- The IEEE 754 rules used: comparisons with a NaN are false; sums, differences and quotients with
a NaN on the left, and the absolute value of a NaN, are NaN. -/
structure NanLaws (nan : F → Prop) : Prop where
  lt_left : ∀ {a b : F}, nan a → Flt.lt a b = false
  lt_right : ∀ {a b : F}, nan b → Flt.lt a b = false
  le_left : ∀ {a b : F}, nan a → Flt.le a b = false
  le_right : ∀ {a b : F}, nan b → Flt.le a b = false
  eq_left : ∀ {a b : F}, nan a → Flt.eq a b = false
  add_left : ∀ {a b : F}, nan a → nan (a + b)
  sub_left : ∀ {a b : F}, nan a → nan (a - b)
  div_left : ∀ {a b : F}, nan a → nan (a / b)
  abs : ∀ {a : F}, nan a → nan (Flt.abs a)

namespace C08
def Err (f : Fn) (o : Option Int) : Prop := ∃ r, o = some r ∧ r ∈ f.errors

variable {nan : F → Prop} (L : NanLaws nan)
include L

theorem pt1 (p t : F) (h : nan p) : Err .pt (Fn.detect .pt p t) := by
  simp only [Fn.detect, pT_sub_region, L.lt_left h, L.lt_right h, L.le_left h, L.le_right h, L.eq_left h,
    L.lt_left (L.div_left (L.abs (L.sub_left h))), Bool.false_or, Bool.and_false, Bool.false_and,
    if_false, Bool.false_eq_true, ite_self, Option.getD_none]
  split
  · exact ⟨_, rfl, by decide⟩
  · exact ⟨_, rfl, by decide⟩

theorem pt2 (p t : F) (h : nan t) : Err .pt (Fn.detect .pt p t) := by
  have h' := L.add_left (b := 273.15) h
  simp only [Fn.detect, pT_sub_region, L.lt_left h', L.lt_right h', L.le_left h', L.le_right h', L.eq_left h',
    Bool.false_or, Bool.and_false, Bool.false_and,
    if_false, Bool.false_eq_true, ite_self, Option.getD_none]
  split
  · exact ⟨_, rfl, by decide⟩
  · exact ⟨_, rfl, by decide⟩

theorem ph1 (p t : F) (h : nan p) : Err .ph (Fn.detect .ph p t) := by
  simp only [Fn.detect, ph_sub_region, L.lt_left h, L.lt_right h, L.le_left h, L.le_right h, 
    Bool.false_or, Bool.and_false, Bool.false_and,
    if_false, Bool.false_eq_true, ite_self, Option.getD_none]
  exact ⟨_, rfl, by decide⟩

theorem ph2 (p t : F) (h : nan t) : Err .ph (Fn.detect .ph p t) := by
  simp only [Fn.detect, ph_sub_region, L.lt_left h, L.lt_right h, L.le_left h, L.le_right h, 
    Bool.false_or, Bool.and_false, Bool.false_and,
    if_false, Bool.false_eq_true, ite_self, Option.getD_none]
  exact ⟨_, rfl, by decide⟩

theorem ps1 (p t : F) (h : nan p) : Err .ps (Fn.detect .ps p t) := by
  simp only [Fn.detect, ps_sub_region, L.lt_left h, L.lt_right h, L.le_left h, L.le_right h, 
    Bool.false_or, Bool.and_false, Bool.false_and,
    if_false, Bool.false_eq_true, ite_self, Option.getD_none]
  exact ⟨_, rfl, by decide⟩

theorem ps2 (p t : F) (h : nan t) : Err .ps (Fn.detect .ps p t) := by
  simp only [Fn.detect, ps_sub_region, L.lt_left h, L.lt_right h, L.le_left h, L.le_right h, 
    Bool.false_or, Bool.and_false, Bool.false_and,
    if_false, Bool.false_eq_true, ite_self, Option.getD_none]
  exact ⟨_, rfl, by decide⟩

theorem hs1 (p t : F) (h : nan p) : Err .hs (Fn.detect .hs p t) := by
  simp only [Fn.detect, hs_sub_region, L.lt_left h, L.lt_right h, L.le_left h, L.le_right h, 
    Bool.false_or, Bool.and_false, Bool.false_and,
    if_false, Bool.false_eq_true, ite_self, Option.getD_none]
  exact ⟨_, rfl, by decide⟩

theorem hs2 (p t : F) (h : nan t) : Err .hs (Fn.detect .hs p t) := by
  simp only [Fn.detect, hs_sub_region, L.lt_left h, L.lt_right h, L.le_left h, L.le_right h, 
    Bool.false_or, Bool.and_false, Bool.false_and,
    if_false, Bool.false_eq_true, ite_self, Option.getD_none]
  exact ⟨_, rfl, by decide⟩

theorem pv1 (p t : F) (h : nan p) : Err .pv (Fn.detect .pv p t) := by
  simp only [Fn.detect, pv_sub_region, L.lt_left h, L.lt_right h, L.le_left h, L.le_right h, 
    Bool.false_or, Bool.and_false, Bool.false_and,
    if_false, Bool.false_eq_true, ite_self, Option.getD_none]
  exact ⟨_, rfl, by decide⟩

theorem pv2 (p t : F) (h : nan t) : Err .pv (Fn.detect .pv p t) := by
  simp only [Fn.detect, pv_sub_region, L.lt_left h, L.lt_right h, L.le_left h, L.le_right h, 
    Bool.false_or, Bool.and_false, Bool.false_and,
    if_false, Bool.false_eq_true, ite_self, Option.getD_none]
  exact ⟨_, rfl, by decide⟩

theorem tv1 (p t : F) (h : nan p) : Err .tv (Fn.detect .tv p t) := by
  have h' := L.add_left (b := 273.15) h
  simp only [Fn.detect, tv_sub_region, L.lt_left h', L.lt_right h', L.le_left h', L.le_right h', 
    Bool.false_or, Bool.and_false, Bool.false_and,
    if_false, Bool.false_eq_true, ite_self, Option.getD_none]
  exact ⟨_, rfl, by decide⟩

theorem tv2 (p t : F) (h : nan t) : Err .tv (Fn.detect .tv p t) := by
  simp only [Fn.detect, tv_sub_region, L.lt_left h, L.lt_right h, L.le_left h, L.le_right h, 
    Bool.false_or, Bool.and_false, Bool.false_and,
    if_false, Bool.false_eq_true, ite_self, Option.getD_none]
  exact ⟨_, rfl, by decide⟩

theorem th1 (p t : F) (h : nan p) : Err .th (Fn.detect .th p t) := by
  have h' := L.add_left (b := 273.15) h
  simp only [Fn.detect, th_sub_region, L.lt_left h', L.lt_right h', L.le_left h', L.le_right h', 
    Bool.false_or, Bool.and_false, Bool.false_and,
    if_false, Bool.false_eq_true, ite_self, Option.getD_none]
  exact ⟨_, rfl, by decide⟩

theorem th2 (p t : F) (h : nan t) : Err .th (Fn.detect .th p t) := by
  simp only [Fn.detect, th_sub_region, L.lt_left h, L.lt_right h, L.le_left h, L.le_right h, 
    Bool.false_or, Bool.and_false, Bool.false_and,
    if_false, Bool.false_eq_true, ite_self, Option.getD_none]
  exact ⟨_, rfl, by decide⟩

theorem ts1 (p t : F) (h : nan p) : Err .ts (Fn.detect .ts p t) := by
  have h' := L.add_left (b := 273.15) h
  simp only [Fn.detect, ts_sub_region, L.lt_left h', L.lt_right h', L.le_left h', L.le_right h', 
    Bool.false_or, Bool.and_false, Bool.false_and,
    if_false, Bool.false_eq_true, ite_self, Option.getD_none]
  split
  · exact ⟨_, rfl, by decide⟩
  · exact ⟨_, rfl, by decide⟩

theorem ts2 (p t : F) (h : nan t) : Err .ts (Fn.detect .ts p t) := by
  simp only [Fn.detect, ts_sub_region, L.lt_left h, L.lt_right h, L.le_left h, L.le_right h, 
    Bool.false_or, Bool.and_false, Bool.false_and,
    if_false, Bool.false_eq_true, ite_self, Option.getD_none]
  split
  · exact ⟨_, rfl, by decide⟩
  · exact ⟨_, rfl, by decide⟩
end C08

/-- If either input is NaN the region detector returns an error code. -/
theorem C08_detect {nan : F → Prop} (L : NanLaws nan) (f : Fn) (a b : F) (h : nan a ∨ nan b) :
    ∃ r, f.detect a b = some r ∧ r ∈ f.errors := by
  rcases h with h | h <;> cases f
  · exact C08.pt1 L a b h
  · exact C08.ph1 L a b h
  · exact C08.ps1 L a b h
  · exact C08.hs1 L a b h
  · exact C08.pv1 L a b h
  · exact C08.tv1 L a b h
  · exact C08.th1 L a b h
  · exact C08.ts1 L a b h
  · exact C08.pt2 L a b h
  · exact C08.ph2 L a b h
  · exact C08.ps2 L a b h
  · exact C08.hs2 L a b h
  · exact C08.pv2 L a b h
  · exact C08.tv2 L a b h
  · exact C08.th2 L a b h
  · exact C08.ts2 L a b h

/-- So every call with a NaN input (and no explicit region) that does not ask for an input back
returns a negative error code. -/
theorem C08_call {nan : F → Prop} (L : NanLaws nan) (f : Fn) (a b : F) (o : Int) (h : nan a ∨ nan b)
    (he : ¬ f.Echo o) : ∃ c : Int, c < 0 ∧ f.call0 a b o = some (Flt.ofInt c) := by
  obtain ⟨r, hr, hm⟩ := C08_detect L f a b h
  have neg : ∀ c ∈ f.errors, c < 0 := by cases f <;> decide
  have hc : r ∉ [1, 2, 3, 4, 5] := by
    intro hc
    have := neg r hm
    simp only [List.mem_cons, List.not_mem_nil, or_false] at hc
    omega
  refine ⟨_, ?_, C07_error_code f a b r o hr hc he⟩
  split
  · decide
  · exact neg r hm

/-! A number type with NaN that meets the laws: the reals with one extra value. -/
namespace C08

/-- the reals with a NaN -/
def NR := Option ℝ

private noncomputable def lift2 (f : ℝ → ℝ → ℝ) (a b : NR) : NR := match a, b with
  | some x, some y => some (f x y)
  | _, _ => none
private noncomputable def cmp2 (f : ℝ → ℝ → Bool) (a b : NR) : Bool := match a, b with
  | some x, some y => f x y
  | _, _ => false

noncomputable instance : Add NR := ⟨lift2 (· + ·)⟩
noncomputable instance : Sub NR := ⟨lift2 (· - ·)⟩
noncomputable instance : Mul NR := ⟨lift2 (· * ·)⟩
noncomputable instance : Div NR := ⟨fun a b => match a, b with
  | some x, some y => if y = 0 then none else some (x / y)
  | _, _ => none⟩
noncomputable instance : Neg NR := ⟨Option.map (- ·)⟩
noncomputable instance : OfScientific NR := ⟨fun m s e => some (OfScientific.ofScientific m s e)⟩
noncomputable instance : Flt NR where
  lt := cmp2 Flt.lt
  le := cmp2 Flt.le
  eq := cmp2 Flt.eq
  abs := Option.map Flt.abs
  exp := Option.map Flt.exp
  ln := Option.map Flt.ln
  sqrt := Option.map Flt.sqrt
  powi a n := a.map (Flt.powi · n)
  powf := lift2 Flt.powf
  ofInt n := some (Flt.ofInt n)

theorem nr_laws : NanLaws (F := NR) (fun a => a = none) where
  lt_left := by intro a b h; subst h; rfl
  lt_right := by intro a b h; subst h; cases a <;> rfl
  le_left := by intro a b h; subst h; rfl
  le_right := by intro a b h; subst h; cases a <;> rfl
  eq_left := by intro a b h; subst h; rfl
  add_left := by intro a b h; subst h; rfl
  sub_left := by intro a b h; subst h; rfl
  div_left := by intro a b h; subst h; rfl
  abs := by intro a h; subst h; rfl

/-- `pt(NaN, 20 °C, OH)` is an error code -/
example : ∃ c : Int, c < 0 ∧ Fn.pt.call0 (F := NR) none (some 20) Doc.idH = some (Flt.ofInt c) :=
  C08_call (F := NR) nr_laws .pt none (some 20) Doc.idH (Or.inl rfl) (by decide)
end C08

end If97
