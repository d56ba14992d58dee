import Verif.Spec.PairFn
import Verif.Inst.Real

/-!
# C01 Input echo

Asking a pair function for one of its own inputs returns that input unchanged,
for every number type (so bit for bit on f64, NaN included), every region argument
and every state, valid or not.
-/

namespace If97
variable {F : Type} [Add F] [Sub F] [Mul F] [Div F] [Neg F] [OfScientific F] [Flt F]

/-- The eight functions with region detection echo both inputs, whatever the region argument. -/
theorem C01_echo (f : Fn) (a b : F) (r : Int) :
    f.call a b f.id1 r = some a ∧ f.call a b f.id2 r = some b := by
  cases f <;> exact ⟨rfl, rfl⟩

/-- The same without a region argument. -/
theorem C01_echo0 (f : Fn) (a b : F) :
    f.call0 a b f.id1 = some a ∧ f.call0 a b f.id2 = some b := by
  cases f <;> exact ⟨rfl, rfl⟩

/-- `tx` echoes both inputs, even outside its range. -/
theorem C01_echo_tx (t x : F) :
    FnX.tx.call t x Doc.idT = some t ∧ FnX.tx.call t x Doc.idX = some x := ⟨rfl, rfl⟩

/-- `px`, `hx` and `sx` echo both inputs unless one of the four range tests
(with the documented limits) rejects them. -/
theorem C01_echo_px (p x : F) (h1 : (p >. 22.064) = false) (h2 : (p <. 0.000611212677444) = false)
    (h3 : (x >. 1.0) = false) (h4 : (x <. 0.0) = false) :
    FnX.px.call p x Doc.idP = some p ∧ FnX.px.call p x Doc.idX = some x := by
  simp [FnX.call, Rust.px, P_MAX4, P_MIN4, h1, h2, h3, h4, OP, OX]

theorem C01_echo_hx (h x : F) (h1 : (h >. 2803.2738880203456) = false)
    (h2 : (h <. 0.38039218566765925) = false) (h3 : (x >. 1.0) = false) (h4 : (x <. 0.0) = false) :
    FnX.hx.call h x Doc.idH = some h ∧ FnX.hx.call h x Doc.idX = some x := by
  simp [FnX.call, Rust.hx, H_MAX4, H_MIN4, h1, h2, h3, h4, OH, OX]

theorem C01_echo_sx (s x : F) (h1 : (s >. 9.153081306725117) = false)
    (h2 : (s <. 0.33567511183921145) = false) (h3 : (x >. 1.0) = false) (h4 : (x <. 0.0) = false) :
    FnX.sx.call s x Doc.idS = some s ∧ FnX.sx.call s x Doc.idX = some x := by
  simp [FnX.call, Rust.sx, S_MAX4, S_MIN4, h1, h2, h3, h4, OS, OX]

/-- The hypotheses of the three guarded theorems are met, e.g. 1 MPa, 1000 kJ/kg, 4 kJ/(kg K), x = 0.3. -/
example : FnX.px.call (1.0 : ℝ) 0.3 Doc.idX = some 0.3 ∧ FnX.hx.call (1000.0 : ℝ) 0.3 Doc.idX = some 0.3 ∧
    FnX.sx.call (4.0 : ℝ) 0.3 Doc.idX = some 0.3 :=
  ⟨(C01_echo_px _ _ (by norm_num) (by norm_num) (by norm_num) (by norm_num)).2,
   (C01_echo_hx _ _ (by norm_num) (by norm_num) (by norm_num) (by norm_num)).2,
   (C01_echo_sx _ _ (by norm_num) (by norm_num) (by norm_num) (by norm_num)).2⟩

end If97
