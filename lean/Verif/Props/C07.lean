import Verif.Props.C06

/-!
# C07 Invalid states propagate their error code
-/

namespace If97
variable {F : Type} [Add F] [Sub F] [Mul F] [Div F] [Neg F] [OfScientific F] [Flt F]

/-- If detection does not yield a region, every identifier other than the inputs and `OX`
returns exactly the code, and `OX` returns -9999. -/
theorem C07_error_code (f : Fn) (a b : F) (c o : Int) (hd : f.detect a b = some c)
    (hc : c ∉ [1, 2, 3, 4, 5]) (he : ¬ f.Echo o) :
    f.call0 a b o = some (Flt.ofInt (if o = Doc.idX then Doc.errValue else c)) := by
  simp only [List.mem_cons, List.not_mem_nil, or_false, not_or] at hc
  obtain ⟨h1, h2, h3, h4, h5⟩ := hc
  simp only [Fn.Echo, not_or] at he
  by_cases hR : o = 16 <;> by_cases hX : o = 15 <;> cases f <;>
    simp_all [Fn.call0, Fn.rust, Fn.id1, Fn.id2, OIdRegionArgs.ofId, o_id_reg_info, Fn.detect,
      Rust.pt, Rust.ph, Rust.ps, Rust.hs, Rust.pv, Rust.tv, Rust.th, Rust.ts, OP, OT, OH, OS, OV, OR, OX,
      pair_properties, REGION_NONE, liftP, liftR, INVALID_VALUE]

/-- In that case the code is one of the documented (negative) error codes of the function. -/
theorem C07_error_documented (f : Fn) (a b : F) (c : Int) (hd : f.detect a b = some c)
    (hc : c ∉ [1, 2, 3, 4, 5]) : c ∈ f.errors ∧ c < 0 := by
  have h := (C06_closed f a b c hd).resolve_left hc
  have neg : ∀ c ∈ f.errors, c < 0 := by cases f <;> decide
  exact ⟨h, neg c h⟩

/-- A pressure above 100 MPa is such a state: `pt` answers -2100 for the enthalpy and -9999 for `OX`. -/
example : Fn.pt.call0 (101 : ℝ) 20 Doc.idH = some (-2100) ∧ Fn.pt.call0 (101 : ℝ) 20 Doc.idX = some (-9999) := by
  have hd : Fn.pt.detect (101 : ℝ) 20 = some (-2100) := by
    have : pT_sub_region (101 : ℝ) (20 + 273.15) = -2100 := by
      unfold pT_sub_region
      rw [if_pos (by norm_num)]; rfl
    simp [Fn.detect, this]
  constructor
  · rw [C07_error_code .pt _ _ _ _ hd (by decide) (by decide)]; simp
  · rw [C07_error_code .pt _ _ _ _ hd (by decide) (by decide)]; simp

end If97
