import Verif.Props.C44

/-!
# C23 Kinematic viscosity is dynamic viscosity over density

Regions 1, 2 and 5: proved, for `pt` with any number type, for the other functions in exact
arithmetic.  `tv` in regions 1 and 5 is left out: its density is 1/v of the input volume while the
viscosities use the density of the state found by iteration.  Region 3: the code multiplies instead
of dividing; proved for all functions, with the consequence that the property fails for every
volume other than 1 m³/kg.
-/

namespace If97
section
variable {F : Type} [Add F] [Sub F] [Mul F] [Div F] [Neg F] [OfScientific F] [Flt F]

/-- `pt`, any number type. -/
theorem C23_pt (r : Int) (hr : GibbsRegion r) (p t : F) :
    ∃ dv d, Fn.pt.call p t Doc.idDv r = some dv ∧ Fn.pt.call p t Doc.idD r = some d ∧
      Fn.pt.call p t Doc.idKv r = some (dv / d) := by
  rcases hr with rfl | rfl | rfl <;> exact ⟨_, _, rfl, rfl, rfl⟩

/-- `tv` in region 3, any number type: the product. -/
theorem C23_region3_tv (t v : F) :
    ∃ dv d, Fn.tv.call t v Doc.idDv 3 = some dv ∧ Fn.tv.call t v Doc.idD 3 = some d ∧
      Fn.tv.call t v Doc.idKv 3 = some (d * dv) := ⟨_, _, rfl, rfl, rfl⟩
end

/-- All functions, regions 1, 2, 5 (except `tv` in regions 1 and 5). -/
theorem C23_gibbs_partial (f : Fn) (r : Int) (hr : GibbsRegion r) (hf : f = .tv → r = 2) (a b : ℝ) :
    ∃ dv d, f.call a b Doc.idDv r = some dv ∧ f.call a b Doc.idD r = some d ∧
      f.call a b Doc.idKv r = some (dv / d) := by
  obtain ⟨p, t, h⟩ := C46_gibbs f r hr a b
  rw [h _ (f.not_given_D r hf), h _ (f.not_given r _ (by decide)), h _ (f.not_given r _ (by decide))]
  exact C23_pt r hr p t

/-- All functions, region 3: the product. -/
theorem C23_region3_actual (f : Fn) (a b : ℝ) :
    ∃ dv d, f.call a b Doc.idDv 3 = some dv ∧ f.call a b Doc.idD 3 = some d ∧
      f.call a b Doc.idKv 3 = some (d * dv) := by
  obtain ⟨t, v, h⟩ := C46_region3 f a b
  rw [h _ f.not_given3_D, h _ (f.not_given3 _ (by decide)), h _ (f.not_given3 _ (by decide))]
  exact C23_region3_tv t v

/-- Region 3: the property fails for every t ≥ 0 and every positive volume other than 1. -/
theorem C23_region3_violated (t v : ℝ) (ht : 0 ≤ t) (hv : 0 < v) (h1 : v ≠ 1) :
    ∃ dv d kv, Fn.tv.call t v Doc.idDv 3 = some dv ∧ Fn.tv.call t v Doc.idD 3 = some d ∧
      Fn.tv.call t v Doc.idKv 3 = some kv ∧ kv ≠ dv / d := by
  refine ⟨_, _, _, rfl, rfl, rfl, ?_⟩
  show (1.0 / v) * viscosity (1.0 / v) (t + 273.15) ≠ viscosity (1.0 / v) (t + 273.15) / (1.0 / v)
  have hp := C44_viscosity (1.0 / v) (t + 273.15) (by linarith)
  generalize viscosity (1.0 / v) (t + 273.15) = x at *
  intro h
  norm_num at h
  field_simp at h
  rcases lt_or_gt_of_ne h1 with h2 | h2 <;> nlinarith

/-- Concrete states: `pt(3 MPa, 26.85 °C)` in region 1, `tv(376.85 °C, 0.002)` in region 3. -/
example : ∃ dv d, Fn.ph.call (3 : ℝ) 500 Doc.idDv 1 = some dv ∧ Fn.ph.call (3 : ℝ) 500 Doc.idD 1 = some d ∧
    Fn.ph.call (3 : ℝ) 500 Doc.idKv 1 = some (dv / d) := C23_gibbs_partial .ph 1 (.inl rfl) (by simp) 3 500
example : ∃ dv d kv, Fn.tv.call (376.85 : ℝ) 0.002 Doc.idDv 3 = some dv ∧ Fn.tv.call (376.85 : ℝ) 0.002 Doc.idD 3 = some d ∧
    Fn.tv.call (376.85 : ℝ) 0.002 Doc.idKv 3 = some kv ∧ kv ≠ dv / d :=
  C23_region3_violated _ _ (by norm_num) (by norm_num) (by norm_num)

end If97
