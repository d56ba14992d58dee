import Verif.Lemmas.Tm.Back2
import Verif.Props.C47

/-!
# C51 Steam: the equation T(p, h) inverts the basic equation

Exact arithmetic.  Take any state (p, t) of region 2, ask `pt` for its enthalpy h and hand the pair (p, h)
back: `ph` returns the temperature to within 25 mK, and to within 10 mK up to 4 MPa (subregion 2a) and above
the boundary h2bc(p) (subregion 2b).  These are the numerical consistencies that IF97 states for the
subregions.  With the region detected by `ph` itself the states between the two published forms of the
boundary B23 (1e-9 K apart) are excluded, as in C47.

The bound is proved for every real p and t of the region by subdividing the region in coordinates that
follow its boundary and enclosing T(p, h(p, T)) - T by verified Taylor models (`Lemmas/Tm/`).

For 4 MPa < p < 4.5258 MPa the code takes the square root of a negative number: NaN in floating point, so
that the comparison fails and 2b is selected; 0 in the model, so that 2b is selected for h ≥ 2652.66 kJ/kg.
The steam of region 2 has larger enthalpies there (the least is about 2798 kJ/kg).
-/

namespace If97
open Domain

variable {p t : ℝ} (hp : PressureOk p (t + 273.15)) (ht : TemperatureOk (t + 273.15)) (h : Region p (t + 273.15) 2)
include hp ht h

/-- (p, h), region given -/
theorem C51_ph_region : ∃ y t', Fn.pt.call p t Doc.idH 2 = some y ∧ Fn.ph.call p y Doc.idT 2 = some t' ∧
    |t' - t| ≤ 0.025 ∧
    (p ≤ 4 ∨ 2652.6571908428 + Real.sqrt ((p - 4.5257578905948) / 0.00012809002730136) ≤ y → |t' - t| ≤ 0.01) := by
  have hr : GibbsRegion 2 := .inr (.inl rfl)
  have hi := inRange_of_region hr hp ht h
  refine ⟨_, _, congrArg some (val_H hr hi.regular), rfl, ?_⟩
  have := Tm.ph2_back hi hp.1
  rw [Tm.h2bc_eq] at this
  show |ph2T_reg2 p (G2.H p (t + 273.15)) - 273.15 - t| ≤ 0.025 ∧
    (_ → |ph2T_reg2 p (G2.H p (t + 273.15)) - 273.15 - t| ≤ 0.01)
  rwa [sub_sub, add_comm (273.15 : ℝ)]

/-- (p, h), region detected -/
theorem C51_ph (hg : ¬ Gap p (t + 273.15)) (hB : 623.15 < t + 273.15 → t + 273.15 ≤ 863.15 → TB23 p ≤ t + 273.15) :
    ∃ y t', Fn.pt.call0 p t Doc.idH = some y ∧ Fn.ph.call0 p y Doc.idT = some t' ∧ |t' - t| ≤ 0.025 ∧
    (p ≤ 4 ∨ 2652.6571908428 + Real.sqrt ((p - 4.5257578905948) / 0.00012809002730136) ≤ y → |t' - t| ≤ 0.01) := by
  have hr : GibbsRegion 2 := .inr (.inl rfl)
  have hi := inRange_of_region hr hp ht h
  obtain ⟨y, t', e1, e2, e3⟩ := C51_ph_region hp ht h
  obtain ⟨-, e4, -, -⟩ := pt0 hr hp ht h hg
  have e5 : Fn.pt.call p t Doc.idH 2 = some (G2.H p (t + 273.15)) := congrArg some (val_H hr hi.regular)
  rw [e1, Option.some_inj] at e5
  refine ⟨y, t', e5 ▸ e4, ?_, e3⟩
  obtain ⟨y', f1, -, f2⟩ := C47_ph 2 (.inr rfl) p t hp ht h hg fun _ => hB
  rw [f1, Option.some_inj] at e4
  rw [← C02_region_consistent Fn.ph p y Doc.idT 2 (by decide), e2]
  have : Fn.ph.call0 p y' Doc.idR = some ((ph_sub_region p y' : Int) : ℝ) := rfl
  rw [this, Option.some_inj, Int.cast_inj] at f2
  rw [e5]
  exact congrArg some (e4 ▸ f2)

omit hp ht h

/-- steam at 50 MPa and 700 °C -/
example : ∃ y t', Fn.pt.call0 (50 : ℝ) 700 Doc.idH = some y ∧ Fn.ph.call0 50 y Doc.idT = some t' ∧ |t' - 700| ≤ 0.025 := by
  have h : Region 50 (700 + 273.15) 2 := .r2_hot (by norm_num) (by norm_num)
  obtain ⟨y, t', a, b, c, -⟩ := C51_ph (p := 50) (t := 700) ⟨by norm_num [pMin], by norm_num, fun _ => le_rfl⟩
    ⟨by norm_num, by norm_num⟩ h (fun g => absurd g.2.1 (by norm_num)) (fun _ k => absurd k (by norm_num))
  exact ⟨y, t', a, b, c⟩

end If97
