import Verif.Lemmas.Tm.Back2s
import Verif.Props.C47

/-!
# C53 Steam: the equation T(p, s) inverts the basic equation

Exact arithmetic.  Take any state (p, t) of region 2, ask `pt` for its entropy s and hand the pair (p, s)
back: `ps` returns the temperature to within 25 mK, and to within 10 mK up to 4 MPa (subregion 2a) and for
s ≥ 5.85 kJ/(kg K) (subregion 2b).  These are the numerical consistencies that IF97 states for the
subregions.  With the region detected by `ps` itself the states between the two published forms of the
boundary B23 (1e-9 K apart) are excluded, as in C47.

The bound is proved for every real p and t of the region by subdividing the region in coordinates that
follow its boundary and the isentrope 5.85, and enclosing T(p, s(p, T)) - T by verified Taylor models; the
logarithm in the entropy is a Taylor model too (`Lemmas/Tm/Log.lean`).
-/

namespace If97
open Domain

variable {p t : ℝ} (hp : PressureOk p (t + 273.15)) (ht : TemperatureOk (t + 273.15)) (h : Region p (t + 273.15) 2)
include hp ht h

/-- (p, s), region given -/
theorem C53_ps_region : ∃ y t', Fn.pt.call p t Doc.idS 2 = some y ∧ Fn.ps.call p y Doc.idT 2 = some t' ∧
    |t' - t| ≤ 0.025 ∧ (p ≤ 4 ∨ 5.85 ≤ y → |t' - t| ≤ 0.01) := by
  have hr : GibbsRegion 2 := .inr (.inl rfl)
  have hi := inRange_of_region hr hp ht h
  refine ⟨_, _, congrArg some (val_S hr hi.regular), rfl, ?_⟩
  have := Tm.ps2_back hi hp.1
  show |ps2T_reg2 p (G2.S p (t + 273.15)) - 273.15 - t| ≤ 0.025 ∧
    (_ → |ps2T_reg2 p (G2.S p (t + 273.15)) - 273.15 - t| ≤ 0.01)
  rwa [sub_sub, add_comm (273.15 : ℝ)]

/-- (p, s), region detected -/
theorem C53_ps (hg : ¬ Gap p (t + 273.15)) (hB : 623.15 < t + 273.15 → t + 273.15 ≤ 863.15 → TB23 p ≤ t + 273.15) :
    ∃ y t', Fn.pt.call0 p t Doc.idS = some y ∧ Fn.ps.call0 p y Doc.idT = some t' ∧ |t' - t| ≤ 0.025 ∧
    (p ≤ 4 ∨ 5.85 ≤ y → |t' - t| ≤ 0.01) := by
  have hr : GibbsRegion 2 := .inr (.inl rfl)
  have hi := inRange_of_region hr hp ht h
  obtain ⟨y, t', e1, e2, e3⟩ := C53_ps_region hp ht h
  obtain ⟨-, -, e4, -⟩ := pt0 hr hp ht h hg
  have e5 : Fn.pt.call p t Doc.idS 2 = some (G2.S p (t + 273.15)) := congrArg some (val_S hr hi.regular)
  rw [e1, Option.some_inj] at e5
  refine ⟨y, t', e5 ▸ e4, ?_, e3⟩
  obtain ⟨y', f1, -, f2⟩ := C47_ps 2 (.inr rfl) p t hp ht h hg fun _ => hB
  rw [f1, Option.some_inj] at e4
  rw [← C02_region_consistent Fn.ps p y Doc.idT 2 (by decide), e2]
  have : Fn.ps.call0 p y' Doc.idR = some ((ps_sub_region p y' : Int) : ℝ) := rfl
  rw [this, Option.some_inj, Int.cast_inj] at f2
  rw [e5]
  exact congrArg some (e4 ▸ f2)

omit hp ht h

/-- steam at 50 MPa and 700 °C -/
example : ∃ y t', Fn.pt.call0 (50 : ℝ) 700 Doc.idS = some y ∧ Fn.ps.call0 50 y Doc.idT = some t' ∧ |t' - 700| ≤ 0.025 := by
  have h : Region 50 (700 + 273.15) 2 := .r2_hot (by norm_num) (by norm_num)
  obtain ⟨y, t', a, b, c, -⟩ := C53_ps (p := 50) (t := 700) ⟨by norm_num [pMin], by norm_num, fun _ => le_rfl⟩
    ⟨by norm_num, by norm_num⟩ h (fun g => absurd g.2.1 (by norm_num)) (fun _ k => absurd k (by norm_num))
  exact ⟨y, t', a, b, c⟩

end If97
