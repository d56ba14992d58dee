import Verif.Lemmas.Tm.Back1
import Verif.Props.C47

/-!
# C50 Liquid water: the backward equations invert the basic equation

Exact arithmetic.  Take any state (p, t) of region 1, ask `pt` for its enthalpy h and entropy s, and hand
the pair back: `ph` and `ps` return the temperature to within 25 mK, `hs` the pressure to within 15 kPa and
the temperature to within 25 mK.  These are the numerical consistencies that IF97 states for the backward
equations (25 mK; 15 kPa is the value for p > 2.5 MPa and the uniform consequence of 0.6 % below).

The bound is proved for every real p and t of the region by subdividing the region and enclosing
T(p, h(p, T)) - T by verified Taylor models (`Lemmas/Taylor.lean`, `Lemmas/Tm/`).
-/

namespace If97
open Domain

private theorem notGap {p T : ℝ} (h : Region p T 1) (ht : TemperatureOk T) : ¬ Gap p T := by
  rintro ⟨-, h1, -, ps, hs, hlt⟩
  cases h with
  | r1 a b c d =>
    have m : T ∈ Set.Icc (273.15 : ℝ) 647.096 := ⟨ht.1, by norm_num at *; linarith⟩
    have e1 := IsSat.eq m hs
    have e2 := IsSat.eq m b
    rw [e2] at c; rw [e1] at hlt
    linarith

variable {p t : ℝ} (hp : PressureOk p (t + 273.15)) (ht : TemperatureOk (t + 273.15)) (h : Region p (t + 273.15) 1)
include hp ht h

private theorem pt1 : Fn.pt.call p t Doc.idH 1 = some (G1.H p (t + 273.15)) ∧
    Fn.pt.call p t Doc.idS 1 = some (G1.S p (t + 273.15)) ∧
    Fn.pt.call0 p t Doc.idH = some (G1.H p (t + 273.15)) ∧ Fn.pt.call0 p t Doc.idS = some (G1.S p (t + 273.15)) := by
  have hr : GibbsRegion 1 := .inl rfl
  have hi := inRange_of_region hr hp ht h
  obtain ⟨-, e1, e2, -⟩ := pt0 hr hp ht h (notGap h ht)
  exact ⟨congrArg some (val_H hr hi.regular), congrArg some (val_S hr hi.regular), e1, e2⟩

/-- (p, h), region given -/
theorem C50_ph_region : ∃ y t', Fn.pt.call p t Doc.idH 1 = some y ∧ Fn.ph.call p y Doc.idT 1 = some t' ∧
    |t' - t| ≤ 0.025 := by
  have hi := inRange_of_region (.inl rfl) hp ht h
  refine ⟨_, _, (pt1 hp ht h).1, rfl, ?_⟩
  have := Tm.ph1_back hi
  show |ph2T_reg1 p (G1.H p (t + 273.15)) - 273.15 - t| ≤ 0.025
  rwa [sub_sub, add_comm (273.15 : ℝ)]

/-- (p, h), region detected -/
theorem C50_ph : ∃ y t', Fn.pt.call0 p t Doc.idH = some y ∧ Fn.ph.call0 p y Doc.idT = some t' ∧ |t' - t| ≤ 0.025 := by
  obtain ⟨y, t', e1, e2, e3⟩ := C50_ph_region hp ht h
  have e4 := (pt1 hp ht h).2.2.1
  have e5 := e1.symm.trans (pt1 hp ht h).1
  rw [Option.some_inj] at e5
  refine ⟨y, t', e5 ▸ e4, ?_, e3⟩
  obtain ⟨y', f1, -, f2⟩ := C47_ph 1 (.inl rfl) p t hp ht h (notGap h ht) fun e => absurd e (by decide)
  rw [f1, Option.some_inj] at e4
  rw [← C02_region_consistent Fn.ph p y Doc.idT 1 (by decide), e2]
  have : Fn.ph.call0 p y' Doc.idR = some ((ph_sub_region p y' : Int) : ℝ) := rfl
  rw [this, Option.some_inj, Int.cast_inj] at f2
  rw [e5, ← e4]
  exact congrArg some f2

/-- (p, s), region given -/
theorem C50_ps_region : ∃ y t', Fn.pt.call p t Doc.idS 1 = some y ∧ Fn.ps.call p y Doc.idT 1 = some t' ∧
    |t' - t| ≤ 0.025 := by
  have hi := inRange_of_region (.inl rfl) hp ht h
  refine ⟨_, _, (pt1 hp ht h).2.1, rfl, ?_⟩
  have := Tm.ps1_back hi
  show |ps2T_reg1 p (G1.S p (t + 273.15)) - 273.15 - t| ≤ 0.025
  rwa [sub_sub, add_comm (273.15 : ℝ)]

/-- (p, s), region detected -/
theorem C50_ps : ∃ y t', Fn.pt.call0 p t Doc.idS = some y ∧ Fn.ps.call0 p y Doc.idT = some t' ∧ |t' - t| ≤ 0.025 := by
  obtain ⟨y, t', e1, e2, e3⟩ := C50_ps_region hp ht h
  have e4 := (pt1 hp ht h).2.2.2
  have e5 := e1.symm.trans (pt1 hp ht h).2.1
  rw [Option.some_inj] at e5
  refine ⟨y, t', e5 ▸ e4, ?_, e3⟩
  obtain ⟨y', f1, -, f2⟩ := C47_ps 1 (.inl rfl) p t hp ht h (notGap h ht) fun e => absurd e (by decide)
  rw [f1, Option.some_inj] at e4
  rw [← C02_region_consistent Fn.ps p y Doc.idT 1 (by decide), e2]
  have : Fn.ps.call0 p y' Doc.idR = some ((ps_sub_region p y' : Int) : ℝ) := rfl
  rw [this, Option.some_inj, Int.cast_inj] at f2
  rw [e5, ← e4]
  exact congrArg some f2

/-- (h, s), region given -/
theorem C50_hs_region : ∃ y z p' t', Fn.pt.call p t Doc.idH 1 = some y ∧ Fn.pt.call p t Doc.idS 1 = some z ∧
    Fn.hs.call y z Doc.idP 1 = some p' ∧ Fn.hs.call y z Doc.idT 1 = some t' ∧ |p' - p| ≤ 0.015 ∧ |t' - t| ≤ 0.025 := by
  have hi := inRange_of_region (.inl rfl) hp ht h
  have := Tm.hs1_back hi
  refine ⟨_, _, _, _, (pt1 hp ht h).1, (pt1 hp ht h).2.1, rfl, rfl, this.1, ?_⟩
  show |ph2T_reg1 (hs2p_reg1 (G1.H p (t + 273.15)) (G1.S p (t + 273.15))) (G1.H p (t + 273.15)) - 273.15 - t| ≤ 0.025
  rw [sub_sub, add_comm (273.15 : ℝ)]
  exact this.2

omit hp ht h

/-- water at 1 MPa and 5 °C -/
example : ∃ y t', Fn.pt.call0 (1 : ℝ) 5 Doc.idH = some y ∧ Fn.ph.call0 1 y Doc.idT = some t' ∧ |t' - 5| ≤ 0.025 := by
  obtain ⟨hp, ht, h, -⟩ := cold (p := 1) (t := 5) le_rfl (by norm_num) (by norm_num) (by norm_num)
  exact C50_ph hp ht h

end If97
