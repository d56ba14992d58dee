import Verif.Lemmas.Stability
import Verif.Props.C02
import Verif.Props.C05

/-!
# C42 Stability of the returned states

Exact arithmetic, regions 1, 2, 5, every state of the region (`Domain.Region`, written from the release).
The inequalities between the large polynomials are decided by interval subdivision, evaluated by the
kernel (Lemmas/Interval.lean).  Region 3 is in C55; there `pt` does return negative volumes
(`C36_negative_volume`).
-/

namespace If97
open Domain Set

/-- OV > 0, OCP > 0 and OKT > 0 everywhere on regions 1, 2, 5. -/
theorem C42_positive (r : Int) (hr : GibbsRegion r) (p t : ℝ) (hp : PressureOk p (t + 273.15))
    (ht : TemperatureOk (t + 273.15)) (h : Region p (t + 273.15) r) :
    0 < valPT r Doc.idV p t ∧ 0 < valPT r Doc.idCp p t ∧ 0 < valPT r Doc.idKt p t := by
  have hi := inRange_of_region hr hp ht h
  obtain ⟨h1, h2, h3⟩ := hi.stable
  rw [val_V hr hi.regular, val_Cp hr hi.regular, val_Kt hr hi.regular]
  exact ⟨h1, h2, div_pos (by linarith) h1⟩

/-- The same for the call without a region, which detects it (the gap of C05, where the detection
fails, is excluded). -/
theorem C42_positive_auto (r : Int) (hr : GibbsRegion r) (p t : ℝ) (hp : PressureOk p (t + 273.15))
    (ht : TemperatureOk (t + 273.15)) (h : Region p (t + 273.15) r) (hg : ¬ Gap p (t + 273.15)) :
    ∃ v cp kt : ℝ, Fn.pt.call0 p t Doc.idV = some v ∧ Fn.pt.call0 p t Doc.idCp = some cp ∧
      Fn.pt.call0 p t Doc.idKt = some kt ∧ 0 < v ∧ 0 < cp ∧ 0 < kt := by
  have hd : Fn.pt.detect p t = some r := by
    have := (C05_map_partial p t hp ht hg r).2 h
    have e : Fn.pt.call0 p t Doc.idR = some ((pT_sub_region p (t + 273.15) : Int) : ℝ) := rfl
    rw [e, Option.some_inj, Int.cast_inj] at this
    exact congrArg some this
  have h15 : 1 ≤ r ∧ r ≤ 5 := by rcases hr with rfl | rfl | rfl <;> decide
  have key : ∀ o, o = Doc.idV ∨ o = Doc.idCp ∨ o = Doc.idKt → Fn.pt.call0 p t o = some (valPT r o p t) := by
    intro o ho
    rw [← C02_region_consistent Fn.pt p t o r h15 hd]
    rcases ho with rfl | rfl | rfl <;> rcases hr with rfl | rfl | rfl <;> rfl
  obtain ⟨h1, h2, h3⟩ := C42_positive r hr p t hp ht h
  exact ⟨_, _, _, key _ (.inl rfl), key _ (.inr (.inl rfl)), key _ (.inr (.inr rfl)), h1, h2, h3⟩

/-- At a given pressure enthalpy and entropy increase with temperature inside a region, so (p,h) and
(p,s) determine the state of the region. -/
theorem C42_isobar (r : Int) (hr : GibbsRegion r) (p t t' : ℝ) (h1 : PressureOk p (t + 273.15))
    (h2 : TemperatureOk (t + 273.15)) (h3 : Region p (t + 273.15) r) (h1' : PressureOk p (t' + 273.15))
    (h2' : TemperatureOk (t' + 273.15)) (h3' : Region p (t' + 273.15) r) (hlt : t < t') :
    valPT r Doc.idH p t < valPT r Doc.idH p t' ∧ valPT r Doc.idS p t < valPT r Doc.idS p t' := by
  have hi := inRange_of_region hr h1 h2 h3
  have hi' := inRange_of_region hr h1' h2' h3'
  rw [val_H hr hi.regular, val_H hr hi'.regular, val_S hr hi.regular, val_S hr hi'.regular]
  exact ⟨hi.H_lt hi' (by linarith), hi.S_lt hi' (by linarith)⟩

/-- At a given temperature volume decreases with pressure inside a region, so (T,v) determines the
state of the region. -/
theorem C42_isotherm (r : Int) (hr : GibbsRegion r) (p p' t : ℝ) (h1 : PressureOk p (t + 273.15))
    (h2 : TemperatureOk (t + 273.15)) (h3 : Region p (t + 273.15) r) (h1' : PressureOk p' (t + 273.15))
    (h3' : Region p' (t + 273.15) r) (hlt : p < p') : valPT r Doc.idV p' t < valPT r Doc.idV p t := by
  have hi := inRange_of_region hr h1 h2 h3
  have hi' := inRange_of_region hr h1' h2 h3'
  rw [val_V hr hi.regular, val_V hr hi'.regular]
  exact hi.V_lt hi' hlt

/-- Steam (regions 2 and 5) and water from 5 °C on expand on heating, and their entropy decreases with
pressure, so (p,v) and (T,s) determine the state. -/
theorem C42_expansion (r : Int) (hr : GibbsRegion r) (p t : ℝ) (h1 : PressureOk p (t + 273.15))
    (h2 : TemperatureOk (t + 273.15)) (h3 : Region p (t + 273.15) r) (h5 : r = 1 → 5 ≤ t) :
    (∀ t', TemperatureOk (t' + 273.15) → PressureOk p (t' + 273.15) → Region p (t' + 273.15) r → t < t' →
      valPT r Doc.idV p t < valPT r Doc.idV p t') ∧
    (∀ p', PressureOk p' (t + 273.15) → Region p' (t + 273.15) r → p < p' → valPT r Doc.idS p' t < valPT r Doc.idS p t) := by
  have hi := inRange_of_region hr h1 h2 h3
  have h5' : r = 1 → 278.15 ≤ t + 273.15 := fun e => by have := h5 e; norm_num at *; linarith
  constructor
  · intro t' a b c hlt
    have hi' := inRange_of_region hr b a c
    rw [val_V hr hi.regular, val_V hr hi'.regular]
    exact hi.V_lt_T hi' h5' (by linarith)
  · intro p' b c hlt
    have hi' := inRange_of_region hr b h2 c
    rw [val_S hr hi.regular, val_S hr hi'.regular]
    exact hi.S_lt_p hi' h5' hlt

/-- (p,h) and (p,s) inversion inside a region is unique. -/
theorem C42_unique (r : Int) (hr : GibbsRegion r) (p t t' : ℝ) (h1 : PressureOk p (t + 273.15))
    (h2 : TemperatureOk (t + 273.15)) (h3 : Region p (t + 273.15) r) (h1' : PressureOk p (t' + 273.15))
    (h2' : TemperatureOk (t' + 273.15)) (h3' : Region p (t' + 273.15) r)
    (h : valPT r Doc.idH p t = valPT r Doc.idH p t' ∨ valPT r Doc.idS p t = valPT r Doc.idS p t') : t = t' := by
  rcases lt_trichotomy t t' with hlt | e | hlt
  · have := C42_isobar r hr p t t' h1 h2 h3 h1' h2' h3' hlt
    rcases h with h | h <;> linarith [this.1, this.2]
  · exact e
  · have := C42_isobar r hr p t' t h1' h2' h3' h1 h2 h3 hlt
    rcases h with h | h <;> linarith [this.1, this.2]

/-- A concrete state: 10 MPa, 1000 °C, region 5. -/
example : 0 < valPT 5 Doc.idV 10 1000 ∧ 0 < valPT 5 Doc.idCp 10 1000 ∧ 0 < valPT 5 Doc.idKt 10 1000 :=
  C42_positive 5 (.inr (.inr rfl)) 10 1000 ⟨by unfold pMin; norm_num, by norm_num, by norm_num⟩ ⟨by norm_num, by norm_num⟩
    (.r5 (by norm_num))

end If97
