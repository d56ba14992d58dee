import Verif.Props.C20
import Verif.Props.C58
import Verif.Props.C59

/-!
# C62 The returned exergy obeys the second law

Exact arithmetic, regions 1, 2, 5, where OE = OH − 273.16 OS (C20; region 3 uses another formula and is not covered).
Heating at constant pressure from 0.01 °C upwards raises the exergy, by more than (T₁ − 273.16) Δs and less than
(T₂ − 273.16) Δs, hence by less than the heat; throttling destroys exergy, exactly 273.16 K times the entropy produced;
isentropic compression stores the whole work as exergy, at least v Δp.
-/

namespace If97
open Domain Set

section
variable {r : Int} (hr : GibbsRegion r) {p t p' t' : ℝ} (hp : PressureOk p (t + 273.15)) (ht : TemperatureOk (t + 273.15))
  (h : Region p (t + 273.15) r)
include hr hp ht h

/-- Isobaric heating above 0.01 °C raises the exergy, by less than the heat supplied. -/
theorem C62_heating (hp' : PressureOk p (t' + 273.15)) (ht' : TemperatureOk (t' + 273.15)) (h' : Region p (t' + 273.15) r)
    (hlt : t < t') (h0 : 0.01 ≤ t) :
    valPT r Doc.idE p t < valPT r Doc.idE p t' ∧
    (t - 0.01) * (valPT r Doc.idS p t' - valPT r Doc.idS p t) < valPT r Doc.idE p t' - valPT r Doc.idE p t ∧
    valPT r Doc.idE p t' - valPT r Doc.idE p t < (t' - 0.01) * (valPT r Doc.idS p t' - valPT r Doc.idS p t) ∧
    valPT r Doc.idE p t' - valPT r Doc.idE p t < valPT r Doc.idH p t' - valPT r Doc.idH p t := by
  obtain ⟨a, b, c⟩ := C59_heat hr hp ht h hp' ht' h' hlt
  rw [C20_gibbs_partial r hr p t (inRange_of_region hr hp ht h).regular,
    C20_gibbs_partial r hr p t' (inRange_of_region hr hp' ht' h').regular]
  have k := mul_nonneg (sub_nonneg.2 h0) a.le
  norm_num at *
  refine ⟨?_, ?_, ?_, ?_⟩ <;> nlinarith

variable (hp' : PressureOk p' (t' + 273.15)) (ht' : TemperatureOk (t' + 273.15)) (h' : Region p' (t' + 273.15) r)
include hp' ht' h'

/-- Throttling from p' down to p: exergy is lost, 273.16 K times the entropy produced. -/
theorem C62_throttle (hc : r = 2 → Region p' (t + 273.15) 2) (hlt : p < p')
    (e : valPT r Doc.idH p t = valPT r Doc.idH p' t') :
    valPT r Doc.idE p t < valPT r Doc.idE p' t' ∧
    valPT r Doc.idE p' t' - valPT r Doc.idE p t = 273.16 * (valPT r Doc.idS p t - valPT r Doc.idS p' t') := by
  have k := C58_throttle hr hp ht h hp' ht' h' hc hlt e
  rw [C20_gibbs_partial r hr p t (inRange_of_region hr hp ht h).regular,
    C20_gibbs_partial r hr p' t' (inRange_of_region hr hp' ht' h').regular, e]
  norm_num at *
  exact ⟨by linarith, by ring⟩

/-- Isentropic compression: the exergy gained is the work, at least v Δp. -/
theorem C62_compression (hc : r = 2 → Region p' (t + 273.15) 2) (hlt : p < p')
    (e : valPT r Doc.idS p t = valPT r Doc.idS p' t') :
    valPT r Doc.idE p' t' - valPT r Doc.idE p t = valPT r Doc.idH p' t' - valPT r Doc.idH p t ∧
    0 < 1000 * valPT r Doc.idV p' t * (p' - p) ∧
    1000 * valPT r Doc.idV p' t * (p' - p) < valPT r Doc.idE p' t' - valPT r Doc.idE p t := by
  obtain ⟨a, b⟩ := C58_compression hr hp ht h hp' ht' h' hc hlt e.le
  rw [C20_gibbs_partial r hr p t (inRange_of_region hr hp ht h).regular,
    C20_gibbs_partial r hr p' t' (inRange_of_region hr hp' ht' h').regular, e]
  exact ⟨by ring, mul_pos (by positivity) (by linarith), by linarith⟩

end

/-- Steam of 1 MPa heated from 1000 °C to 1100 °C. -/
example : valPT 5 Doc.idE 1 1000 < valPT 5 Doc.idE 1 1100 :=
  (C62_heating (.inr (.inr rfl)) ⟨by unfold pMin; norm_num, by norm_num, fun _ => by norm_num⟩ ⟨by norm_num, by norm_num⟩
    (.r5 (by norm_num)) ⟨by unfold pMin; norm_num, by norm_num, fun _ => by norm_num⟩ ⟨by norm_num, by norm_num⟩
    (.r5 (by norm_num)) (by norm_num) (by norm_num)).1

/-- From 1 MPa and 1000 °C to the state of the same entropy at 2 MPa. -/
example : ∃ t' : ℝ, valPT 5 Doc.idE 2 t' - valPT 5 Doc.idE 1 1000 = valPT 5 Doc.idH 2 t' - valPT 5 Doc.idH 1 1000 := by
  obtain ⟨t', h1, h2, h3, e⟩ := isentrope_case
  exact ⟨t', (C62_compression (.inr (.inr rfl)) ⟨by unfold pMin; norm_num, by norm_num, fun _ => by norm_num⟩
    ⟨by norm_num, by norm_num⟩ (.r5 (by norm_num)) h1 h2 h3 (by norm_num) (by norm_num) e).1⟩

/-- Throttling to 1 MPa and 1500 °C from the state of the same enthalpy at 2 MPa. -/
example : ∃ t' : ℝ, valPT 5 Doc.idE 1 1500 < valPT 5 Doc.idE 2 t' := by
  have i (p t : ℝ) (h1 : 0 < p) (h2 : p ≤ 50) (h3 : 800 ≤ t) (h4 : t ≤ 2000) : InRange 5 p (t + 273.15) :=
    .inr (.inr ⟨rfl, h1, h2, by linarith, by linarith⟩)
  have v (p t : ℝ) (h1 : 0 < p) (h2 : p ≤ 50) (h3 : 800 ≤ t) (h4 : t ≤ 2000) :
      valPT 5 Doc.idH p t = (Gr 5).H p (t + 273.15) := val_H (.inr (.inr rfl)) (i p t h1 h2 h3 h4).regular
  have hc : ContinuousOn (fun t => (Gr 5).H 2 (t + 273.15)) (Icc 1000 2000) := fun t ht => by
    have i := i 2 t (by norm_num) (by norm_num) (by linarith [ht.1]) ht.2
    have := (Gibbs.dH_dT (i.regular.smooth (.inr (.inr rfl))) i.T_pos.ne').continuousAt
    exact (ContinuousAt.comp (f := fun t => t + 273.15) (g := fun T => (Gr 5).H 2 T) this
      (continuous_id.add continuous_const).continuousAt).continuousWithinAt
  have l : (Gr 5).H 2 (1000 + 273.15) ≤ (Gr 5).H 1 (1500 + 273.15) ∧ (Gr 5).H 1 (1500 + 273.15) ≤ (Gr 5).H 2 (2000 + 273.15) := by
    simp only [Gr_5, Gibbs.H, G5, idealGibbs]
    norm_num [idealSum, idealSum1, r5_no, r5_Jo, r5_IJn, nthF, nthI, List.range', poly_powi_sum, poly_j_powi_sum, gasR]
  obtain ⟨t', h1, h2⟩ := intermediate_value_Icc (by norm_num) hc l
  refine ⟨t', (C62_throttle (.inr (.inr rfl)) ⟨by unfold pMin; norm_num, by norm_num, fun _ => by norm_num⟩
    ⟨by norm_num, by norm_num⟩ (.r5 (by norm_num)) ⟨by unfold pMin; norm_num, by norm_num, fun _ => by norm_num⟩
    ⟨by linarith [h1.1], by linarith [h1.2]⟩ (.r5 (by linarith [h1.1])) (by norm_num) (by norm_num) ?_).1⟩
  rw [v 1 1500 (by norm_num) (by norm_num) (by norm_num) (by norm_num), v 2 t' (by norm_num) (by norm_num) (by linarith [h1.1]) h1.2]
  exact h2.symm

end If97
