import Verif.Props.C05

/-!
# C40 Domain boundaries are inclusive

Exact arithmetic.  `pt` accepts (assigns a region to) every state on the outer limits: 0 °C, 2000 °C,
100 MPa up to 800 °C, 50 MPa above, and the boundary isotherms 350, 590 and 800 °C.  On the minimum
pressure it accepts the state only above 350 °C (or on the saturation line, 0 °C): at
p = 0.000611212677444 MPa and 0 °C < t ≤ 350 °C the answer is −9999, so the property as stated fails
there.
-/

namespace If97
open Set Domain

/-- `pt` assigns a region -/
def Accepted (p t : ℝ) : Prop := ∃ k : Int, k ∈ [1, 2, 3, 4, 5] ∧ Fn.pt.call0 p t Doc.idR = some (k : ℝ)

private theorem region_mem {p T : ℝ} {k : Int} (h : Region p T k) : k ∈ [1, 2, 3, 4, 5] := by
  cases h <;> decide

/-- **C40, exactly**: inside the closed limits a state is accepted if and only if it is not in the gap. -/
theorem C40_accepted_iff (p t : ℝ) (hp : PressureOk p (t + 273.15)) (ht : TemperatureOk (t + 273.15)) :
    Accepted p t ↔ ¬ Gap p (t + 273.15) := by
  constructor
  · rintro ⟨k, hk, h⟩ hg
    rw [(C05_gap p t hp ht hg).1, Option.some_inj] at h
    have : k = -9999 := by exact_mod_cast h.symm
    subst this; revert hk; decide
  · intro hg
    obtain ⟨k, hk⟩ := C05_total p _ hp ht
    exact ⟨k, region_mem hk, (C05_map_partial p t hp ht hg k).mpr hk⟩

/-- Every pressure above the minimum is accepted, on the isotherms 0, 350, 590, 800 and 2000 °C and
at the pressure limits 100 and 50 MPa included. -/
theorem C40_inclusive_partial (p t : ℝ) (hp : pMin < p) (hp' : p ≤ 100) (ht : 0 ≤ t) (ht' : t ≤ 2000)
    (h5 : 800 < t → p ≤ 50) : Accepted p t := by
  refine (C40_accepted_iff p t ⟨hp.le, hp', fun h => h5 (by norm_num at *; linarith)⟩
    ⟨by linarith, by norm_num at *; linarith⟩).mpr ?_
  rintro ⟨h, -⟩
  exact hp.ne' h

/-- On the minimum pressure, above 350 °C the state is accepted. -/
theorem C40_minimum_pressure_hot (t : ℝ) (ht : 350 < t) (ht' : t ≤ 2000) : Accepted pMin t := by
  refine (C40_accepted_iff pMin t ⟨le_rfl, by unfold pMin; norm_num, fun _ => by unfold pMin; norm_num⟩
    ⟨by linarith, by norm_num at *; linarith⟩).mpr ?_
  rintro ⟨-, h, -⟩
  norm_num at h; linarith

/-- On the minimum pressure, from 0.001 °C to 350 °C it is rejected with −9999: the property fails. -/
theorem C40_violated (t : ℝ) (ht : 0.001 ≤ t) (ht' : t ≤ 350) :
    Fn.pt.call0 pMin t Doc.idR = some (-9999) ∧ ¬ Accepted pMin t := by
  have hp : PressureOk pMin (t + 273.15) :=
    ⟨le_rfl, by unfold pMin; norm_num, fun _ => by unfold pMin; norm_num⟩
  have hT : TemperatureOk (t + 273.15) := ⟨by norm_num at *; linarith, by norm_num at *; linarith⟩
  have hlt : 0.00061125 < Sat.psat (0.001 + 273.15) := by
    refine lt_trans ?_ (Sat.lt_psat (b := 0.157237) (by norm_num) ?_ (by norm_num) ?_)
    · norm_num
    · unfold Sat.qA Sat.qB Sat.th; norm_num
    · unfold Sat.Qf Sat.qA Sat.qB Sat.qC Sat.th; norm_num
  have hmono : Sat.psat (0.001 + 273.15) ≤ Sat.psat (t + 273.15) :=
    Sat.psat_strictMonoOn.monotoneOn (by norm_num) ⟨by norm_num at *; linarith, by norm_num at *; linarith⟩ (by linarith)
  have hg : Gap pMin (t + 273.15) := by
    refine ⟨rfl, by norm_num at *; linarith, ?_, _, isSat_psat ⟨by norm_num at *; linarith, by norm_num at *; linarith⟩,
      by unfold pMin; norm_num at *; linarith⟩
    rw [nearSat_iff (by norm_num at *; linarith)]
    rintro ⟨-, h⟩
    rw [div_lt_iff₀ (Sat.psat_pos _), abs_lt] at h
    unfold pMin at h
    norm_num at *
    linarith
  exact ⟨(C05_gap _ _ hp hT hg).1, fun h => (C40_accepted_iff _ _ hp hT).mp h hg⟩

/-- 100 MPa at exactly 800 °C and 50 MPa at exactly 2000 °C are accepted. -/
example : Accepted 100 800 ∧ Accepted 50 2000 ∧ Accepted 100 0 :=
  ⟨C40_inclusive_partial 100 800 (by unfold pMin; norm_num) (by norm_num) (by norm_num) (by norm_num) (by norm_num),
   C40_inclusive_partial 50 2000 (by unfold pMin; norm_num) (by norm_num) (by norm_num) (by norm_num) (by norm_num),
   C40_inclusive_partial 100 0 (by unfold pMin; norm_num) (by norm_num) (by norm_num) (by norm_num) (by norm_num)⟩

end If97
