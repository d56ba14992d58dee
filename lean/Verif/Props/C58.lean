import Verif.Lemmas.Isentrope
import Verif.Props.C02

/-!
# C58 Isentropic compression, and (h, s) determines the state

Exact arithmetic.  Of two states of one region, the one of higher pressure and at least the same entropy has the higher
enthalpy, by at least v dp with the volume at the high pressure and the temperature before the compression; the enthalpy
gained at constant entropy is at most v dp with the volume at the low pressure and the temperature after it.  So a pump or
a compressor never returns work in the library's numbers, an adiabatic throttle never lowers the entropy, and no two states
of region 1, of region 5, or of region 3 above 373.95 °C share (h, s).

In region 2 the first statement needs the compressed state at the lower temperature to be steam as well.
p in MPa, v in m³/kg, h in kJ/kg, hence the factor 1000.
-/

namespace If97
open Domain Set

section
variable {r : Int} (hr : GibbsRegion r) {p t p' t' : ℝ} (hp : PressureOk p (t + 273.15)) (ht : TemperatureOk (t + 273.15))
  (h : Region p (t + 273.15) r) (hp' : PressureOk p' (t' + 273.15)) (ht' : TemperatureOk (t' + 273.15))
  (h' : Region p' (t' + 273.15) r)
include hr hp ht h hp' ht' h'

/-- Higher pressure at the same or a higher entropy: higher enthalpy, by at least v dp. -/
theorem C58_compression (hc : r = 2 → Region p' (t + 273.15) 2) (hlt : p < p')
    (hs : valPT r Doc.idS p t ≤ valPT r Doc.idS p' t') :
    0 < valPT r Doc.idV p' t ∧ valPT r Doc.idH p t + 1000 * valPT r Doc.idV p' t * (p' - p) < valPT r Doc.idH p' t' := by
  have i := inRange_of_region hr hp ht h
  have i' := inRange_of_region hr hp' ht' h'
  have ic : InRange r p' (t + 273.15) := by
    by_cases e : r = 2
    · subst e
      refine inRange_of_region hr ⟨hp'.1, hp'.2.1, fun hT => ?_⟩ ht (hc rfl)
      rcases i with i | i | i
      · omega
      · exact absurd i.2.2.2.1 (not_le.2 hT)
      · omega
    · exact i.raise i' e hlt.le
  rw [val_S hr i.regular, val_S hr i'.regular] at hs
  rw [val_V hr ic.regular, val_H hr i.regular, val_H hr i'.regular]
  exact ⟨ic.stable.1, i.H_compress i' ic hlt hs⟩

/-- Steam: the work of an isentropic change is at most v dp with the volume at the low pressure. -/
theorem C58_work (h1 : r ≠ 1) (hlt : p < p') (hs : valPT r Doc.idS p' t' ≤ valPT r Doc.idS p t) :
    valPT r Doc.idH p' t' < valPT r Doc.idH p t + 1000 * valPT r Doc.idV p t' * (p' - p) := by
  have i := inRange_of_region hr hp ht h
  have i' := inRange_of_region hr hp' ht' h'
  have ic := i'.lower h1 i.p_pos hlt.le
  rw [val_S hr i.regular, val_S hr i'.regular] at hs
  rw [val_V hr ic.regular, val_H hr i.regular, val_H hr i'.regular]
  exact i.H_expand i' ic hlt hs

/-- An adiabatic throttle (equal enthalpies) raises the entropy. -/
theorem C58_throttle (hc : r = 2 → Region p' (t + 273.15) 2) (hlt : p < p')
    (e : valPT r Doc.idH p t = valPT r Doc.idH p' t') : valPT r Doc.idS p' t' < valPT r Doc.idS p t := by
  by_contra hs
  obtain ⟨h1, h2⟩ := C58_compression hr hp ht h hp' ht' h' hc hlt (not_lt.1 hs)
  have : 0 < 1000 * valPT r Doc.idV p' t * (p' - p) := mul_pos (by positivity) (by linarith)
  linarith

/-- (h, s) determines the state of region 1 and of region 5. -/
theorem C58_unique (h2 : r ≠ 2) (e : valPT r Doc.idH p t = valPT r Doc.idH p' t')
    (es : valPT r Doc.idS p t = valPT r Doc.idS p' t') : p = p' ∧ t = t' := by
  have hpp : p = p' := by
    rcases lt_trichotomy p p' with g | g | g
    · linarith [C58_throttle hr hp ht h hp' ht' h' (fun e => absurd e h2) g e]
    · exact g
    · linarith [C58_throttle hr hp' ht' h' hp ht h (fun e => absurd e h2) g e.symm]
  subst hpp
  have i := inRange_of_region hr hp ht h
  have i' := inRange_of_region hr hp' ht' h'
  rw [val_S hr i.regular, val_S hr i'.regular] at es
  refine ⟨rfl, ?_⟩
  rcases lt_trichotomy t t' with g | g | g
  · linarith [i.S_lt i' (by linarith)]
  · exact g
  · linarith [i'.S_lt i (by linarith)]

end

/-! ### region 3, by (t, v) -/

section
private theorem one {v : ℝ} : (1.0 : ℝ) / v = 1 / v := by norm_num

private theorem pull {t v : ℝ} (ht : 0 < t + 273.15) (hv : 0 < v) :
    Fn.tv.call t v Doc.idP 3 = some (R3.P (t + 273.15) (1 / v)) ∧ Fn.tv.call t v Doc.idH 3 = some (R3.H (t + 273.15) (1 / v)) ∧
    Fn.tv.call t v Doc.idS 3 = some (R3.S (t + 273.15) (1 / v)) := by
  have hd : 0 < 1 / v := by positivity
  refine ⟨?_, ?_, ?_⟩
  · show some (Td2p_reg3 (t + 273.15) (1.0 / v)) = _
    rw [one, R3.vP ht hd]
  · show some (Td2h_reg3 (t + 273.15) (1.0 / v)) = _
    rw [one, R3.vH ht hd]
  · show some (Td2s_reg3 (t + 273.15) (1.0 / v)) = _
    rw [one, R3.vS ht hd]

variable {t t' v v' p p' : ℝ} (t1 : 373.95 ≤ t) (t2 : t ≤ 590) (t1' : 373.95 ≤ t') (t2' : t' ≤ 590) (h0 : 0.00125 ≤ v)
  (h0' : 0.00125 ≤ v') (hM : p ≤ 100) (hM' : p' ≤ 100)
  (hp : Fn.tv.call t v Doc.idP 3 = some p) (hp' : Fn.tv.call t' v' Doc.idP 3 = some p')
include t1 t2 t1' t2' h0 h0' hM' hp hp'

/-- Region 3 above 373.95 °C: the state of higher pressure and at least the same entropy is warmer and has the higher
enthalpy, by at least v dp, where v is the volume at the high pressure and the temperature before the compression. -/
theorem C58_compression3 (hlt : p < p') {s s' : ℝ} (es : Fn.tv.call t v Doc.idS 3 = some s)
    (es' : Fn.tv.call t' v' Doc.idS 3 = some s') (hs : s ≤ s') :
    t < t' ∧ ∃ w y y' : ℝ, 0.00125 ≤ w ∧ Fn.tv.call t w Doc.idP 3 = some p' ∧ Fn.tv.call t v Doc.idH 3 = some y ∧
      Fn.tv.call t' v' Doc.idH 3 = some y' ∧ y + 1000 * w * (p' - p) ≤ y' := by
  have hT : 0 < t + 273.15 := by linarith
  have hT' : 0 < t' + 273.15 := by linarith
  have hv : 0 < v := by linarith
  have hv' : 0 < v' := by linarith
  obtain ⟨a1, a2, a3⟩ := pull hT hv
  obtain ⟨b1, b2, b3⟩ := pull hT' hv'
  rw [a1, Option.some_inj] at hp
  rw [b1, Option.some_inj] at hp'
  rw [a3, Option.some_inj] at es
  rw [b3, Option.some_inj] at es'
  subst es es'
  have hTT := R3.T_compress (by linarith) (by linarith) (by linarith) (by linarith) h0 h0' hp hp' hM' hlt hs
  obtain ⟨w, w0, ew, hw⟩ := R3.H_compress (by linarith) (by linarith) (by linarith) (by linarith) h0 h0' hp hp' hM' hlt hs
  refine ⟨by linarith, w, _, _, w0, ?_, a2, b2, hw⟩
  rw [(pull hT (by linarith)).1, ew]

include hM in
/-- (h, s) determines the state of region 3 above 373.95 °C. -/
theorem C58_unique3 (e : Fn.tv.call t v Doc.idH 3 = Fn.tv.call t' v' Doc.idH 3)
    (es : Fn.tv.call t v Doc.idS 3 = Fn.tv.call t' v' Doc.idS 3) : t = t' ∧ v = v' := by
  have hT : 0 < t + 273.15 := by linarith
  have hT' : 0 < t' + 273.15 := by linarith
  have hv : 0 < v := by linarith
  have hv' : 0 < v' := by linarith
  obtain ⟨a1, a2, a3⟩ := pull hT hv
  obtain ⟨b1, b2, b3⟩ := pull hT' hv'
  have es1 := es
  rw [a3, b3, Option.some_inj] at es1
  have hpp : p = p' := by
    rcases lt_trichotomy p p' with g | g | g
    · obtain ⟨-, w, y, y', w0, -, e1, e2, hy⟩ := C58_compression3 t1 t2 t1' t2' h0 h0' hM' hp hp' g a3 b3 es1.le
      rw [e1, e2, Option.some_inj] at e
      have : 0 < 1000 * w * (p' - p) := mul_pos (by linarith) (by linarith)
      linarith
    · exact g
    · obtain ⟨-, w, y, y', w0, -, e1, e2, hy⟩ := C58_compression3 t1' t2' t1 t2 h0' h0 hM hp' hp g b3 a3 es1.ge
      rw [e1, e2, Option.some_inj] at e
      have : 0 < 1000 * w * (p - p') := mul_pos (by linarith) (by linarith)
      linarith
  subst hpp
  rw [a1, Option.some_inj] at hp
  rw [b1, Option.some_inj] at hp'
  have key {T T' v v' : ℝ} (t1 : 647.1 ≤ T) (t2 : T' ≤ 863.15) (h0 : 0.00125 ≤ v) (h0' : 0.00125 ≤ v') (hp : R3.P T (1 / v) = p)
      (hp' : R3.P T' (1 / v') = p) (es : R3.S T (1 / v) = R3.S T' (1 / v')) : ¬ T < T' := fun g => by
    linarith [R3.S_isobar t1 g t2 h0 h0' hp hp' hM]
  rcases lt_trichotomy t t' with g | g | g
  · exact absurd (by linarith) (key (by linarith) (by linarith) h0 h0' hp hp' es1)
  · subst g
    refine ⟨rfl, ?_⟩
    rcases lt_trichotomy v v' with g | g | g
    · linarith [R3.P_anti (T := t + 273.15) (by linarith) (by linarith) h0 g]
    · exact g
    · linarith [R3.P_anti (T := t + 273.15) (by linarith) (by linarith) h0' g]
  · exact absurd (by linarith) (key (by linarith) (by linarith) h0' h0 hp' hp es1.symm)

end

/-- Two states of region 5 that meet the hypotheses of C58_compression with equal entropies: for 1 MPa and 1000 °C there is
a state of 2 MPa. -/
theorem isentrope_case : ∃ t' : ℝ, PressureOk 2 (t' + 273.15) ∧ TemperatureOk (t' + 273.15) ∧ Region 2 (t' + 273.15) 5 ∧
    valPT 5 Doc.idS 1 1000 = valPT 5 Doc.idS 2 t' := by
  have i (p t : ℝ) (h1 : 0 < p) (h2 : p ≤ 50) (h3 : 800 ≤ t) (h4 : t ≤ 2000) : InRange 5 p (t + 273.15) :=
    .inr (.inr ⟨rfl, h1, h2, by linarith, by linarith⟩)
  have v (p t : ℝ) (h1 : 0 < p) (h2 : p ≤ 50) (h3 : 800 ≤ t) (h4 : t ≤ 2000) :
      valPT 5 Doc.idS p t = (Gr 5).S p (t + 273.15) := val_S (.inr (.inr rfl)) (i p t h1 h2 h3 h4).regular
  have hc : ContinuousOn (fun t => (Gr 5).S 2 (t + 273.15)) (Icc 1000 2000) := fun t ht => by
    have i := i 2 t (by norm_num) (by norm_num) (by linarith [ht.1]) ht.2
    have := (Gibbs.dS_dT (i.regular.smooth (.inr (.inr rfl))) i.T_pos.ne').continuousAt
    exact (ContinuousAt.comp (f := fun t => t + 273.15) (g := fun T => (Gr 5).S 2 T) this
      (continuous_id.add continuous_const).continuousAt).continuousWithinAt
  have l1 : (Gr 5).S 2 (1000 + 273.15) ≤ (Gr 5).S 1 (1000 + 273.15) :=
    ((i 1 1000 (by norm_num) (by norm_num) (by norm_num) (by norm_num)).S_lt_p
      (i 2 1000 (by norm_num) (by norm_num) (by norm_num) (by norm_num)) (by norm_num) (by norm_num)).le
  have l2 : (Gr 5).S 1 (1000 + 273.15) ≤ (Gr 5).S 2 (2000 + 273.15) := by
    simp only [Gr_5, Gibbs.S, G5, idealGibbs]
    have hl : Real.log (2 / 1) ≤ 0.7 := by rw [div_one]; linarith [Real.log_two_lt_d9]
    norm_num [idealSum, idealSum1, r5_no, r5_Jo, r5_IJn, nthF, nthI, List.range', poly_powi_sum, poly_j_powi_sum, gasR] at hl ⊢
    linarith
  obtain ⟨t', h1, h2⟩ := intermediate_value_Icc (by norm_num) hc ⟨l1, l2⟩
  refine ⟨t', ⟨by unfold pMin; norm_num, by norm_num, fun _ => by norm_num⟩, ⟨by linarith [h1.1], by linarith [h1.2]⟩,
    .r5 (by linarith [h1.1]), ?_⟩
  rw [v 1 1000 (by norm_num) (by norm_num) (by norm_num) (by norm_num), v 2 t' (by norm_num) (by norm_num) (by linarith [h1.1]) h1.2]
  exact h2.symm

/-- The hypotheses of C58_work: 1 MPa and 2 MPa at 1000 °C. -/
example : valPT 5 Doc.idH 2 1000 < valPT 5 Doc.idH 1 1000 + 1000 * valPT 5 Doc.idV 1 1000 * (2 - 1) := by
  have hr : GibbsRegion 5 := .inr (.inr rfl)
  have i (p : ℝ) (h1 : 0 < p) (h2 : p ≤ 50) : InRange 5 p (1000 + 273.15) :=
    .inr (.inr ⟨rfl, h1, h2, by norm_num, by norm_num⟩)
  have k (p : ℝ) (h1 : 1 ≤ p) (h2 : p ≤ 50) : PressureOk p (1000 + 273.15) :=
    ⟨le_trans (by unfold pMin; norm_num) h1, by linarith, fun _ => h2⟩
  refine C58_work hr (k 1 (by norm_num) (by norm_num)) ⟨by norm_num, by norm_num⟩ (.r5 (by norm_num))
    (k 2 (by norm_num) (by norm_num)) ⟨by norm_num, by norm_num⟩ (.r5 (by norm_num)) (by norm_num) (by norm_num) ?_
  have i1 := i 1 (by norm_num) (by norm_num)
  have i2 := i 2 (by norm_num) (by norm_num)
  rw [val_S hr i1.regular, val_S hr i2.regular]
  exact (i1.S_lt_p i2 (by norm_num) (by norm_num)).le

/-- The hypotheses of C58_compression3: 200 kg/m³ at 450 °C and at 500 °C. -/
example : ∃ p p' s s' : ℝ, Fn.tv.call 450 (1 / 200) Doc.idP 3 = some p ∧ Fn.tv.call 500 (1 / 200) Doc.idP 3 = some p' ∧
    Fn.tv.call 450 (1 / 200) Doc.idS 3 = some s ∧ Fn.tv.call 500 (1 / 200) Doc.idS 3 = some s' ∧ p < p' ∧ p' ≤ 100 ∧ s ≤ s' := by
  obtain ⟨a1, -, a3⟩ := pull (t := 450) (v := 1 / 200) (by norm_num) (by norm_num)
  obtain ⟨b1, -, b3⟩ := pull (t := 500) (v := 1 / 200) (by norm_num) (by norm_num)
  have h1 : R3.P (450 + 273.15) (1 / (1 / 200)) < R3.P (500 + 273.15) (1 / (1 / 200)) ∧
      R3.P (500 + 273.15) (1 / (1 / 200)) ≤ 100 := by
    norm_num [R3.P, R3.fd, R3.xd, R3.yt, poly_i_powi_sum, r3_IJn, n1, gasR]
  exact ⟨_, _, _, _, a1, b1, a3, b3, h1.1, h1.2,
    (R3.S_mono_T (by norm_num) (by norm_num) (by norm_num) (by norm_num) (by norm_num)).le⟩

end If97
