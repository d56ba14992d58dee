import Verif.Lemmas.Stab3
import Verif.Props.C02

/-!
# C57 Region 3: isobars above 373.95 °C are monotone, so (p, h) and (p, s) determine the state

Exact arithmetic.  Two states of region 3 above 373.95 °C, up to 800 kg/m³, at the same pressure of at most 100 MPa:
the warmer one has the larger specific volume, enthalpy and entropy.  Hence no two states of that part of region 3 share
(p, h), or (p, s), and the temperature that `ph` or `ps` looks for is unique; with C54 the answer is within 25 mK of it.

The enthalpy needs more than its partial derivatives along isotherms and isochores: the Gibbs function is shown to be
concave along the isobar, from the signs proved for C55.
-/

namespace If97

private theorem one {v : ℝ} : (1.0 : ℝ) / v = 1 / v := by norm_num

variable {t t' v v' p : ℝ} (t1 : 373.95 ≤ t) (t2' : t' ≤ 590) (h0 : 0.00125 ≤ v) (h0' : 0.00125 ≤ v') (hM : p ≤ 100)
  (hp : Fn.tv.call t v Doc.idP 3 = some p) (hp' : Fn.tv.call t' v' Doc.idP 3 = some p)
include t1 t2' h0 h0' hM hp hp'

/-- volume, enthalpy and entropy grow with the temperature along an isobar -/
theorem C57_isobar (h : t < t') : ∃ y y' s s' : ℝ, Fn.tv.call t v Doc.idH 3 = some y ∧ Fn.tv.call t' v' Doc.idH 3 = some y' ∧
    Fn.tv.call t v Doc.idS 3 = some s ∧ Fn.tv.call t' v' Doc.idS 3 = some s' ∧ v < v' ∧ y < y' ∧ s < s' := by
  have hT : 0 < t + 273.15 := by linarith
  have hT' : 0 < t' + 273.15 := by linarith
  have hv : 0 < v := by linarith
  have hv' : 0 < v' := by linarith
  have hd : 0 < 1 / v := by positivity
  have hd' : 0 < 1 / v' := by positivity
  have e : Fn.tv.call t v Doc.idP 3 = some (Td2p_reg3 (t + 273.15) (1.0 / v)) := rfl
  have e' : Fn.tv.call t' v' Doc.idP 3 = some (Td2p_reg3 (t' + 273.15) (1.0 / v')) := rfl
  rw [e, one, R3.vP hT hd, Option.some_inj] at hp
  rw [e', one, R3.vP hT' hd', Option.some_inj] at hp'
  refine ⟨Td2h_reg3 (t + 273.15) (1.0 / v), Td2h_reg3 (t' + 273.15) (1.0 / v'), Td2s_reg3 (t + 273.15) (1.0 / v),
    Td2s_reg3 (t' + 273.15) (1.0 / v'), rfl, rfl, rfl, rfl, ?_⟩
  rw [one, one, R3.vH hT hd, R3.vH hT' hd', R3.vS hT hd, R3.vS hT' hd']
  have a1 : 647.1 ≤ t + 273.15 := by linarith
  have a2 : t + 273.15 < t' + 273.15 := by linarith
  have a3 : t' + 273.15 ≤ 863.15 := by linarith
  exact ⟨R3.V_isobar a1 a2 a3 h0 h0' hp hp' hM, R3.H_isobar a1 a2 a3 h0 h0' hp hp' hM, R3.S_isobar a1 a2 a3 h0 h0' hp hp' hM⟩

omit t1 t2' h0 h0' hM hp hp' in
/-- (p, h) determines the state, and so does (p, s) -/
theorem C57_unique (t1 : 373.95 ≤ t) (t2 : t ≤ 590) (t1' : 373.95 ≤ t') (t2' : t' ≤ 590) (h0 : 0.00125 ≤ v) (h0' : 0.00125 ≤ v')
    (hM : p ≤ 100) (hp : Fn.tv.call t v Doc.idP 3 = some p) (hp' : Fn.tv.call t' v' Doc.idP 3 = some p)
    (h : Fn.tv.call t v Doc.idH 3 = Fn.tv.call t' v' Doc.idH 3 ∨ Fn.tv.call t v Doc.idS 3 = Fn.tv.call t' v' Doc.idS 3) :
    t = t' ∧ v = v' := by
  rcases lt_trichotomy t t' with g | g | g
  · obtain ⟨y, y', s, s', e1, e2, e3, e4, -, l1, l2⟩ := C57_isobar t1 t2' h0 h0' hM hp hp' g
    rw [e1, e2, e3, e4, Option.some_inj, Option.some_inj] at h
    rcases h with h | h <;> linarith
  · subst g
    refine ⟨rfl, ?_⟩
    have hT : 0 < t + 273.15 := by linarith
    have hv : 0 < v := by linarith
    have hv' : 0 < v' := by linarith
    have e (w : ℝ) : Fn.tv.call t w Doc.idP 3 = some (Td2p_reg3 (t + 273.15) (1.0 / w)) := rfl
    rw [e, one, R3.vP hT (by positivity), Option.some_inj] at hp hp'
    rcases lt_trichotomy v v' with g | g | g
    · linarith [R3.P_anti (T := t + 273.15) (by linarith) (by linarith) h0 g]
    · exact g
    · linarith [R3.P_anti (T := t + 273.15) (by linarith) (by linarith) h0' g]
  · obtain ⟨y, y', s, s', e1, e2, e3, e4, -, l1, l2⟩ := C57_isobar t1' t2 h0' h0 hM hp' hp g
    rw [e1, e2, e3, e4, Option.some_inj, Option.some_inj] at h
    rcases h with h | h <;> linarith

omit t1 t2' h0 h0' hM hp hp' in
/-- The hypotheses are met with two different states: the pressure at 450 °C and 200 kg/m³ also occurs at 460 °C. -/
example : ∃ v' p : ℝ, 0.00125 ≤ v' ∧ p ≤ 100 ∧ Fn.tv.call 450 (1 / 200) Doc.idP 3 = some p ∧
    Fn.tv.call 460 v' Doc.idP 3 = some p := by
  have e (t w : ℝ) (ht : 0 < t + 273.15) (hw : 0 < w) : Fn.tv.call t w Doc.idP 3 = some (R3.P (t + 273.15) (1 / w)) := by
    rw [← R3.vP ht (by positivity)]
    show some (Td2p_reg3 (t + 273.15) (1.0 / w)) = _
    rw [one]
  have h1 : R3.P (450 + 273.15) (1 / (1 / 200)) ≤ R3.P (460 + 273.15) (1 / (1 / 200)) ∧
      R3.P (460 + 273.15) (1 / (1 / 100)) ≤ R3.P (450 + 273.15) (1 / (1 / 200)) ∧ R3.P (450 + 273.15) (1 / (1 / 200)) ≤ 100 := by
    norm_num [R3.P, R3.fd, R3.xd, R3.yt, poly_i_powi_sum, r3_IJn, n1, gasR]
  have hc : ContinuousOn (fun w => R3.P (460 + 273.15) (1 / w)) (Set.Icc (1 / 200) (1 / 100)) := fun w hw =>
    (R3.dP_dv (by norm_num) (by have := hw.1; linarith)).continuousAt.continuousWithinAt
  obtain ⟨w, hw, ew⟩ := intermediate_value_Icc' (by norm_num) hc ⟨h1.2.1, h1.1⟩
  refine ⟨w, _, by have := hw.1; linarith, h1.2.2, e _ _ (by norm_num) (by norm_num), ?_⟩
  rw [e _ _ (by norm_num) (by have := hw.1; linarith)]
  exact congrArg some ew

end If97
