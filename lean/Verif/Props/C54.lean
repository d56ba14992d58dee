import Verif.Lemmas.Tm.Back3
import Verif.Lemmas.Helmholtz
import Verif.Lemmas.DomainSat
import Verif.Props.C02

/-!
# C54 Region 3: the backward equations T, v (p, h) and T, v (p, s) invert the basic equation

Exact arithmetic.  Take any state (t, v) of region 3 up to 800 kg/m³, ask `tv` for its pressure, enthalpy and entropy,
and hand (p, h) or (p, s) back with region 3: temperature to within 25 mK and specific volume to within 0.01 %, the
numerical consistencies that IF97-S03 states for these equations.

All of region 3 is covered: from 373.946 °C to 590 °C between B23 and 100 MPa, and from 350 °C to 373.946 °C on both
sides of the saturation line.  Below the critical point the Helmholtz equation also has states inside the two-phase dome
whose pressure happens to lie on either side of the saturation pressure; they are not states of region 3 and are left out
by asking the liquid to be denser, and the vapour to be less dense, than a parabola that stays inside the dome.
-/

namespace If97
open Domain

/-- (t, v) with the pressure p that belongs to it is a state of region 3; `ps` below is the saturation pressure -/
def State3 (t v p : ℝ) : Prop :=
  0.00125 ≤ v ∧ 350 ≤ t ∧ t ≤ 590 ∧ pB23 (t + 273.15) ≤ p ∧ p ≤ 100 ∧
  (t < 373.946 → p < 22.064 → ∀ ps, IsSat ps (t + 273.15) →
    (p < ps → 1 / v ≤ 322 - (16 * (373.946 - t) - (373.946 - t) ^ 2 / 3)) ∧
    (ps ≤ p → 322 + (16 * (373.946 - t) - (373.946 - t) ^ 2 / 3) ≤ 1 / v))

section
variable {t v p : ℝ} (hp : Fn.tv.call t v Doc.idP 3 = some p) (h : State3 t v p)
include hp h

private theorem press : p = Td2p_reg3 (t + 273.15) (1 / v) := by
  rw [← Option.some_inj, ← hp]
  show some (Td2p_reg3 (t + 273.15) (1.0 / v)) = _
  norm_num

private theorem in3 : Tm.In3 (t + 273.15) (1 / v) ∨ Tm.In3q (t + 273.15) (1 / v) ∨ Tm.In3v (t + 273.15) (1 / v) := by
  have e := press hp h
  obtain ⟨h1, t1, t2, hb, h2, h3⟩ := h
  have hv : 0 < v := by linarith
  have hd : 0 < 1 / v := by positivity
  have hd' : 1 / v ≤ 800 := by rw [div_le_iff₀ hv]; linarith
  rcases le_or_gt 373.946 t with ht | ht
  · exact .inl ⟨hd, hd', e ▸ h2, .inl ⟨by linarith, by linarith, e ▸ hb⟩⟩
  rcases le_or_gt 22.064 p with hc | hc
  · exact .inl ⟨hd, hd', e ▸ h2, .inr ⟨by linarith, by linarith, e ▸ hc⟩⟩
  obtain ⟨g1, g2⟩ := h3 ht hc _ (isSat_psat ⟨by linarith, by linarith⟩)
  have eu : 647.096 - (t + 273.15) = 373.946 - t := by ring
  rcases lt_or_ge p (Sat.psat (t + 273.15)) with hs | hs
  · exact .inr (.inr ⟨by linarith, by linarith, hd, by rw [eu]; exact g1 hs, e ▸ hb, e ▸ hs.le⟩)
  · exact .inr (.inl ⟨by linarith, by linarith, hd', by rw [eu]; exact g2 hs, e ▸ hs, e ▸ hc.le⟩)

private theorem vol {a : ℝ} (hv : 0 < v) (ha : |a * (1 / v) - 1| ≤ 1 / 10000) : |a - v| ≤ 0.0001 * v := by
  have e : a - v = (a * (1 / v) - 1) * v := by field_simp
  rw [e, abs_mul, abs_of_pos hv]
  exact mul_le_mul_of_nonneg_right (by linarith) hv.le

/-- (p, h) -/
theorem C54_ph : ∃ y t' v', Fn.tv.call t v Doc.idH 3 = some y ∧ Fn.ph.call p y Doc.idT 3 = some t' ∧
    Fn.ph.call p y Doc.idV 3 = some v' ∧ |t' - t| ≤ 0.025 ∧ |v' - v| ≤ 0.0001 * v := by
  have e := press hp h
  obtain ⟨c1, c2⟩ : Tm.ClosePh _ _ := by
    rcases in3 hp h with hi | hi | hi
    · exact Tm.ph3_back hi
    · exact Tm.ph3q_back hi
    · exact Tm.ph3v_back hi
  have e1 : (1.0 : ℝ) / v = 1 / v := by norm_num
  refine ⟨Td2h_reg3 (t + 273.15) (1.0 / v), _, _, rfl, rfl, rfl, ?_, vol hp h (by linarith [h.1]) ?_⟩
  · show |ph2T_reg3 p _ - 273.15 - t| ≤ 0.025
    rw [e1, e, sub_sub, add_comm (273.15 : ℝ)]
    linarith
  · show |ph2v_reg3 p _ * (1 / v) - 1| ≤ _
    rw [e1, e]; exact c2

/-- (p, s) -/
theorem C54_ps : ∃ y t' v', Fn.tv.call t v Doc.idS 3 = some y ∧ Fn.ps.call p y Doc.idT 3 = some t' ∧
    Fn.ps.call p y Doc.idV 3 = some v' ∧ |t' - t| ≤ 0.025 ∧ |v' - v| ≤ 0.0001 * v := by
  have e := press hp h
  obtain ⟨c1, c2⟩ : Tm.ClosePs _ _ := by
    rcases in3 hp h with hi | hi | hi
    · exact Tm.ps3_back hi
    · exact Tm.ps3q_back hi
    · exact Tm.ps3v_back hi
  have e1 : (1.0 : ℝ) / v = 1 / v := by norm_num
  refine ⟨Td2s_reg3 (t + 273.15) (1.0 / v), _, _, rfl, rfl, rfl, ?_, vol hp h (by linarith [h.1]) ?_⟩
  · show |ps2T_reg3 p _ - 273.15 - t| ≤ 0.025
    rw [e1, e, sub_sub, add_comm (273.15 : ℝ)]
    linarith
  · show |ps2v_reg3 p _ * (1 / v) - 1| ≤ _
    rw [e1, e]; exact c2
end

/-- A concrete state: 700 K and the critical density, about 36 MPa. -/
example : ∃ p y t' v' : ℝ, Fn.tv.call (426.85 : ℝ) (1 / 322) Doc.idP 3 = some p ∧
    Fn.tv.call (426.85 : ℝ) (1 / 322) Doc.idH 3 = some y ∧ Fn.ph.call p y Doc.idT 3 = some t' ∧
    Fn.ph.call p y Doc.idV 3 = some v' ∧ |t' - 426.85| ≤ 0.025 ∧ |v' - 1 / 322| ≤ 0.0001 * (1 / 322) := by
  have e : Td2p_reg3 (426.85 + 273.15 : ℝ) (1.0 / (1 / 322)) = R3.P 700 322 := by
    rw [← R3.vP (by norm_num) (by norm_num)]; norm_num
  have hP : 33 ≤ R3.P 700 322 ∧ R3.P 700 322 ≤ 40 := by
    norm_num [R3.P, R3.fd, R3.xd, R3.yt, poly_i_powi_sum, r3_IJn, n1, gasR]
  obtain ⟨y, t', v', h⟩ := C54_ph (t := 426.85) (v := 1 / 322) (p := R3.P 700 322)
    (congrArg some e) ⟨by norm_num, by norm_num, by norm_num, by norm_num [pB23]; linarith, by linarith, fun h => absurd h (by norm_num)⟩
  exact ⟨_, y, t', v', congrArg some e, h⟩

/-- A liquid state below the critical point: 630 K and 560 kg/m³, about 19.2 MPa. -/
example : ∃ p y t' v' : ℝ, Fn.tv.call (356.85 : ℝ) (1 / 560) Doc.idP 3 = some p ∧
    Fn.tv.call (356.85 : ℝ) (1 / 560) Doc.idS 3 = some y ∧ Fn.ps.call p y Doc.idT 3 = some t' ∧
    Fn.ps.call p y Doc.idV 3 = some v' ∧ |t' - 356.85| ≤ 0.025 ∧ |v' - 1 / 560| ≤ 0.0001 * (1 / 560) := by
  have e : Td2p_reg3 (356.85 + 273.15 : ℝ) (1.0 / (1 / 560)) = R3.P 630 560 := by
    rw [← R3.vP (by norm_num) (by norm_num)]; norm_num
  have hP : 19 ≤ R3.P 630 560 ∧ R3.P 630 560 ≤ 20 := by
    norm_num [R3.P, R3.fd, R3.xd, R3.yt, poly_i_powi_sum, r3_IJn, n1, gasR]
  have hs : Sat.psat (356.85 + 273.15) < 18.1 :=
    lt_trans (Sat.psat_hi (by norm_num) (by norm_num)) (by norm_num [Sat.bq])
  obtain ⟨y, t', v', h⟩ := C54_ps (t := 356.85) (v := 1 / 560) (p := R3.P 630 560)
    (congrArg some e) ⟨by norm_num, by norm_num, by norm_num, by norm_num [pB23]; linarith, by linarith, fun _ _ ps hps => by
      rw [IsSat.eq (by norm_num) hps]
      exact ⟨fun h => absurd h (by linarith), fun _ => by norm_num⟩⟩
  exact ⟨_, y, t', v', congrArg some e, h⟩

end If97
