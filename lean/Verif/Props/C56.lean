import Verif.Lemmas.Recog3
import Verif.Lemmas.TwoPhase
import Verif.Lemmas.Detect
import Verif.Props.C54

/-!
# C56 Region 3: the states are recognised by (p, h) and (p, s), and the inversion does not need the region

Exact arithmetic.  Take any state (t, v) of region 3 up to 800 kg/m³ that is 0.05 K away from the two borders
(350 °C towards region 1, B23 towards region 2) and, below 22.064 MPa, 0.1 K away from saturation; ask `tv` for its
pressure, enthalpy and entropy and hand (p, h) or (p, s) back without naming a region.  The region detected is 3, and
by C54 the temperature comes back to within 25 mK and the volume to within 0.01 %.

The distances are needed: the detectors compare with the enthalpies and entropies of the neighbouring basic equations
at the borders, and with the polynomials p34(h), p34(s) for the saturation pressure, none of which agrees exactly with
the Helmholtz equation.  `C56_border_ph` is a state on the region 3 side of B23 that `ph` takes for region 2.
-/

namespace If97
open Domain Tm TwoPhase

/-- (t, v) with the pressure p that belongs to it is a state of region 3, at some distance from its borders -/
def Inside3 (t v p : ℝ) : Prop :=
  0.00125 ≤ v ∧ 350.05 ≤ t ∧ t ≤ 590 ∧ t + 273.15 + 0.05 ≤ TB23 p ∧ p ≤ 100 ∧
  (p < 22.064 → ∀ ts, 0 ≤ ts → ts ≤ 373.946 → IsSat p (ts + 273.15) →
    t + 0.1 ≤ ts ∧ 322 + (16 * (373.946 - t) - (373.946 - t) ^ 2 / 3) ≤ 1 / v ∨
    ts + 0.1 ≤ t ∧ (t < 373.946 → 1 / v ≤ 322 - (16 * (373.946 - t) - (373.946 - t) ^ 2 / 3)))

section
variable {t v p : ℝ} (hp : Fn.tv.call t v Doc.idP 3 = some p) (h : Inside3 t v p)
include hp h

private theorem press56 : p = Td2p_reg3 (t + 273.15) (1 / v) := by
  rw [← Option.some_inj, ← hp]
  show some (Td2p_reg3 (t + 273.15) (1.0 / v)) = _
  norm_num

omit hp in
private theorem low56 : 16.535 ≤ p ∧ pB23 (t + 273.15) ≤ p := by
  obtain ⟨-, t1, -, hb, -⟩ := h
  unfold TB23 at hb
  set r := Real.sqrt ((p - 13.91883977887) / 0.0010192970039326) with hr
  have h0 : 50.7 ≤ r := by norm_num at *; linarith
  have h1 : 0 ≤ (p - 13.91883977887) / 0.0010192970039326 := by
    by_contra hn
    rw [hr, Real.sqrt_eq_zero_of_nonpos (not_le.1 hn).le] at h0
    norm_num at h0
  have h2 : r ^ 2 = (p - 13.91883977887) / 0.0010192970039326 := by rw [hr, Real.sq_sqrt h1]
  rw [eq_div_iff (by norm_num)] at h2
  have h3 : (t + 273.15 + 0.05 - 572.54459862746) ^ 2 ≤ r ^ 2 :=
    pow_le_pow_left₀ (by norm_num; linarith) (by linarith) 2
  constructor
  · nlinarith
  · unfold pB23
    nlinarith

omit hp in
private theorem sat56 (hc : p < 22.064) : ∃ Ts, Sat.psat Ts = p ∧ 623.15 ≤ Ts ∧ Ts ≤ 647.096 ∧ IsSat p (Ts - 273.15 + 273.15) := by
  obtain ⟨p1, -⟩ := low56 h
  obtain ⟨m, e⟩ := sat_T (p := p) (by linarith) hc.le
  have a1 : 623.15 < T_saturation p := by
    rw [sat_T_lt (by linarith) hc.le ⟨by norm_num, by norm_num⟩]
    exact lt_of_lt_of_le (lt_trans (Sat.psat_hi (by norm_num) (by norm_num)) (by norm_num [Sat.bq])) p1
  have a2 : T_saturation p ≤ 647.096 := by
    rw [sat_T_le (by linarith) hc.le ⟨by norm_num, by norm_num⟩]
    linarith [Sat.psat_max.1]
  refine ⟨_, e, a1.le, a2, ?_⟩
  rw [sub_add_cancel]
  have := isSat_psat (T := T_saturation p) ⟨by linarith, a2⟩
  rwa [e] at this

omit hp in
/-- such a state is one of the states of C54 -/
theorem Inside3.state : State3 t v p := by
  obtain ⟨p1, p2⟩ := low56 h
  have hsat := sat56 h
  obtain ⟨h1, t1, t2, hb, h2, h3⟩ := h
  refine ⟨h1, by linarith, t2, p2, h2, fun ht hc ps hps => ?_⟩
  obtain ⟨Ts, g1, g2, g3, g4⟩ := hsat hc
  rw [IsSat.eq ⟨by linarith, by linarith⟩ hps, ← g1,
    Sat.psat_strictMonoOn.lt_iff_lt ⟨by linarith, by linarith⟩ ⟨by linarith, by linarith⟩,
    Sat.psat_strictMonoOn.le_iff_le ⟨by linarith, by linarith⟩ ⟨by linarith, by linarith⟩]
  rcases h3 hc _ (by linarith) (by linarith) g4 with ⟨a, b⟩ | ⟨a, b⟩
  · exact ⟨fun k => by linarith, fun _ => b⟩
  · exact ⟨fun _ => b ht, fun k => by linarith⟩

private theorem between56 : Between p (Td2h_reg3 (t + 273.15) (1 / v)) (Td2s_reg3 (t + 273.15) (1 / v)) ∧
    (p < 22.064 → Above34 p (Td2h_reg3 (t + 273.15) (1 / v)) (Td2s_reg3 (t + 273.15) (1 / v))) := by
  have e := press56 hp h
  obtain ⟨p1, -⟩ := low56 h
  have hsat := sat56 h
  obtain ⟨h1, t1, t2, hb, h2, h3⟩ := h
  have hv : 0 < v := by linarith
  have hd : 0 < 1 / v := by positivity
  have hd' : 1 / v ≤ 800 := by rw [div_le_iff₀ hv]; linarith
  rcases le_or_gt 22.064 p with hc | hc
  · exact ⟨between_sup e hd hd' (by linarith) hb (by linarith) hc h2 (by linarith), fun k => absurd k (not_lt.2 hc)⟩
  obtain ⟨Ts, g1, g2, g3, g4⟩ := hsat hc
  have eu : 647.096 - (t + 273.15) = 373.946 - t := by ring
  have key : Between p (Td2h_reg3 (t + 273.15) (1 / v)) (Td2s_reg3 (t + 273.15) (1 / v)) ∧
      Above34 p (Td2h_reg3 (t + 273.15) (1 / v)) (Td2s_reg3 (t + 273.15) (1 / v)) := by
    rcases h3 hc _ (by linarith) (by linarith) g4 with ⟨a, b⟩ | ⟨a, b⟩
    · exact between_liq e hd hd' (by linarith) hb (by linarith) hc g1 g3 (by linarith) (by rw [eu]; exact b)
    rcases lt_or_ge t 373.946 with ht | ht
    · exact between_vap e hd hd' (by linarith) hb (by linarith) hc g1 g2 g3 (by linarith) (by linarith) (by rw [eu]; exact b ht)
    · exact between_hot e hd hd' (by linarith) hb (by linarith) hc g1 g2 g3 (by linarith) (by linarith)
  exact ⟨key.1, fun _ => key.2⟩

omit hp h in
private theorem one56 : (1.0 : ℝ) / v = 1 / v := by norm_num

/-- (p, h) and (p, s) are recognised -/
theorem C56_region : (∃ y, Fn.tv.call t v Doc.idH 3 = some y ∧ Fn.ph.call0 p y Doc.idR = some 3) ∧
    ∃ y, Fn.tv.call t v Doc.idS 3 = some y ∧ Fn.ps.call0 p y Doc.idR = some 3 := by
  obtain ⟨⟨⟨b1, b2⟩, b3, b4⟩, ba⟩ := between56 hp h
  obtain ⟨p1, -⟩ := low56 h
  have e1 := one56 (v := v)
  have p2 := h.2.2.2.2.1
  constructor
  · refine ⟨Td2h_reg3 (t + 273.15) (1.0 / v), rfl, ?_⟩
    show some ((ph_sub_region p _ : Int) : ℝ) = some 3
    rw [e1, ph_three (by linarith) p2 b1 b2 fun hc => h34_le (by linarith) (ba hc)]
    norm_num
  · refine ⟨Td2s_reg3 (t + 273.15) (1.0 / v), rfl, ?_⟩
    show some ((ps_sub_region p _ : Int) : ℝ) = some 3
    rw [e1, ps_three (by linarith) p2 b3 b4 fun hc => s34_le (by linarith) (ba hc)]
    norm_num

/-- (p, h), region detected -/
theorem C56_ph : ∃ y t' v', Fn.tv.call t v Doc.idH 3 = some y ∧ Fn.ph.call0 p y Doc.idT = some t' ∧
    Fn.ph.call0 p y Doc.idV = some v' ∧ |t' - t| ≤ 0.025 ∧ |v' - v| ≤ 0.0001 * v := by
  obtain ⟨y, t', v', e1, e2, e3, e4⟩ := C54_ph hp h.state
  obtain ⟨⟨y', f1, f2⟩, -⟩ := C56_region hp h
  rw [e1, Option.some_inj] at f1
  subst f1
  have f3 : Fn.ph.call0 p y Doc.idR = some ((ph_sub_region p y : Int) : ℝ) := rfl
  rw [f3, Option.some_inj] at f2
  have f4 : ph_sub_region p y = 3 := by exact_mod_cast f2
  refine ⟨y, t', v', e1, ?_, ?_, e4⟩
  · rw [← C02_region_consistent Fn.ph p y Doc.idT 3 (by decide), e2]; exact congrArg some f4
  · rw [← C02_region_consistent Fn.ph p y Doc.idV 3 (by decide), e3]; exact congrArg some f4

/-- (p, s), region detected -/
theorem C56_ps : ∃ y t' v', Fn.tv.call t v Doc.idS 3 = some y ∧ Fn.ps.call0 p y Doc.idT = some t' ∧
    Fn.ps.call0 p y Doc.idV = some v' ∧ |t' - t| ≤ 0.025 ∧ |v' - v| ≤ 0.0001 * v := by
  obtain ⟨y, t', v', e1, e2, e3, e4⟩ := C54_ps hp h.state
  obtain ⟨-, y', f1, f2⟩ := C56_region hp h
  rw [e1, Option.some_inj] at f1
  subst f1
  have f3 : Fn.ps.call0 p y Doc.idR = some ((ps_sub_region p y : Int) : ℝ) := rfl
  rw [f3, Option.some_inj] at f2
  have f4 : ps_sub_region p y = 3 := by exact_mod_cast f2
  refine ⟨y, t', v', e1, ?_, ?_, e4⟩
  · rw [← C02_region_consistent Fn.ps p y Doc.idT 3 (by decide), e2]; exact congrArg some f4
  · rw [← C02_region_consistent Fn.ps p y Doc.idV 3 (by decide), e3]; exact congrArg some f4
end

/-- A concrete state: 700 K and the critical density, about 36 MPa; B23 is at about 719 K there. -/
example : ∃ p y t' v' : ℝ, Fn.tv.call (426.85 : ℝ) (1 / 322) Doc.idP 3 = some p ∧
    Fn.tv.call (426.85 : ℝ) (1 / 322) Doc.idH 3 = some y ∧ Fn.ph.call0 p y Doc.idT = some t' ∧
    Fn.ph.call0 p y Doc.idV = some v' ∧ |t' - 426.85| ≤ 0.025 ∧ |v' - 1 / 322| ≤ 0.0001 * (1 / 322) := by
  have e : Td2p_reg3 (426.85 + 273.15 : ℝ) (1.0 / (1 / 322)) = R3.P 700 322 := by
    rw [← R3.vP (by norm_num) (by norm_num)]; norm_num
  have hP : 33 ≤ R3.P 700 322 ∧ R3.P 700 322 ≤ 40 := by
    norm_num [R3.P, R3.fd, R3.xd, R3.yt, poly_i_powi_sum, r3_IJn, n1, gasR]
  obtain ⟨y, t', v', h⟩ := C56_ph (t := 426.85) (v := 1 / 322) (p := R3.P 700 322)
    (congrArg some e) ⟨by norm_num, by norm_num, by norm_num, by
      have : 135 ≤ Real.sqrt ((R3.P 700 322 - 13.91883977887) / 0.0010192970039326) :=
        Real.le_sqrt_of_sq_le (by rw [le_div_iff₀ (by norm_num)]; norm_num at *; linarith)
      rw [TB23]; norm_num at *; linarith, by linarith, fun h => absurd h (by norm_num; linarith)⟩
  exact ⟨_, y, t', v', congrArg some e, h⟩

/-- A liquid state below the critical point: 630 K and 560 kg/m³, about 19.2 MPa, where water boils at about 635 K. -/
example : ∃ p y t' v' : ℝ, Fn.tv.call (356.85 : ℝ) (1 / 560) Doc.idP 3 = some p ∧
    Fn.tv.call (356.85 : ℝ) (1 / 560) Doc.idS 3 = some y ∧ Fn.ps.call0 p y Doc.idT = some t' ∧
    Fn.ps.call0 p y Doc.idV = some v' ∧ |t' - 356.85| ≤ 0.025 ∧ |v' - 1 / 560| ≤ 0.0001 * (1 / 560) := by
  have e : Td2p_reg3 (356.85 + 273.15 : ℝ) (1.0 / (1 / 560)) = R3.P 630 560 := by
    rw [← R3.vP (by norm_num) (by norm_num)]; norm_num
  have hP : 19 ≤ R3.P 630 560 ∧ R3.P 630 560 ≤ 20 := by
    norm_num [R3.P, R3.fd, R3.xd, R3.yt, poly_i_powi_sum, r3_IJn, n1, gasR]
  have hs : Sat.psat 630.1 < 18.2 :=
    lt_trans (Sat.psat_hi (by norm_num) (by norm_num)) (by norm_num [Sat.bq])
  obtain ⟨y, t', v', h⟩ := C56_ps (t := 356.85) (v := 1 / 560) (p := R3.P 630 560)
    (congrArg some e) ⟨by norm_num, by norm_num, by norm_num, by
      have : 60 ≤ Real.sqrt ((R3.P 630 560 - 13.91883977887) / 0.0010192970039326) :=
        Real.le_sqrt_of_sq_le (by rw [le_div_iff₀ (by norm_num)]; norm_num at *; linarith)
      rw [TB23]; norm_num at *; linarith, by linarith, fun _ ts k0 k1 hts => by
        have k2 := IsSat.eq ⟨by linarith, by linarith⟩ hts
        refine .inl ⟨?_, by norm_num⟩
        have : Sat.psat 630.1 ≤ Sat.psat (ts + 273.15) := by rw [← k2]; linarith
        rw [Sat.psat_strictMonoOn.le_iff_le ⟨by norm_num, by norm_num⟩ ⟨by linarith, by linarith⟩] at this
        linarith⟩
  exact ⟨_, y, t', v', congrArg some e, h⟩

/-- On the region 3 side of B23, 7 mK from it, at about 80.06 MPa: `ph` takes the state for region 2. -/
theorem C56_border_ph : ∃ t v p y : ℝ, Fn.tv.call t v Doc.idP 3 = some p ∧ Fn.tv.call t v Doc.idH 3 = some y ∧
    350 < t ∧ t < 590 ∧ t + 273.15 < TB23 p ∧ 22.064 < p ∧ p < 100 ∧ Fn.ph.call0 p y Doc.idR = some 2 := by
  have e : (647.096 / 0.7822 - 273.15 + 273.15 : ℝ) = 647.096 / 0.7822 := by ring
  have e' : (1.0 / (1 / 356.0193) : ℝ) = 356.0193 := by norm_num
  have hp : 80.063 < R3.P (647.096 / 0.7822) 356.0193 ∧ R3.P (647.096 / 0.7822) 356.0193 < 80.0635 := by
    norm_num [R3.P, R3.fd, R3.xd, R3.yt, poly_i_powi_sum, r3_IJn, n1, gasR]
  have hh : 2560 < R3.H (647.096 / 0.7822) 356.0193 := by
    norm_num [R3.H, R3.fd, R3.ft, R3.xd, R3.yt, poly_i_powi_sum, poly_j_powi_sum, r3_IJn, n1, gasR]
  have h2 : G2.H (R3.P (647.096 / 0.7822) 356.0193) 827.29 < R3.H (647.096 / 0.7822) 356.0193 := by
    norm_num [R3.P, R3.H, R3.fd, R3.ft, R3.xd, R3.yt, poly_i_powi_sum, poly_j_powi_sum, r3_IJn, n1, gasR, G2, Gibbs.H, idealGibbs,
      idealSum1, r2_n0, r2_J0, r2_IJn, nthF, nthI, List.range']
  have h3 : R3.H (647.096 / 0.7822) 356.0193 < G2.H (R3.P (647.096 / 0.7822) 356.0193) 1073.15 := by
    norm_num [R3.P, R3.H, R3.fd, R3.ft, R3.xd, R3.yt, poly_i_powi_sum, poly_j_powi_sum, r3_IJn, n1, gasR, G2, Gibbs.H, idealGibbs,
      idealSum1, r2_n0, r2_J0, r2_IJn, nthF, nthI, List.range']
  have vp : Td2p_reg3 (647.096 / 0.7822) 356.0193 = R3.P (647.096 / 0.7822) 356.0193 := R3.vP (by norm_num) (by norm_num)
  have vh : Td2h_reg3 (647.096 / 0.7822) 356.0193 = R3.H (647.096 / 0.7822) 356.0193 := R3.vH (by norm_num) (by norm_num)
  generalize R3.P (647.096 / 0.7822) 356.0193 = p at *
  generalize R3.H (647.096 / 0.7822) 356.0193 = y at *
  obtain ⟨r1, r2, r3, r4, r5⟩ := inRange_isobar_high (p := p) (by norm_num at *; linarith) (by norm_num at *; linarith)
  have t1 : 647.096 / 0.7822 < TB23 p := by
    have : 254.734 < Real.sqrt ((p - 13.91883977887) / 0.0010192970039326) :=
      Real.lt_sqrt_of_sq_lt (by rw [lt_div_iff₀ (by norm_num)]; norm_num at *; linarith)
    rw [TB23]; norm_num at *; linarith
  have t2 : TB23 p < 827.29 := by
    have : Real.sqrt ((p - 13.91883977887) / 0.0010192970039326) < 254.745 := by
      rw [Real.sqrt_lt' (by norm_num), div_lt_iff₀ (by norm_num)]; norm_num at *; linarith
    rw [TB23]; norm_num at *; linarith
  have r6 := r3.between r4 t2.le (by norm_num)
  have q1 := r3.H_lt r6 t2
  have q2 := liquid r2
  have q3 := r3.H_lt r4 r5
  refine ⟨647.096 / 0.7822 - 273.15, 1 / 356.0193, p, y, ?_, ?_, by norm_num, by norm_num, by rw [e]; exact t1,
    by norm_num at *; linarith, by norm_num at *; linarith, ?_⟩
  · show some (Td2p_reg3 (647.096 / 0.7822 - 273.15 + 273.15) (1.0 / (1 / 356.0193))) = _
    rw [e, e', vp]
  · show some (Td2h_reg3 (647.096 / 0.7822 - 273.15 + 273.15) (1.0 / (1 / 356.0193))) = _
    rw [e, e', vh]
  · show some ((ph_sub_region p y : Int) : ℝ) = some 2
    rw [ph_high (by norm_num at *; linarith) (by norm_num at *; linarith)
      (by rw [B23_p2T_eq, h2_eq r3.regular, h2_eq r4.regular]; exact q3.le), B23_p2T_eq, h2_eq r3.regular, h2_eq r4.regular,
      h1_eq r2.regular, h1_eq r1.regular, if_neg, if_neg, if_pos]
    · norm_num
    · exact ⟨(q1.trans h2).le, h3.le⟩
    · exact fun k => absurd k.2 (not_lt.2 (q1.trans h2).le)
    · exact fun k => absurd k.2 (not_le.2 (by linarith))

end If97
