import Verif.Lemmas.Throttle
import Verif.Lemmas.Iv.Points
import Verif.Props.C02
import Verif.Props.C05

/-!
# C47 The input pairs agree on the region

Exact arithmetic.  Take a single-phase state (p, t) of region 1, 2 or 5, ask `pt` for its enthalpy,
entropy or volume, and hand the pair to `ph`, `ps`, `tv`, `ts` or `pv`: the region found is the same.
What has to be excluded, because the code departs there:
* `ph`, `ps`, `pv`: states between the two published forms of the B23 equation (1e-9 K apart);
* `tv`, `ts`: p = 100 MPa exactly in region 1, and 590 °C < t ≤ 800 °C (`C37`);
* `ts`: water below 5 °C, where entropy is not monotone in pressure (`C47_ts_violated`);
* `th`: water above 200 °C, where enthalpy is not monotone in pressure;
* `pv`: liquid (`C47_pv_violated`: water at 4 °C is denser than at 0 °C and is rejected).
-/

namespace If97
open Domain Set TwoPhase

/-- the value of a single-phase output through `pt` without a region -/
theorem pt0 {r : Int} (hr : GibbsRegion r) {p t : ℝ} (hp : PressureOk p (t + 273.15))
    (ht : TemperatureOk (t + 273.15)) (h : Region p (t + 273.15) r) (hg : ¬ Gap p (t + 273.15)) :
    Fn.pt.call0 p t Doc.idR = some (r : ℝ) ∧ Fn.pt.call0 p t Doc.idH = some ((Gr r).H p (t + 273.15)) ∧
    Fn.pt.call0 p t Doc.idS = some ((Gr r).S p (t + 273.15)) ∧ Fn.pt.call0 p t Doc.idV = some ((Gr r).V p (t + 273.15)) := by
  have hi := inRange_of_region hr hp ht h
  have hd0 := (C05_map_partial p t hp ht hg r).2 h
  have hd : Fn.pt.detect p t = some r := by
    have e : Fn.pt.call0 p t Doc.idR = some ((pT_sub_region p (t + 273.15) : Int) : ℝ) := rfl
    have := hd0
    rw [e, Option.some_inj, Int.cast_inj] at this
    exact congrArg some this
  have h15 : 1 ≤ r ∧ r ≤ 5 := by rcases hr with rfl | rfl | rfl <;> decide
  have key : ∀ o, o = Doc.idV ∨ o = Doc.idH ∨ o = Doc.idS → Fn.pt.call0 p t o = some (valPT r o p t) := by
    intro o ho
    rw [← C02_region_consistent Fn.pt p t o r h15 hd]
    rcases ho with rfl | rfl | rfl <;> rcases hr with rfl | rfl | rfl <;> rfl
  rw [key _ (.inl rfl), key _ (.inr (.inl rfl)), key _ (.inr (.inr rfl)), val_V hr hi.regular, val_H hr hi.regular,
    val_S hr hi.regular]
  exact ⟨hd0, rfl, rfl, rfl⟩

/-- at a region 2 state above the 350 °C saturation pressure the temperature is at least the B23 temperature -/
private theorem tb_le {p T : ℝ} (h : Region p T 2) (ht : TemperatureOk T) (h1 : 16.5291642526045 < p) (h2 : p ≤ 100)
    (hB : 623.15 < T → T ≤ 863.15 → TB23 p ≤ T) : TB23 p ≤ T := by
  have mono : ∀ {a b : ℝ}, a ≤ b → TB23 a ≤ TB23 b := fun hab => by
    have := Real.sqrt_le_sqrt (div_le_div_of_nonneg_right (sub_le_sub_right hab 13.91883977887) (c := 0.0010192970039326) (by norm_num))
    unfold TB23; linarith
  cases h with
  | r2_below_sat a b c d =>
    have hs : p < Sat.psat T := (IsSat.eq ⟨ht.1, by norm_num at *; linarith⟩ b) ▸ c
    have hm := ht.1
    have hT : T ∈ Icc (273 : ℝ) 648 := ⟨by norm_num at *; linarith, by norm_num at *; linarith⟩
    have low : Sat.psat 623.149999999999 < 16.5291642526045 := by
      refine lt_trans (Sat.psat_lt (b := 2.016335162802305) (by norm_num) ?_ ?_) ?_
      · unfold Sat.qA Sat.qB Sat.th; norm_num
      · unfold Sat.Qf Sat.qA Sat.qB Sat.qC Sat.th; norm_num
      · norm_num
    have hT1 : 623.149999999999 < T := by
      have : Sat.psat 623.149999999999 < Sat.psat T := by linarith
      exact (Sat.psat_strictMonoOn.lt_iff_lt (by norm_num) hT).1 this
    have hT2 := Iv.psat_mono (T := T) (T' := 623.15) (by norm_num at *; linarith) a le_rfl
    have := Sat.psat_623.2
    have e : TB23 p ≤ TB23 16.5291642526047 := mono (by linarith)
    have e2 : TB23 16.5291642526047 ≤ 623.149999999999 := by
      have : Real.sqrt ((16.5291642526047 - 13.91883977887) / 0.0010192970039326) ≤ 50.605401372539 := by
        rw [Real.sqrt_le_left (by norm_num), div_le_iff₀ (by norm_num)]; norm_num
      unfold TB23; norm_num at *; linarith
    linarith
  | r2_below_B23 a b c d => exact hB a b
  | r2_hot a b =>
    have e : TB23 p ≤ TB23 100 := mono h2
    have e2 : TB23 100 ≤ 863.15 := by
      have : Real.sqrt ((100 - 13.91883977887) / 0.0010192970039326) ≤ 290.60540137254 := by
        rw [Real.sqrt_le_left (by norm_num), div_le_iff₀ (by norm_num)]; norm_num
      unfold TB23; norm_num at *; linarith
    linarith

/-- facts about a region 1 or 2 state below / above the 350 °C saturation pressure -/
private theorem sat_side {p T : ℝ} (hp : PressureOk p T) (ht : TemperatureOk T) (hlow : p ≤ 16.5291642526045) :
    (Region p T 1 → T ≤ T_saturation p) ∧ (Region p T 2 → T_saturation p < T) := by
  have h1 : (0.000611212677444 : ℝ) ≤ p := hp.1
  have h2 : p ≤ 22.064 := by norm_num at *; linarith
  have hm := ht.1
  have mem : T ≤ 623.15 → T ∈ Icc (273 : ℝ) 648 := fun a => ⟨by norm_num at *; linarith, by norm_num at *; linarith⟩
  have mem' : T ≤ 623.15 → T ∈ Icc (273.15 : ℝ) 647.096 := fun a => ⟨ht.1, by norm_num at *; linarith⟩
  have up : T_saturation p ≤ 623.15 := (inRange_isobar_low h1 hlow).2.2.2.2.2
  constructor
  · intro h
    cases h with
    | r1 a b c d =>
      by_contra hc
      push Not at hc
      have hs : Sat.psat T ≤ p := (IsSat.eq (mem' a) b) ▸ c
      have e := (sat_T h1 h2).2
      have := Sat.psat_strictMonoOn (sat_T h1 h2).1 (mem a) hc
      linarith
  · intro h
    cases h with
    | r2_below_sat a b c d =>
      by_contra hc
      push Not at hc
      have hs : p < Sat.psat T := (IsSat.eq (mem' a) b) ▸ c
      have e := (sat_T h1 h2).2
      have := Sat.psat_strictMonoOn.monotoneOn (mem a) (sat_T h1 h2).1 hc
      linarith
    | r2_below_B23 a b c d => linarith
    | r2_hot a b => norm_num at *; linarith

private theorem T_le_1 {p T : ℝ} (h : Region p T 1) : T ≤ 623.15 := by cases h with | r1 a b c d => exact a
private theorem T_le_2 {p T : ℝ} (h : Region p T 2) : T ≤ 1073.15 := by
  cases h with
  | r2_below_sat a b c d => norm_num at *; linarith
  | r2_below_B23 a b c d => norm_num at *; linarith
  | r2_hot a b => exact b

/-- Enthalpy: the pair (p, h) of a region 1 or 2 state is put in the same region. -/
theorem C47_ph (r : Int) (hr : r = 1 ∨ r = 2) (p t : ℝ) (hp : PressureOk p (t + 273.15)) (ht : TemperatureOk (t + 273.15))
    (h : Region p (t + 273.15) r) (hg : ¬ Gap p (t + 273.15))
    (hB : r = 2 → 623.15 < t + 273.15 → t + 273.15 ≤ 863.15 → TB23 p ≤ t + 273.15) :
    ∃ y, Fn.pt.call0 p t Doc.idH = some y ∧ Fn.pt.call0 p t Doc.idR = some (r : ℝ) ∧ Fn.ph.call0 p y Doc.idR = some (r : ℝ) := by
  have hr' : GibbsRegion r := hr.elim .inl fun e => .inr (.inl e)
  have hi := inRange_of_region hr' hp ht h
  obtain ⟨e0, e1, e2, -⟩ := pt0 hr' hp ht h hg
  refine ⟨_, e1, e0, ?_⟩
  have h1 : (0.000611212677444 : ℝ) ≤ p := hp.1
  have h100 := hp.2.1
  suffices k : ph_sub_region p ((Gr r).H p (t + 273.15)) = r by
    show some ((((ph_sub_region p ((Gr r).H p (t + 273.15)) : Int)) : ℝ)) = _
    rw [k]
  have hm := ht.1
  generalize t + 273.15 = T at *
  rcases le_or_gt p 16.5291642526045 with hl | hl
  · obtain ⟨k1, k2, k3, k4, -, k6⟩ := inRange_isobar_low h1 hl
    obtain ⟨sa, sb⟩ := sat_side hp ht hl
    rw [ph_low h1 hl, h1_eq k1.regular, h1_eq k2.regular, h2_eq k3.regular, h2_eq k4.regular]
    rcases hr with rfl | rfl
    · exact if_pos ⟨k1.H_le hi hm, hi.H_le k2 (sa h)⟩
    · have a := (liquid k2).1
      have b := (vapour_all hi).1
      have c : G2.H p (T_saturation p) ≤ (Gr 2).H p T := k3.H_le hi (sb h).le
      rw [Gr_2] at *
      rw [if_neg (fun e => by linarith [e.2]), if_neg (fun e => by linarith [e.2]), if_pos ⟨c, hi.H_le k4 (T_le_2 h)⟩]
  · obtain ⟨k1, k2, k3, k4, k5⟩ := inRange_isobar_high hl h100
    have hle : pT2h_reg2 p (B23_p2T p) ≤ pT2h_reg2 p 1073.15 := by
      rw [B23_p2T_eq, h2_eq k3.regular, h2_eq k4.regular]; exact k3.H_le k4 k5.le
    rw [ph_high hl h100 hle, B23_p2T_eq, h1_eq k1.regular, h1_eq k2.regular, h2_eq k3.regular, h2_eq k4.regular]
    rcases hr with rfl | rfl
    · exact if_pos ⟨k1.H_le hi hm, hi.H_le k2 (T_le_1 h)⟩
    · have a := (liquid k2).1
      have b := (vapour_all hi).1
      have c : G2.H p (TB23 p) ≤ (Gr 2).H p T := k3.H_le hi (tb_le h ht hl h100 (hB rfl))
      rw [Gr_2] at *
      rw [if_neg (fun e => by linarith [e.2]), if_neg (fun e => by linarith [e.2]), if_pos ⟨c, hi.H_le k4 (T_le_2 h)⟩]

/-- Entropy: the pair (p, s) of a region 1 or 2 state is put in the same region. -/
theorem C47_ps (r : Int) (hr : r = 1 ∨ r = 2) (p t : ℝ) (hp : PressureOk p (t + 273.15)) (ht : TemperatureOk (t + 273.15))
    (h : Region p (t + 273.15) r) (hg : ¬ Gap p (t + 273.15))
    (hB : r = 2 → 623.15 < t + 273.15 → t + 273.15 ≤ 863.15 → TB23 p ≤ t + 273.15) :
    ∃ y, Fn.pt.call0 p t Doc.idS = some y ∧ Fn.pt.call0 p t Doc.idR = some (r : ℝ) ∧ Fn.ps.call0 p y Doc.idR = some (r : ℝ) := by
  have hr' : GibbsRegion r := hr.elim .inl fun e => .inr (.inl e)
  have hi := inRange_of_region hr' hp ht h
  obtain ⟨e0, e1, e2, -⟩ := pt0 hr' hp ht h hg
  refine ⟨_, e2, e0, ?_⟩
  have h1 : (0.000611212677444 : ℝ) ≤ p := hp.1
  have h100 := hp.2.1
  suffices k : ps_sub_region p ((Gr r).S p (t + 273.15)) = r by
    show some ((((ps_sub_region p ((Gr r).S p (t + 273.15)) : Int)) : ℝ)) = _
    rw [k]
  have hm := ht.1
  generalize t + 273.15 = T at *
  rcases le_or_gt p 16.5291642526045 with hl | hl
  · obtain ⟨k1, k2, k3, k4, -, k6⟩ := inRange_isobar_low h1 hl
    obtain ⟨sa, sb⟩ := sat_side hp ht hl
    rw [ps_low h1 hl, s1_eq k1.regular, s1_eq k2.regular, s2_eq k3.regular, s2_eq k4.regular]
    rcases hr with rfl | rfl
    · exact if_pos ⟨k1.S_le hi hm, hi.S_le k2 (sa h)⟩
    · have a := (liquid k2).2.1
      have b := (vapour_all hi).2.1
      have c : G2.S p (T_saturation p) ≤ (Gr 2).S p T := k3.S_le hi (sb h).le
      rw [Gr_2] at *
      rw [if_neg (fun e => by linarith [e.2]), if_neg (fun e => by linarith [e.2]), if_pos ⟨c, hi.S_le k4 (T_le_2 h)⟩]
  · obtain ⟨k1, k2, k3, k4, k5⟩ := inRange_isobar_high hl h100
    have hle : pT2s_reg2 p (B23_p2T p) ≤ pT2s_reg2 p 1073.15 := by
      rw [B23_p2T_eq, s2_eq k3.regular, s2_eq k4.regular]; exact k3.S_le k4 k5.le
    rw [ps_high hl h100 hle, B23_p2T_eq, s1_eq k1.regular, s1_eq k2.regular, s2_eq k3.regular, s2_eq k4.regular]
    rcases hr with rfl | rfl
    · exact if_pos ⟨k1.S_le hi hm, hi.S_le k2 (T_le_1 h)⟩
    · have a := (liquid k2).2.1
      have b := (vapour_all hi).2.1
      have c : G2.S p (TB23 p) ≤ (Gr 2).S p T := k3.S_le hi (tb_le h ht hl h100 (hB rfl))
      rw [Gr_2] at *
      rw [if_neg (fun e => by linarith [e.2]), if_neg (fun e => by linarith [e.2]), if_pos ⟨c, hi.S_le k4 (T_le_2 h)⟩]

/-- strictly on one side of the saturation line -/
private theorem ne_psat {p T : ℝ} (ht : TemperatureOk T) (h : ¬ NearSat p T) (hT : T ≤ 623.15) : p ≠ Sat.psat T := by
  intro e
  refine h ((nearSat_iff ht.1).2 ⟨by norm_num at *; linarith, ?_⟩)
  rw [e, sub_self, abs_zero, zero_div]; norm_num

private theorem r1_sat {p T : ℝ} (ht : TemperatureOk T) (h : Region p T 1) : T ≤ 623.15 ∧ Sat.psat T < p := by
  cases h with
  | r1 a b c d =>
    have hs : Sat.psat T ≤ p := (IsSat.eq ⟨ht.1, by norm_num at *; linarith⟩ b) ▸ c
    exact ⟨a, lt_of_le_of_ne hs (ne_psat ht d a).symm⟩

private theorem r2_sat {p T : ℝ} (ht : TemperatureOk T) (h : Region p T 2) (hT : T ≤ 623.15) : p < Sat.psat T := by
  cases h with
  | r2_below_sat a b c d => exact (IsSat.eq ⟨ht.1, by norm_num at *; linarith⟩ b) ▸ c
  | r2_below_B23 a b c d => linarith
  | r2_hot a b => norm_num at *; linarith

private theorem r2_B23 {p T : ℝ} (h : Region p T 2) (hT : 623.15 < T) (hT2 : T ≤ 863.15) : p ≤ pB23 T := by
  cases h with
  | r2_below_sat a b c d => linarith
  | r2_below_B23 a b c d => exact c
  | r2_hot a b => linarith

/-- the ends of the isotherm of region 2 -/
private theorem isotherm2 {T : ℝ} (h1 : 273.15 ≤ T) (h2 : T ≤ 863.15) :
    InRange 2 1e-8 T ∧ (623.15 < T → InRange 2 (pB23 T) T) := by
  have c : 273.1499999 ≤ T := by norm_num at *; linarith
  have c' : T ≤ 1073.15 := by norm_num at *; linarith
  have q : 623.15 < T → 16.5 < pB23 T := fun h => by unfold pB23; norm_num at *; nlinarith
  have q' : 623.15 < T → pB23 T ≤ 100.0000001 := fun h => by unfold pB23; norm_num at *; nlinarith
  refine ⟨.inr (.inl ⟨rfl, by norm_num, c, c', by norm_num, fun h => ?_, fun h _ => ?_⟩), fun h =>
    .inr (.inl ⟨rfl, by have := q h; norm_num at *; linarith, c, c', q' h, fun h' => absurd h' (not_le.2 h), fun _ _ => by norm_num⟩)⟩
  · have := Sat.psat_pos T; norm_num at *; linarith
  · have := q h; norm_num at *; linarith

/-- Volume: the pair (t, v) of a region 1, 2 or 5 state is put in the same region. -/
theorem C47_tv (r : Int) (hr : GibbsRegion r) (p t : ℝ) (hp : PressureOk p (t + 273.15)) (ht : TemperatureOk (t + 273.15))
    (h : Region p (t + 273.15) r) (hg : ¬ Gap p (t + 273.15)) (h1 : r = 1 → p < 100) (h2 : r = 2 → t + 273.15 ≤ 863.15) :
    ∃ y, Fn.pt.call0 p t Doc.idV = some y ∧ Fn.pt.call0 p t Doc.idR = some (r : ℝ) ∧ Fn.tv.call0 t y Doc.idR = some (r : ℝ) := by
  have hi := inRange_of_region hr hp ht h
  obtain ⟨e0, -, -, e3⟩ := pt0 hr hp ht h hg
  refine ⟨_, e3, e0, ?_⟩
  suffices k : tv_sub_region t ((Gr r).V p (t + 273.15)) = r by
    show some ((((tv_sub_region t ((Gr r).V p (t + 273.15)) : Int)) : ℝ)) = _
    rw [k]
  have hpm : (0.000611212677444 : ℝ) ≤ p := hp.1
  have low : t + 273.15 ≤ 623.15 → (r = 1 ∨ r = 2) → tv_sub_region t ((Gr r).V p (t + 273.15)) = r := by
    intro hT hr2
    have t0 : 0 ≤ t := by linarith [ht.1]
    have t1 : t ≤ 350 := by norm_num at *; linarith
    obtain ⟨k1, k2⟩ := inRange_sat ht.1 hT
    obtain ⟨s1, s2⟩ := T2sat_V ht.1 hT
    rw [tv_low t0 t1, s1, s2, v1_eq k1.regular, v2_eq k2.regular]
    rcases hr2 with rfl | rfl
    · obtain ⟨-, hs⟩ := r1_sat ht h
      have k3 : InRange 1 100 (t + 273.15) := inRange1 ht.1 hT (hs.le.trans hp.2.1) le_rfl
      rw [v1_eq k3.regular]
      exact if_pos ⟨k1.V_lt hi hs, hi.V_lt k3 (h1 rfl)⟩
    · have hs := r2_sat ht h hT
      have k3 := (isotherm2 ht.1 (h2 rfl)).1
      rw [v2_eq k3.regular]
      have a := hi.V_lt k2 hs
      have b := (k3.V_lt hi (by norm_num at *; linarith))
      have c := (liquid k1).2.2
      have d := (vapour k2 hT).2.2
      rw [Gr_2] at *
      rw [if_neg (fun e => by linarith [e.1]), if_pos ⟨a, b⟩]
  rcases hr with rfl | rfl | rfl
  · exact low (r1_sat ht h).1 (.inl rfl)
  · rcases le_or_gt (t + 273.15) 623.15 with hT | hT
    · exact low hT (.inr rfl)
    · obtain ⟨k3, k4⟩ := isotherm2 ht.1 (h2 rfl)
      have k4 := k4 hT
      refine tv_23 hT (h2 rfl) ?_ ?_
      · rw [B23_T2p_eq, v2_eq k4.regular]; exact hi.V_le k4 (r2_B23 h hT (h2 rfl))
      · rw [v2_eq k3.regular]; exact k3.V_lt hi (by norm_num at *; linarith)
  · cases h with
    | r5 a =>
      have k1 : InRange 5 50 (t + 273.15) := .inr (.inr ⟨rfl, by norm_num, le_rfl, a.le, ht.2⟩)
      have k2 : InRange 5 0.000611212677444 (t + 273.15) := .inr (.inr ⟨rfl, by norm_num, by norm_num, a.le, ht.2⟩)
      refine tv_5 a ht.2 ?_ ?_
      · rw [v5_eq k1.regular]; exact hi.V_le k1 (hp.2.2 a)
      · rw [v5_eq k2.regular]; exact k2.V_le hi hpm

/-- Entropy: the pair (t, s) of a region 1 (from 5 °C), 2 or 5 state is put in the same region. -/
theorem C47_ts (r : Int) (hr : GibbsRegion r) (p t : ℝ) (hp : PressureOk p (t + 273.15)) (ht : TemperatureOk (t + 273.15))
    (h : Region p (t + 273.15) r) (hg : ¬ Gap p (t + 273.15)) (h1 : r = 1 → p < 100 ∧ 5 ≤ t)
    (h2 : r = 2 → t + 273.15 ≤ 863.15) :
    ∃ y, Fn.pt.call0 p t Doc.idS = some y ∧ Fn.pt.call0 p t Doc.idR = some (r : ℝ) ∧ Fn.ts.call0 t y Doc.idR = some (r : ℝ) := by
  have hi := inRange_of_region hr hp ht h
  obtain ⟨e0, -, e3, -⟩ := pt0 hr hp ht h hg
  refine ⟨_, e3, e0, ?_⟩
  suffices k : ts_sub_region t ((Gr r).S p (t + 273.15)) = r by
    show some ((((ts_sub_region t ((Gr r).S p (t + 273.15)) : Int)) : ℝ)) = _
    rw [k]
  have hpm : (0.000611212677444 : ℝ) ≤ p := hp.1
  have h5 : r = 1 → 278.15 ≤ t + 273.15 := fun e => by have := (h1 e).2; norm_num at *; linarith
  obtain ⟨b1, b2⟩ := hi.S_bounds hpm h5
  have low : t + 273.15 ≤ 623.15 → (r = 1 ∨ r = 2) → ts_sub_region t ((Gr r).S p (t + 273.15)) = r := by
    intro hT hr2
    have t0 : 0 ≤ t := by linarith [ht.1]
    have t1 : t ≤ 350 := by norm_num at *; linarith
    obtain ⟨k1, k2⟩ := inRange_sat ht.1 hT
    rw [ts_low t0 t1 b1 b2, s1_eq k1.regular, s2_eq k2.regular]
    rcases hr2 with rfl | rfl
    · obtain ⟨-, hs⟩ := r1_sat ht h
      have k3 : InRange 1 100 (t + 273.15) := inRange1 ht.1 hT (hs.le.trans hp.2.1) le_rfl
      rw [s1_eq k3.regular]
      exact if_pos ⟨k1.S_lt_p hi h5 hs, hi.S_lt_p k3 h5 (h1 rfl).1⟩
    · have hs := r2_sat ht h hT
      have k3 := (isotherm2 ht.1 (h2 rfl)).1
      rw [s2_eq k3.regular]
      have a := hi.S_lt_p k2 h5 hs
      have b := (k3.S_lt_p hi h5 (by norm_num at *; linarith))
      have c := (liquid k1).2.1
      have d := (vapour k2 hT).2.1
      rw [Gr_2] at *
      rw [if_neg (fun e => by linarith [e.1]), if_pos ⟨a, b⟩]
  rcases hr with rfl | rfl | rfl
  · exact low (r1_sat ht h).1 (.inl rfl)
  · rcases le_or_gt (t + 273.15) 623.15 with hT | hT
    · exact low hT (.inr rfl)
    · obtain ⟨k3, k4⟩ := isotherm2 ht.1 (h2 rfl)
      have k4 := k4 hT
      refine ts_23 hT (h2 rfl) b1 b2 ?_ ?_
      · rw [B23_T2p_eq, s2_eq k4.regular]; exact hi.S_le_p k4 h5 (r2_B23 h hT (h2 rfl))
      · rw [s2_eq k3.regular]; exact k3.S_lt_p hi h5 (by norm_num at *; linarith)
  · cases h with
    | r5 a =>
      have k1 : InRange 5 50 (t + 273.15) := .inr (.inr ⟨rfl, by norm_num, le_rfl, a.le, ht.2⟩)
      have k2 : InRange 5 0.000611212677444 (t + 273.15) := .inr (.inr ⟨rfl, by norm_num, by norm_num, a.le, ht.2⟩)
      refine ts_5 a ht.2 b1 b2 ?_ ?_
      · rw [s5_eq k1.regular]; exact hi.S_le_p k1 h5 (hp.2.2 a)
      · rw [s5_eq k2.regular]; exact k2.S_le_p hi h5 hpm

/-- Volume: the pair (p, v) of a region 2 state is put in region 2. -/
theorem C47_pv (p t : ℝ) (hp : PressureOk p (t + 273.15)) (ht : TemperatureOk (t + 273.15))
    (h : Region p (t + 273.15) 2) (hg : ¬ Gap p (t + 273.15)) (h1 : 0.000611213 < p)
    (h2 : p ≤ 16.5291642526045 ∨ 16.5291643 < p)
    (hB : 623.15 < t + 273.15 → t + 273.15 ≤ 863.15 → TB23 p ≤ t + 273.15) :
    ∃ y, Fn.pt.call0 p t Doc.idV = some y ∧ Fn.pt.call0 p t Doc.idR = some 2 ∧ Fn.pv.call0 p y Doc.idR = some 2 := by
  have hr' : GibbsRegion 2 := .inr (.inl rfl)
  have hi := inRange_of_region hr' hp ht h
  obtain ⟨e0, -, -, e3⟩ := pt0 hr' hp ht h hg
  refine ⟨_, e3, by simpa using e0, ?_⟩
  have hpm : (0.000611212677444 : ℝ) ≤ p := hp.1
  have h100 := hp.2.1
  suffices k : pv_sub_region p ((Gr 2).V p (t + 273.15)) = 2 by
    show some ((((pv_sub_region p ((Gr 2).V p (t + 273.15)) : Int)) : ℝ)) = _
    rw [k]; norm_num
  have h5 : (2 : Int) = 1 → 278.15 ≤ t + 273.15 := fun e => by omega
  generalize t + 273.15 = T at *
  rcases h2 with hl | hl
  · obtain ⟨k1, k2, k3, k4, k5, k6⟩ := inRange_isobar_low hpm hl
    have sb := (sat_side hp ht hl).2 h
    rw [pv_low h1 (by norm_num at *; linarith), v1_eq k1.regular, v1_eq k2.regular, v2_eq k3.regular, v2_eq k4.regular]
    have a := (liquid k2).2.2
    have b := (vapour k3 k6).2.2
    have c := k3.V_lt_T hi (by omega) sb
    have d := hi.V_le_T k4 (by omega) (T_le_2 h)
    rw [Gr_2] at *
    rw [if_neg (fun e => by linarith [e.2]), if_pos ⟨c, d⟩]
  · obtain ⟨k1, k2, k3, k4, k5⟩ := inRange_isobar_high (p := p) (by norm_num at *; linarith) h100
    have a := liquid_623 (p := p) (by norm_num at *; linarith) h100
    have b := (vapour_all hi).2.2
    refine pv_high2 hl h100 ?_ ?_ ?_
    · rw [v1_eq k2.regular, Gr_2]; linarith
    · rw [B23_p2T_eq, v2_eq k3.regular]; exact k3.V_le_T hi (by omega) (tb_le h ht (by norm_num at *; linarith) h100 hB)
    · rw [v2_eq k4.regular]; exact hi.V_le_T k4 (by omega) (T_le_2 h)

/-! ### counterexamples -/

/-- Enthalpy: the pair (t, h) of a region 1 (up to 200 °C), 2 or 5 state is put in the same region. -/
theorem C47_th (r : Int) (hr : GibbsRegion r) (p t : ℝ) (hp : PressureOk p (t + 273.15)) (ht : TemperatureOk (t + 273.15))
    (h : Region p (t + 273.15) r) (hg : ¬ Gap p (t + 273.15)) (h1 : r = 1 → t ≤ 200)
    (h2 : r = 2 → t + 273.15 ≤ 863.15) :
    ∃ y, Fn.pt.call0 p t Doc.idH = some y ∧ Fn.pt.call0 p t Doc.idR = some (r : ℝ) ∧ Fn.th.call0 t y Doc.idR = some (r : ℝ) := by
  have hi := inRange_of_region hr hp ht h
  obtain ⟨e0, e3, -, -⟩ := pt0 hr hp ht h hg
  refine ⟨_, e3, e0, ?_⟩
  suffices k : th_sub_region t ((Gr r).H p (t + 273.15)) = some r by
    have hd : Fn.th.detect t ((Gr r).H p (t + 273.15)) = some r := k
    have h15 : 1 ≤ r ∧ r ≤ 5 := by rcases hr with rfl | rfl | rfl <;> decide
    rw [← C02_region_consistent Fn.th _ _ _ r h15 hd]
    rcases hr with rfl | rfl | rfl <;> rfl
  have hpm : (0.000611212677444 : ℝ) ≤ p := hp.1
  have low : t + 273.15 ≤ 623.15 → (r = 1 ∨ r = 2) → th_sub_region t ((Gr r).H p (t + 273.15)) = some r := by
    intro hT hr2
    have t0 : 0 ≤ t := by linarith [ht.1]
    have t1 : t ≤ 350 := by norm_num at *; linarith
    obtain ⟨k1, k2⟩ := inRange_sat ht.1 hT
    obtain ⟨s1, s2⟩ := T2sat_H ht.1 hT
    have psat100 : Sat.psat (t + 273.15) ≤ 100 := by
      have := (Iv.psat_mono (by have := ht.1; norm_num at *; linarith) hT le_rfl).trans Sat.psat_623.2.le
      norm_num at *; linarith
    have k3 : InRange 1 100 (t + 273.15) := inRange1 ht.1 hT psat100 le_rfl
    rcases hr2 with rfl | rfl
    · obtain ⟨-, hs⟩ := r1_sat ht h
      have hT2 : t + 273.15 ≤ 473.15 := by have := h1 rfl; norm_num at *; linarith
      have a := k1.H_lt_p1 hi rfl hT2 hs
      have b : (Gr 1).H p (t + 273.15) ≤ (Gr 1).H 100 (t + 273.15) := by
        rcases eq_or_lt_of_le hp.2.1 with e | e
        · rw [e]
        · exact (hi.H_lt_p1 k3 rfl hT2 e).le
      rw [th_low t0 t1 (by rw [s1, h1_eq k1.regular]; exact a.le), s1, h1_eq k1.regular, h1_eq k3.regular,
        if_pos ⟨by have := h1 rfl; linarith, a, b⟩]
    · have hs := r2_sat ht h hT
      have k4 := (isotherm2 ht.1 (h2 rfl)).1
      have a := hi.H_lt_p k2 (by decide) hs
      have b := (k4.H_lt_p hi (by decide) (by norm_num at *; linarith))
      have c := (liquid k1).1
      have c' := (liquid k3).1
      have d := (vapour k2 hT).1
      rw [Gr_2] at *
      rw [th_low t0 t1 (by rw [s1, h1_eq k1.regular]; linarith), s1, s2, h1_eq k1.regular, h1_eq k3.regular, h2_eq k2.regular,
        h2_eq k4.regular, if_neg (fun e => by linarith [e.2.2]), if_pos ⟨a, b⟩]
  rcases hr with rfl | rfl | rfl
  · exact low (r1_sat ht h).1 (.inl rfl)
  · rcases le_or_gt (t + 273.15) 623.15 with hT | hT
    · exact low hT (.inr rfl)
    · obtain ⟨k3, k4⟩ := isotherm2 ht.1 (h2 rfl)
      have k4 := k4 hT
      refine th_23 hT (h2 rfl) ?_ ?_
      · rw [B23_T2p_eq, h2_eq k4.regular]
        rcases eq_or_lt_of_le (r2_B23 h hT (h2 rfl)) with e | e
        · rw [e, Gr_2]
        · exact (hi.H_lt_p k4 (by decide) e).le
      · rw [h2_eq k3.regular]; exact k3.H_lt_p hi (by decide) (by norm_num at *; linarith)
  · cases h with
    | r5 a =>
      have k1 : InRange 5 50 (t + 273.15) := .inr (.inr ⟨rfl, by norm_num, le_rfl, a.le, ht.2⟩)
      have k2 : InRange 5 0.000611212677444 (t + 273.15) := .inr (.inr ⟨rfl, by norm_num, by norm_num, a.le, ht.2⟩)
      have le : ∀ {p q}, InRange 5 p (t + 273.15) → InRange 5 q (t + 273.15) → p ≤ q →
          (Gr 5).H q (t + 273.15) ≤ (Gr 5).H p (t + 273.15) := fun a b e => by
        rcases eq_or_lt_of_le e with e | e
        · rw [e]
        · exact (a.H_lt_p b (by decide) e).le
      refine th_5 a ht.2 ?_ ?_
      · rw [h5_eq k1.regular]; exact le hi k1 (hp.2.2 a)
      · rw [h5_eq k2.regular]; exact le k2 hi hpm

theorem cold {p t : ℝ} (h1 : 1 ≤ p) (h2 : p ≤ 100) (t1 : 0 ≤ t) (t2 : t ≤ 25) :
    PressureOk p (t + 273.15) ∧ TemperatureOk (t + 273.15) ∧ Region p (t + 273.15) 1 ∧ ¬ Gap p (t + 273.15) := by
  have ps := (Iv.psat_mono (T := t + 273.15) (T' := 298.15) (by norm_num at *; linarith) (by norm_num at *; linarith)
    (by norm_num)).trans Iv.up_298_15.le
  have ps0 := Sat.psat_pos (t + 273.15)
  have m : t + 273.15 ∈ Icc (273.15 : ℝ) 647.096 := ⟨by linarith, by norm_num at *; linarith⟩
  refine ⟨⟨by unfold pMin; norm_num at *; linarith, h2, fun h => by norm_num at *; linarith⟩, ⟨m.1, by norm_num at *; linarith⟩,
    .r1 (by norm_num at *; linarith) (isSat_psat m) (by norm_num at *; linarith) ?_, ?_⟩
  · rw [nearSat_iff m.1]
    rintro ⟨-, h⟩
    rw [div_lt_iff₀ ps0] at h
    have := le_abs_self (p - Sat.psat (t + 273.15))
    norm_num at *; linarith
  · rintro ⟨e, -⟩
    rw [e] at h1; unfold pMin at h1; norm_num at h1

/-- Water at 5 °C and 1 MPa: `pt` says region 1, `pv` on its volume finds no region and returns −9999.
(The test compares with the volume at 0 °C, but the density of water has a maximum at 4 °C.) -/
theorem C47_pv_violated : ∃ v : ℝ, Fn.pt.call0 1 5 Doc.idV = some v ∧ Fn.pt.call0 (1 : ℝ) 5 Doc.idR = some 1 ∧
    Fn.pv.call0 1 v Doc.idR = some (-9999) := by
  obtain ⟨hp, ht, h, hg⟩ := cold (p := 1) (t := 5) le_rfl (by norm_num) (by norm_num) (by norm_num)
  obtain ⟨e0, -, -, e3⟩ := pt0 (.inl rfl) hp ht h hg
  refine ⟨_, e3, by simpa using e0, ?_⟩
  have hi := inRange_of_region (.inl rfl) hp ht h
  obtain ⟨k1, k2, k3, k4, k5, k6⟩ := inRange_isobar_low (p := 1) (by norm_num) (by norm_num)
  have sa := (sat_side hp ht (by norm_num)).1 h
  suffices k : pv_sub_region 1 ((Gr 1).V 1 (5 + 273.15)) = -9999 by
    show some ((((pv_sub_region 1 ((Gr 1).V 1 (5 + 273.15)) : Int)) : ℝ)) = _
    rw [k]; norm_num
  rw [pv_low (by norm_num) (by norm_num), v1_eq k1.regular, v1_eq k2.regular, v2_eq k3.regular, v2_eq k4.regular]
  have a : G1.V 1 (5 + 273.15) < 0.00099964439 := by
    obtain ⟨B, hB, hm⟩ := Iv.cover_w2 (p := 1) le_rfl le_rfl
    have e := Iv.pos_lw2_w2 hB hm
    rw [show Iv.lw2 = Iv.cst 128719 1000000 :: Iv.dX Iv.t1 from rfl, Iv.evS_cons, Iv.cst_ev,
      show Iv.evS (Iv.dX Iv.t1) (7.1 - 1 / 16.53) (1386 / 278.15 - 1.222) (1386 / 278.15 - 1.222 + 1.222) =
        -G1.gp (1 / 16.53) (1386 / 278.15) by
          rw [← l1v_eq _ _ (1386 / 278.15 - 1.222 + 1.222), Iv.l1v, Iv.evS_ng, neg_neg]] at e
    simp only [Gibbs.V, show G1.ps = 16.53 from rfl, show G1.Ts = 1386 from rfl, show (5 + 273.15 : ℝ) = 278.15 by norm_num]
    generalize G1.gp (1 / 16.53) (1386 / 278.15) = b at *
    unfold gasR; norm_num at *; linarith
  have b : 0.00099964439 < G1.V 1 273.15 := by
    obtain ⟨B, hB, hm⟩ := Iv.cover_w1 (p := 1) le_rfl le_rfl
    have e := Iv.pos_lw1_w1 hB hm
    rw [show Iv.lw1 = Iv.cst (-131076) 1000000 :: Iv.l1v from rfl, Iv.evS_cons, Iv.cst_ev, l1v_eq] at e
    simp only [Gibbs.V, show G1.ps = 16.53 from rfl, show G1.Ts = 1386 from rfl]
    generalize G1.gp (1 / 16.53) (1386 / 273.15) = b at *
    unfold gasR; norm_num at *; linarith
  have c : G1.V 1 (5 + 273.15) < G1.V 1 (T_saturation 1) := by
    refine hi.V_lt_T k2 (fun _ => by norm_num) (lt_of_le_of_ne sa fun e => ?_)
    have := k5
    rw [← e] at this
    have ps := (Iv.psat_mono (T := 5 + 273.15) (T' := 298.15) (by norm_num) (by norm_num) (by norm_num)).trans Iv.up_298_15.le
    norm_num at *; linarith
  have d := (vapour k3 k6).2.2
  have f := (vapour_all k4).2.2
  rw [Gr_1, if_neg (fun e => by linarith [e.1]), if_neg (fun e => by norm_num at *; linarith [e.1]), if_neg (fun e => by linarith [e.1]),
    if_neg (fun e => by norm_num at *; linarith [e.1])]
  rfl

/-- Water at 1 °C and 10 MPa: `pt` says region 1, `ts` on its entropy says region 4, wet steam.
(Below 4 °C the entropy of water first increases with pressure.) -/
theorem C47_ts_violated : ∃ s : ℝ, Fn.pt.call0 10 1 Doc.idS = some s ∧ Fn.pt.call0 (10 : ℝ) 1 Doc.idR = some 1 ∧
    Fn.ts.call0 1 s Doc.idR = some 4 := by
  obtain ⟨hp, ht, h, hg⟩ := cold (p := 10) (t := 1) (by norm_num) (by norm_num) (by norm_num) (by norm_num)
  obtain ⟨e0, -, e3, -⟩ := pt0 (.inl rfl) hp ht h hg
  refine ⟨_, e3, by simpa using e0, ?_⟩
  have hi := inRange_of_region (.inl rfl) hp ht h
  obtain ⟨k1, k2⟩ := inRange_sat (T := 1 + 273.15) (by norm_num) (by norm_num)
  suffices k : ts_sub_region 1 ((Gr 1).S 10 (1 + 273.15)) = 4 by
    show some ((((ts_sub_region 1 ((Gr 1).S 10 (1 + 273.15)) : Int)) : ℝ)) = _
    rw [k]; norm_num
  have a : 0.0155 < G1.S 10 (1 + 273.15) := by
    obtain ⟨B, hB, hm⟩ := Iv.cover_w3 (p := 10) le_rfl le_rfl
    have e := Iv.pos_lw3_w3 hB hm
    rw [show Iv.lw3 = Iv.cst (-336) 10000 :: Iv.l1m from rfl, Iv.evS_cons, Iv.cst_ev, sub_add_cancel, l1m_eq _ _ (by norm_num)] at e
    simp only [Gibbs.S, show G1.ps = 16.53 from rfl, show G1.Ts = 1386 from rfl, show (1 + 273.15 : ℝ) = 274.15 by norm_num]
    generalize 1386 / 274.15 * G1.gt (10 / 16.53) (1386 / 274.15) - G1.g (10 / 16.53) (1386 / 274.15) = b at *
    unfold gasR; norm_num at *; linarith
  have ps1 : 0.0006 ≤ Sat.psat 274.15 := by
    have := Sat.psat_strictMonoOn.monotoneOn (a := 273.15) (b := 274.15) (by norm_num) (by norm_num) (by norm_num)
    have := Sat.psat_min.1
    norm_num at *; linarith
  have ps2 : Sat.psat 274.15 ≤ 0.0007 := by
    refine (lt_trans (Sat.psat_lt (b := 0.1626) (by norm_num) ?_ ?_) ?_).le
    · unfold Sat.qA Sat.qB Sat.th; norm_num
    · unfold Sat.Qf Sat.qA Sat.qB Sat.qC Sat.th; norm_num
    · norm_num
  have b : G1.S (Sat.psat (1 + 273.15)) (1 + 273.15) < 0.0155 := by
    rw [show (1 + 273.15 : ℝ) = 274.15 by norm_num]
    obtain ⟨B, hB, hm⟩ := Iv.cover_w4 (p := Sat.psat 274.15) ps1 ps2
    have e := Iv.pos_lw4_w4 hB hm
    have e' : Iv.evS Iv.lw4 (7.1 - Sat.psat 274.15 / 16.53) (1386 / 274.15 - 1.222) (1386 / 274.15) =
        0.0332 - (1386 / 274.15 * G1.gt (Sat.psat 274.15 / 16.53) (1386 / 274.15) - G1.g (Sat.psat 274.15 / 16.53) (1386 / 274.15)) := by
      rw [← l1m_eq _ _ (by norm_num), show Iv.lw4 = Iv.cst 332 10000 :: (Iv.t1 ++ Iv.ng (Iv.mZ (Iv.dY Iv.t1))) from rfl, Iv.l1m,
        Iv.evS_cons, Iv.cst_ev, Iv.evS_append, Iv.evS_append, Iv.evS_ng, Iv.evS_ng]
      norm_num; ring
    rw [sub_add_cancel, e'] at e
    simp only [Gibbs.S, show G1.ps = 16.53 from rfl, show G1.Ts = 1386 from rfl]
    generalize 1386 / 274.15 * G1.gt (Sat.psat 274.15 / 16.53) (1386 / 274.15) - G1.g (Sat.psat 274.15 / 16.53) (1386 / 274.15) = b at *
    unfold gasR; norm_num at *; linarith
  have c := (liquid hi).2.1
  have d := (vapour k2 (by norm_num)).2.1
  rw [Gr_1]
  rw [ts_low (by norm_num) (by norm_num) (by norm_num at *; linarith) (by norm_num at *; linarith), s1_eq k1.regular, s2_eq k2.regular,
    if_neg (fun e => by linarith [e.1]), if_neg (fun e => by linarith [e.1]), if_pos ⟨by linarith, by linarith⟩]

/-- A concrete state meets the hypotheses: 1 MPa, 5 °C, region 1. -/
example : ∃ y, Fn.pt.call0 (1 : ℝ) 5 Doc.idH = some y ∧ Fn.pt.call0 (1 : ℝ) 5 Doc.idR = some (1 : Int) ∧
    Fn.ph.call0 1 y Doc.idR = some (1 : Int) := by
  obtain ⟨hp, ht, h, hg⟩ := cold (p := 1) (t := 5) le_rfl (by norm_num) (by norm_num) (by norm_num)
  exact C47_ph 1 (.inl rfl) 1 5 hp ht h hg fun e => by omega

end If97
