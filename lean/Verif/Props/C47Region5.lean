import Verif.Lemmas.Join25
import Verif.Props.C47

/-!
# C47 in region 5

The equations of regions 2 and 5 do not meet exactly along 800 °C: the enthalpies there differ by up to 0.1 kJ/kg, the
volumes by up to 0.013 %.  `ph`, `ps` and `pv` separate the two regions by the value of the region 2 equation at 800 °C.
So a region 5 state just above 800 °C can be taken for region 2 (`C47_ph_5_violated`, `C47_ps_5_violated`,
`C47_pv_5_violated`, all at 800.01 °C); from 800.1 °C (`ph`, `ps`) and 800.15 °C (`pv`) on the region is the right one.
-/

namespace If97
open Domain Set TwoPhase

private theorem reg5 {p T : ℝ} (h : Region p T 5) : 1073.15 < T := by cases h with | r5 a => exact a

private theorem inR5 {p T : ℝ} (h0 : 0 < p) (h1 : p ≤ 50) (h2 : 1073.15 ≤ T) (h3 : T ≤ 2273.15) : InRange 5 p T :=
  .inr (.inr ⟨rfl, h0, h1, h2, h3⟩)

/-- Enthalpy: the pair (p, h) of a region 5 state from 800.1 °C is put in region 5. -/
theorem C47_ph_5 (p t : ℝ) (hp : PressureOk p (t + 273.15)) (ht : TemperatureOk (t + 273.15)) (hT : 800.1 ≤ t) :
    ∃ y, Fn.pt.call0 p t Doc.idH = some y ∧ Fn.pt.call0 p t Doc.idR = some 5 ∧ Fn.ph.call0 p y Doc.idR = some 5 := by
  have hlt : 1073.15 < t + 273.15 := by norm_num at *; linarith
  have h : Region p (t + 273.15) 5 := .r5 hlt
  have hg : ¬ Gap p (t + 273.15) := fun e => by have := e.2.1; norm_num at *; linarith
  have hr' : GibbsRegion 5 := .inr (.inr rfl)
  have hi := inRange_of_region hr' hp ht h
  obtain ⟨e0, e1, e2, -⟩ := pt0 hr' hp ht h hg
  refine ⟨_, e1, by simpa using e0, ?_⟩
  have h1 : (0.000611212677444 : ℝ) ≤ p := hp.1
  have hp0 : 0 < p := hi.p_pos
  have h50 := hp.2.2 hlt
  suffices k : ph_sub_region p ((Gr 5).H p (t + 273.15)) = 5 by
    show some ((((ph_sub_region p ((Gr 5).H p (t + 273.15)) : Int)) : ℝ)) = _
    rw [k]; norm_num
  have hm := ht.2
  have hT' : 1073.25 ≤ t + 273.15 := by norm_num at *; linarith
  generalize t + 273.15 = T at *
  have kh : InRange 5 p 2273.15 := inR5 hp0 h50 (by norm_num) le_rfl
  have kj : InRange 5 p 1073.25 := inR5 hp0 h50 (by norm_num) (by norm_num)
  have j := Iv.join_H hp0 h50
  have j1 : G5.H p 1073.25 ≤ G5.H p T := kj.H_le hi hT'
  have j2 : G5.H p T ≤ G5.H p 2273.15 := hi.H_le kh hm
  rw [Gr_5]
  rcases le_or_gt p 16.5291642526045 with hl | hl
  · obtain ⟨k1, k2, k3, k4, -, k6⟩ := inRange_isobar_low h1 hl
    rw [ph_low h1 hl, h1_eq k1.regular, h1_eq k2.regular, h2_eq k3.regular, h2_eq k4.regular, h5_eq kh.regular]
    have a := (liquid k2).1
    have b := (vapour_all k4).1
    have c : G2.H p (T_saturation p) ≤ G2.H p 1073.15 := k3.H_le k4 (by norm_num at *; linarith)
    rw [if_neg (fun e => by linarith [e.2]), if_neg (fun e => by linarith [e.2]), if_neg (fun e => by linarith [e.2]),
      if_pos ⟨by linarith, j2⟩]
  · obtain ⟨k1, k2, k3, k4, k5⟩ := inRange_isobar_high hl (by linarith : p ≤ 100)
    have c : G2.H p (TB23 p) ≤ G2.H p 1073.15 := k3.H_le k4 k5.le
    have hle : pT2h_reg2 p (B23_p2T p) ≤ pT2h_reg2 p 1073.15 := by
      rw [B23_p2T_eq, h2_eq k3.regular, h2_eq k4.regular]; exact c
    rw [ph_high hl (by linarith) hle, B23_p2T_eq, h1_eq k1.regular, h1_eq k2.regular, h2_eq k3.regular, h2_eq k4.regular,
      h5_eq kh.regular]
    have a := (liquid k2).1
    have b := (vapour_all k4).1
    rw [if_neg (fun e => by linarith [e.2]), if_neg (fun e => by linarith [e.2]), if_neg (fun e => by linarith [e.2]),
      if_pos ⟨h50, by linarith, j2⟩]

/-- Entropy: the pair (p, s) of a region 5 state from 800.1 °C is put in region 5. -/
theorem C47_ps_5 (p t : ℝ) (hp : PressureOk p (t + 273.15)) (ht : TemperatureOk (t + 273.15)) (hT : 800.1 ≤ t) :
    ∃ y, Fn.pt.call0 p t Doc.idS = some y ∧ Fn.pt.call0 p t Doc.idR = some 5 ∧ Fn.ps.call0 p y Doc.idR = some 5 := by
  have hlt : 1073.15 < t + 273.15 := by norm_num at *; linarith
  have h : Region p (t + 273.15) 5 := .r5 hlt
  have hg : ¬ Gap p (t + 273.15) := fun e => by have := e.2.1; norm_num at *; linarith
  have hr' : GibbsRegion 5 := .inr (.inr rfl)
  have hi := inRange_of_region hr' hp ht h
  obtain ⟨e0, e1, e2, -⟩ := pt0 hr' hp ht h hg
  refine ⟨_, e2, by simpa using e0, ?_⟩
  have h1 : (0.000611212677444 : ℝ) ≤ p := hp.1
  have hp0 : 0 < p := hi.p_pos
  have h50 := hp.2.2 hlt
  suffices k : ps_sub_region p ((Gr 5).S p (t + 273.15)) = 5 by
    show some ((((ps_sub_region p ((Gr 5).S p (t + 273.15)) : Int)) : ℝ)) = _
    rw [k]; norm_num
  have hm := ht.2
  have hT' : 1073.25 ≤ t + 273.15 := by norm_num at *; linarith
  generalize t + 273.15 = T at *
  have kh : InRange 5 p 2273.15 := inR5 hp0 h50 (by norm_num) le_rfl
  have kj : InRange 5 p 1073.25 := inR5 hp0 h50 (by norm_num) (by norm_num)
  have j := Iv.join_S hp0 h50
  have j1 : G5.S p 1073.25 ≤ G5.S p T := kj.S_le hi hT'
  have j2 : G5.S p T ≤ G5.S p 2273.15 := hi.S_le kh hm
  rw [Gr_5]
  rcases le_or_gt p 16.5291642526045 with hl | hl
  · obtain ⟨k1, k2, k3, k4, -, k6⟩ := inRange_isobar_low h1 hl
    rw [ps_low h1 hl, s1_eq k1.regular, s1_eq k2.regular, s2_eq k3.regular, s2_eq k4.regular, s5_eq kh.regular]
    have a := (liquid k2).2.1
    have b := (vapour_all k4).2.1
    have c : G2.S p (T_saturation p) ≤ G2.S p 1073.15 := k3.S_le k4 (by norm_num at *; linarith)
    rw [if_neg (fun e => by linarith [e.2]), if_neg (fun e => by linarith [e.2]), if_neg (fun e => by linarith [e.2]),
      if_pos ⟨by linarith, j2⟩]
  · obtain ⟨k1, k2, k3, k4, k5⟩ := inRange_isobar_high hl (by linarith : p ≤ 100)
    have c : G2.S p (TB23 p) ≤ G2.S p 1073.15 := k3.S_le k4 k5.le
    have hle : pT2s_reg2 p (B23_p2T p) ≤ pT2s_reg2 p 1073.15 := by
      rw [B23_p2T_eq, s2_eq k3.regular, s2_eq k4.regular]; exact c
    rw [ps_high hl (by linarith) hle, B23_p2T_eq, s1_eq k1.regular, s1_eq k2.regular, s2_eq k3.regular, s2_eq k4.regular,
      s5_eq kh.regular]
    have a := (liquid k2).2.1
    have b := (vapour_all k4).2.1
    rw [if_neg (fun e => by linarith [e.2]), if_neg (fun e => by linarith [e.2]), if_neg (fun e => by linarith [e.2]),
      if_pos ⟨h50, by linarith, j2⟩]

/-- `pv_sub_region` above the critical pressure, right of the 800 °C isotherm -/
private theorem pv_high5 {p v : ℝ} (h1 : 22.064 < p) (h2 : p ≤ 50) (h3 : pT2v_reg1 p 623.15 < v) (h4 : pT2v_reg2 p (B23_p2T p) ≤ v)
    (h5 : pT2v_reg2 p 1073.15 < v) (h6 : v ≤ pT2v_reg5 p 2273.15) : pv_sub_region p v = 5 := by
  unfold pv_sub_region
  have g : (p <. P_MIN2 || p >. (P_MAX2 : ℝ)) = false := by
    simp only [P_MIN2, P_MAX2, real_lt, Bool.or_eq_false_iff, decide_eq_false_iff_not, not_lt]
    norm_num at *; constructor <;> linarith
  have a1 : (p <=. (P_MIN3 : ℝ)) = false := by
    simp only [P_MIN3, real_le, decide_eq_false_iff_not, not_le]; norm_num at *; linarith
  have a2 : (p <=. (P_MAX3 : ℝ)) = true := by
    simp only [P_MAX3, real_le, decide_eq_true_eq]; norm_num at *; linarith
  have a3 : (p >. (P_MIN3 : ℝ)) = true := by
    simp only [P_MIN3, real_lt, decide_eq_true_eq]; norm_num at *; linarith
  have a4 : (p <=. (P_MAX2 : ℝ)) = true := by
    simp only [P_MAX2, real_le, decide_eq_true_eq]; norm_num at *; linarith
  have a5 : (p <=. (PC_WATER : ℝ)) = false := by
    simp only [PC_WATER, real_le, decide_eq_false_iff_not, not_le]; norm_num at *; linarith
  have a6 : (p >=. (P_MIN5 : ℝ) && p <=. P_MAX5) = true := by
    simp only [P_MIN5, P_MAX5, real_le, Bool.and_eq_true, decide_eq_true_eq]; norm_num at *; constructor <;> linarith
  have a7 : (p >. (P_MIN5 : ℝ) && p <=. P_MAX5) = true := by
    simp only [P_MIN5, P_MAX5, real_le, real_lt, Bool.and_eq_true, decide_eq_true_eq]; norm_num at *; constructor <;> linarith
  simp only [g, a1, a2, a3, a4, a5, a6, a7, if_true, Bool.and_false, Bool.false_and, Bool.false_or, Bool.true_and, Bool.false_eq_true,
    if_false]
  simp only [real_le, real_lt, Bool.and_eq_true, decide_eq_true_eq, h5, h6, not_le.2 h3, not_le.2 h5, not_lt.2 h4, and_self, and_false,
    if_true, if_false]

/-- Volume: the pair (p, v) of a region 5 state from 800.15 °C is put in region 5, at the pressures where no saturated
region 3 volume is compared. -/
theorem C47_pv_5 (p t : ℝ) (hp : PressureOk p (t + 273.15)) (ht : TemperatureOk (t + 273.15)) (hT : 800.15 ≤ t)
    (hlo : 0.000611213 < p) (h2 : p ≤ 16.5291642526045 ∨ 22.064 < p) :
    ∃ y, Fn.pt.call0 p t Doc.idV = some y ∧ Fn.pt.call0 p t Doc.idR = some 5 ∧ Fn.pv.call0 p y Doc.idR = some 5 := by
  have hlt : 1073.15 < t + 273.15 := by norm_num at *; linarith
  have h : Region p (t + 273.15) 5 := .r5 hlt
  have hg : ¬ Gap p (t + 273.15) := fun e => by have := e.2.1; norm_num at *; linarith
  have hr' : GibbsRegion 5 := .inr (.inr rfl)
  have hi := inRange_of_region hr' hp ht h
  obtain ⟨e0, -, -, e3⟩ := pt0 hr' hp ht h hg
  refine ⟨_, e3, by simpa using e0, ?_⟩
  have h1 : (0.000611212677444 : ℝ) ≤ p := hp.1
  have hp0 : 0 < p := hi.p_pos
  have h50 := hp.2.2 hlt
  suffices k : pv_sub_region p ((Gr 5).V p (t + 273.15)) = 5 by
    show some ((((pv_sub_region p ((Gr 5).V p (t + 273.15)) : Int)) : ℝ)) = _
    rw [k]; norm_num
  have hm := ht.2
  have hT' : 1073.3 ≤ t + 273.15 := by norm_num at *; linarith
  generalize t + 273.15 = T at *
  have kh : InRange 5 p 2273.15 := inR5 hp0 h50 (by norm_num) le_rfl
  have kj : InRange 5 p 1073.3 := inR5 hp0 h50 (by norm_num) (by norm_num)
  have j := Iv.join_V hp0 h50
  have j1 : G5.V p 1073.3 ≤ G5.V p T := kj.V_le_T hi (by omega) hT'
  have j2 : G5.V p T ≤ G5.V p 2273.15 := hi.V_le_T kh (by omega) hm
  rw [Gr_5]
  rcases h2 with hl | hl
  · obtain ⟨k1, k2, k3, k4, -, k6⟩ := inRange_isobar_low h1 hl
    rw [pv_low hlo (by norm_num at *; linarith), v1_eq k1.regular, v1_eq k2.regular, v2_eq k3.regular, v2_eq k4.regular,
      v5_eq kh.regular]
    have a := (liquid k2).2.2
    have b := (vapour k3 k6).2.2
    have c : G2.V p (T_saturation p) ≤ G2.V p 1073.15 := k3.V_le_T k4 (by omega) (by norm_num at *; linarith)
    rw [if_neg (fun e => by linarith [e.2]), if_neg (fun e => by linarith [e.2]), if_neg (fun e => by linarith [e.2]),
      if_pos ⟨by linarith, j2⟩]
  · obtain ⟨k1, k2, k3, k4, k5⟩ := inRange_isobar_high (p := p) (by norm_num at *; linarith) (by linarith)
    have a := liquid_623 (p := p) (by norm_num at *; linarith) (by linarith)
    have b := (vapour_all k4).2.2
    have c : G2.V p (TB23 p) ≤ G2.V p 1073.15 := k3.V_le_T k4 (by omega) k5.le
    refine pv_high5 hl h50 ?_ ?_ ?_ ?_
    · rw [v1_eq k2.regular]; linarith
    · rw [B23_p2T_eq, v2_eq k3.regular]; linarith
    · rw [v2_eq k4.regular]; linarith
    · rw [v5_eq kh.regular]; exact j2

/-- the state of the counterexamples -/
private theorem warm {p : ℝ} (h1 : 1 ≤ p) (h2 : p ≤ 50) :
    PressureOk p (800.01 + 273.15) ∧ TemperatureOk (800.01 + 273.15) ∧ Region p (800.01 + 273.15) 5 ∧ ¬ Gap p (800.01 + 273.15) :=
  ⟨⟨by unfold pMin; norm_num; linarith, by linarith, fun _ => h2⟩, ⟨by norm_num, by norm_num⟩, .r5 (by norm_num),
    fun e => by have := e.2.1; norm_num at this⟩

/-- Steam at 800.01 °C and 10 MPa is in region 5, but `ph` puts its enthalpy in region 2. -/
theorem C47_ph_5_violated : ∃ y : ℝ, Fn.pt.call0 10 800.01 Doc.idH = some y ∧ Fn.pt.call0 (10 : ℝ) 800.01 Doc.idR = some 5 ∧
    Fn.ph.call0 10 y Doc.idR = some 2 := by
  obtain ⟨hp, ht, h, hg⟩ := warm (p := 10) (by norm_num) (by norm_num)
  obtain ⟨e0, e1, -, -⟩ := pt0 (.inr (.inr rfl)) hp ht h hg
  refine ⟨_, e1, by simpa using e0, ?_⟩
  suffices k : ph_sub_region 10 ((Gr 5).H 10 (800.01 + 273.15)) = 2 by
    show some ((((ph_sub_region 10 ((Gr 5).H 10 (800.01 + 273.15)) : Int)) : ℝ)) = _
    rw [k]; norm_num
  have kj : InRange 2 10 1000 := .inr (.inl ⟨rfl, by norm_num, by norm_num, by norm_num, by norm_num,
    fun e => by norm_num at e, fun _ e => by norm_num at e⟩)
  have g := Iv.gap_H
  have f := Iv.near_H
  obtain ⟨k1, k2, k3, k4, k5, k6⟩ := inRange_isobar_low (p := 10) (by norm_num) (by norm_num)
  rw [Gr_5, show (800.01 + 273.15 : ℝ) = 1073.16 by norm_num, ph_low (by norm_num) (by norm_num), h1_eq k1.regular, h1_eq k2.regular,
    h2_eq k3.regular, h2_eq k4.regular]
  have a := (liquid k2).1
  have b := (vapour_all k3).1
  have c : G2.H 10 (T_saturation 10) ≤ G2.H 10 1000 := k3.H_le kj (by norm_num at *; linarith)
  rw [if_neg (fun e => by linarith [e.2]), if_neg (fun e => by linarith [e.2]), if_pos ⟨by linarith, g.le⟩]

/-- Steam at 800.01 °C and 10 MPa is in region 5, but `ps` puts its entropy in region 2. -/
theorem C47_ps_5_violated : ∃ y : ℝ, Fn.pt.call0 10 800.01 Doc.idS = some y ∧ Fn.pt.call0 (10 : ℝ) 800.01 Doc.idR = some 5 ∧
    Fn.ps.call0 10 y Doc.idR = some 2 := by
  obtain ⟨hp, ht, h, hg⟩ := warm (p := 10) (by norm_num) (by norm_num)
  obtain ⟨e0, -, e1, -⟩ := pt0 (.inr (.inr rfl)) hp ht h hg
  refine ⟨_, e1, by simpa using e0, ?_⟩
  suffices k : ps_sub_region 10 ((Gr 5).S 10 (800.01 + 273.15)) = 2 by
    show some ((((ps_sub_region 10 ((Gr 5).S 10 (800.01 + 273.15)) : Int)) : ℝ)) = _
    rw [k]; norm_num
  have kj : InRange 2 10 1000 := .inr (.inl ⟨rfl, by norm_num, by norm_num, by norm_num, by norm_num,
    fun e => by norm_num at e, fun _ e => by norm_num at e⟩)
  have g := Iv.gap_S
  have f := Iv.near_S
  obtain ⟨k1, k2, k3, k4, k5, k6⟩ := inRange_isobar_low (p := 10) (by norm_num) (by norm_num)
  rw [Gr_5, show (800.01 + 273.15 : ℝ) = 1073.16 by norm_num, ps_low (by norm_num) (by norm_num), s1_eq k1.regular, s1_eq k2.regular,
    s2_eq k3.regular, s2_eq k4.regular]
  have a := (liquid k2).2.1
  have b := (vapour_all k3).2.1
  have c : G2.S 10 (T_saturation 10) ≤ G2.S 10 1000 := k3.S_le kj (by norm_num at *; linarith)
  rw [if_neg (fun e => by linarith [e.2]), if_neg (fun e => by linarith [e.2]), if_pos ⟨by linarith, g.le⟩]

/-- Steam at 800.01 °C and 45 MPa is in region 5, but `pv` puts its volume in region 2. -/
theorem C47_pv_5_violated : ∃ y : ℝ, Fn.pt.call0 45 800.01 Doc.idV = some y ∧ Fn.pt.call0 (45 : ℝ) 800.01 Doc.idR = some 5 ∧
    Fn.pv.call0 45 y Doc.idR = some 2 := by
  obtain ⟨hp, ht, h, hg⟩ := warm (p := 45) (by norm_num) (by norm_num)
  obtain ⟨e0, -, -, e1⟩ := pt0 (.inr (.inr rfl)) hp ht h hg
  refine ⟨_, e1, by simpa using e0, ?_⟩
  suffices k : pv_sub_region 45 ((Gr 5).V 45 (800.01 + 273.15)) = 2 by
    show some ((((pv_sub_region 45 ((Gr 5).V 45 (800.01 + 273.15)) : Int)) : ℝ)) = _
    rw [k]; norm_num
  have kj : InRange 2 45 1000 := .inr (.inl ⟨rfl, by norm_num, by norm_num, by norm_num, by norm_num,
    fun e => by norm_num at e, fun _ e => by norm_num at e⟩)
  have g := Iv.gap_V
  have f := Iv.near_V
  obtain ⟨k1, k2, k3, k4, k5⟩ := inRange_isobar_high (p := 45) (by norm_num) (by norm_num)
  have a := liquid_623 (p := 45) (by norm_num) (by norm_num)
  have b := (vapour_all k3).2.2
  have c0 : TB23 45 ≤ 863.15 := by
    have : Real.sqrt ((45 - 13.91883977887) / 0.0010192970039326) ≤ 290.60540137254 := by
      rw [Real.sqrt_le_left (by norm_num), div_le_iff₀ (by norm_num)]; norm_num
    unfold TB23; norm_num at *; linarith
  have c : G2.V 45 (TB23 45) ≤ G2.V 45 1000 := k3.V_le_T kj (by omega) (by norm_num at *; linarith)
  rw [Gr_5, show (800.01 + 273.15 : ℝ) = 1073.16 by norm_num]
  refine pv_high2 (by norm_num) (by norm_num) ?_ ?_ ?_
  · rw [v1_eq k2.regular]; linarith
  · rw [B23_p2T_eq, v2_eq k3.regular]; linarith
  · rw [v2_eq k4.regular]; exact g.le

/-- A concrete state meets the hypotheses: 10 MPa, 900 °C. -/
example : ∃ y, Fn.pt.call0 (10 : ℝ) 900 Doc.idV = some y ∧ Fn.pt.call0 (10 : ℝ) 900 Doc.idR = some 5 ∧
    Fn.pv.call0 10 y Doc.idR = some 5 :=
  C47_pv_5 10 900 ⟨by unfold pMin; norm_num, by norm_num, fun _ => by norm_num⟩ ⟨by norm_num, by norm_num⟩ (by norm_num)
    (by norm_num) (.inl (by norm_num))

end If97
