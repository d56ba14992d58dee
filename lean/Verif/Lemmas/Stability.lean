import Verif.Lemmas.InRange
import Verif.Lemmas.Iv.R2L
import Verif.Lemmas.Iv.R2a
import Verif.Lemmas.Iv.R5
import Verif.Lemmas.Tm.DetBack

/-! Helper lemmas for C41, C42: signs of the derivatives of the Gibbs functions on their regions.  Most of them come out of the Taylor
models for the determinant of the second derivatives (`Lemmas/Tm/DetBack.lean`). -/

namespace If97
open Iv

/-! the Gibbs functions as polynomials -/

section
variable (x y : ℝ)

theorem o2_0 : idealSum r2_n0 r2_J0 9 y = evS o2 x (y - 0.5) y := by
  simp only [idealSum, nthF, nthI, r2_n0, r2_J0, show List.range' 0 9 = [0, 1, 2, 3, 4, 5, 6, 7, 8] from rfl, o2, evS, SM.ev,
    List.map_cons, List.map_nil, List.sum_cons, List.sum_nil]
  norm_num
theorem o2_1 : idealSum1 r2_n0 r2_J0 9 y = evS (dY o2) x (y - 0.5) y := by
  simp only [idealSum1, nthF, nthI, r2_n0, r2_J0, show List.range' 0 9 = [0, 1, 2, 3, 4, 5, 6, 7, 8] from rfl, o2, dY, evS, SM.ev,
    List.map_cons, List.map_nil, List.sum_cons, List.sum_nil, List.cons_append, List.nil_append]
  norm_num
theorem o2_2 : idealSum2 r2_n0 r2_J0 9 y = evS (dY (dY o2)) x (y - 0.5) y := by
  simp only [idealSum2, nthF, nthI, r2_n0, r2_J0, show List.range' 0 9 = [0, 1, 2, 3, 4, 5, 6, 7, 8] from rfl, o2, dY, evS, SM.ev,
    List.map_cons, List.map_nil, List.sum_cons, List.sum_nil, List.cons_append, List.nil_append]
  norm_num
theorem o5_2 : idealSum2 r5_no r5_Jo 6 y = evS (dY (dY o5)) x y y := by
  simp only [idealSum2, nthF, nthI, r5_no, r5_Jo, show List.range' 0 6 = [0, 1, 2, 3, 4, 5] from rfl, o5, dY, evS, SM.ev,
    List.map_cons, List.map_nil, List.sum_cons, List.sum_nil, List.cons_append, List.nil_append]
  norm_num

theorem dY_append (a b : List SM) (x y z : ℝ) : evS (dY (a ++ b)) x y z = evS (dY a) x y z + evS (dY b) x y z := by
  simp only [dY, List.map_append, evS_append]; ring
theorem dYY_append (a b : List SM) (x y z : ℝ) :
    evS (dY (dY (a ++ b))) x y z = evS (dY (dY a)) x y z + evS (dY (dY b)) x y z := by
  simp only [dY, List.map_append, evS_append]; ring


theorem l1v_eq (z : ℝ) : evS l1v (7.1 - x) (y - 1.222) z = G1.gp x y := by
  simp only [l1v, evS_ng, G1, t1_eq, tab_i _ _ z noZ_1]
theorem l2v_eq (z : ℝ) (hx : x ≠ 0) : evS l2v x (y - 0.5) z = x * G2.gp x y := by
  simp only [l2v, evS_cons, cst_ev, evS_mX, G2, idealGibbs, t2_eq, tab_i _ _ z noZ_2]
  field_simp; norm_num
theorem l2k_eq (z : ℝ) (hx : x ≠ 0) : evS l2k x (y - 0.5) z = -(x ^ 2 * G2.gpp x y) := by
  simp only [l2k, evS_cons, cst_ev, evS_ng, evS_mX, G2, idealGibbs, t2_eq, tab_ii _ _ z noZ_2]
  field_simp; norm_num; ring
theorem l2c_eq : evS l2c x (y - 0.5) y = -G2.gtt x y := by
  simp only [l2c, evS_ng, dYY_append, G2, idealGibbs, t2_eq, tab_jj _ _ y noZ_2, o2_2 x]


theorem l5v_eq (z : ℝ) (hx : x ≠ 0) : evS l5v x y z = x * G5.gp x y := by
  simp only [l5v, evS_cons, cst_ev, evS_mX, G5, idealGibbs, t5_eq, tab_i _ _ z noZ_5, sub_zero]
  field_simp; norm_num
theorem dX_dY (l : List SM) : dX (dY l) = dY (dX l) := by
  simp only [dX, dY, List.map_append, List.map_map, Function.comp_def, mul_right_comm]
theorem l2x_eq (hx : x ≠ 0) (hy : y ≠ 0) : evS l2x x (y - 0.5) y = x * (G2.gp x y - y * G2.gpt x y) := by
  simp only [l2x, dX_dY, evS_cons, cst_ev, evS_append, evS_ng, evS_mZ _ _ _ hy, evS_mX, G2, idealGibbs, t2_eq, tab_i _ _ y noZ_2,
    tab_ij _ _ y noZ_2]
  field_simp; norm_num; ring
end

/-- the boxes of region 2, both parts -/
theorem cover2 {p T : ℝ} (h : InRange 2 p T) :
    (∃ B ∈ boxes2a, B.Mem p (540 / T - 0.5)) ∨ ∃ B ∈ boxes2b, B.Mem p (540 / T - 0.5) := by
  rcases h with h | h | h
  · omega
  · obtain ⟨-, h1, h2, h3, h4, h5, h6⟩ := h
    rcases le_or_gt T 623.15 with hT | hT
    · exact .inl (cover2a h2 hT h1.le (h5 hT))
    · exact .inr (cover2b hT.le h3 h1.le h4 (h6 hT))
  · omega

/-- region 2 below the triple point pressure -/
theorem low2 {p T : ℝ} (h : InRange 2 p T) (hp : p ≤ 0.000612) : box2l.Mem p (540 / T - 0.5) := by
  have h0 := h.p_pos
  rcases h with h | h | h
  · omega
  · exact Box.mem_of (Ta := 273.1499999) (Tb := 1073.15) (by norm_num) (by norm_num) h.2.2.1 h.2.2.2.1 (by norm_num; linarith)
      (by norm_num at *; linarith) (by norm_num) (by norm_num)
  · omega

/-- from the determinant and one of the diagonal elements to the other -/
theorem neg_of_det {y f g b : ℝ} (hy : 0 < y) (h1 : 0 < -(y ^ 2 * f)) (h2 : 0 < -(y ^ 2 * f) * -g - b ^ 2) : g < 0 ∧ f < 0 := by
  have : 0 < -(y ^ 2 * f) * -g := by nlinarith [sq_nonneg b]
  exact ⟨by linarith [(pos_iff_pos_of_mul_pos this).1 h1], neg_of_mul_neg_right (a := y ^ 2) (by linarith) (by positivity)⟩

/-- the same from what the Taylor models give in regions 2 and 5 -/
theorem Tm.DetI.signs {G : Gibbs} {k : Bool} {x y : ℝ} (h : Tm.DetI G k x y) (hx : 0 < x) (hy : 0 < y) :
    0 < G.gp x y ∧ G.gpp x y < 0 ∧ G.gtt x y < 0 := by
  obtain ⟨h1, h2⟩ := neg_of_det hy h.1.1 h.2.1
  exact ⟨(pos_iff_pos_of_mul_pos h.1.2.2).1 hx, neg_of_mul_neg_right (a := x ^ 2) (by linarith) (by positivity), h2⟩

theorem Tm.DetI.expand {G : Gibbs} {k : Bool} {x y : ℝ} (h : Tm.DetI G k x y) (hx : 0 < x) : 0 < G.gp x y - y * G.gpt x y := by
  have e : x * G.gp x y - y * (x * G.gpt x y) = x * (G.gp x y - y * G.gpt x y) := by ring
  exact (pos_iff_pos_of_mul_pos (e ▸ h.1.2.1)).1 hx

/-- γ_π > 0, γ_ππ < 0, γ_ττ < 0 on the whole region -/
theorem InRange.signs {r p T} (h : InRange r p T) :
    0 < (Gr r).gp (p / (Gr r).ps) ((Gr r).Ts / T) ∧ (Gr r).gpp (p / (Gr r).ps) ((Gr r).Ts / T) < 0 ∧
    (Gr r).gtt (p / (Gr r).ps) ((Gr r).Ts / T) < 0 := by
  have hp := h.p_pos
  have hT := h.T_pos
  rcases h.gibbs with rfl | rfl | rfl
  · rw [Gr_1, show G1.ps = 16.53 from rfl, show G1.Ts = 1386 from rfl]
    obtain ⟨e1, e2, -, e4⟩ := Tm.det1_signs h
    obtain ⟨h1, h2⟩ := neg_of_det (y := 1386 / T) (g := G1.gpp (p / 16.53) (1386 / T))
      (b := G1.gp (p / 16.53) (1386 / T) - 1386 / T * G1.gpt (p / 16.53) (1386 / T)) (by positivity) e1
      (lt_of_lt_of_eq e4 (by unfold Gibbs.det; ring))
    exact ⟨e2, h1, h2⟩
  · rw [Gr_2, show G2.ps = 1 from rfl, show G2.Ts = 540 from rfl, div_one]
    rcases le_total p 0.000612 with hl | hl
    · have hm := low2 h hl
      have e1 := low_l2v hm; have e2 := low_l2k hm; have e3 := low_l2c hm
      rw [sub_add_cancel, l2v_eq _ _ _ hp.ne'] at e1; rw [sub_add_cancel, l2k_eq _ _ _ hp.ne'] at e2
      rw [sub_add_cancel, l2c_eq] at e3
      exact ⟨(pos_iff_pos_of_mul_pos e1).1 hp, neg_of_mul_neg_right (a := p ^ 2) (by linarith) (by positivity), by linarith⟩
    · exact (Tm.det2_pos h (by norm_num at *; linarith)).signs hp (by positivity)
  · rw [Gr_5, show G5.ps = 1 from rfl, show G5.Ts = 1000 from rfl, div_one]
    exact (Tm.det5_pos h).signs hp (by positivity)

/-- volume, heat capacity positive and (∂v/∂p)_T negative on the whole region -/
theorem InRange.stable {r p T} (h : InRange r p T) :
    0 < (Gr r).V p T ∧ 0 < (Gr r).Cp p T ∧ (Gr r).Dvdp p T < 0 := by
  obtain ⟨h1, h2, h3⟩ := h.signs
  have hT := h.T_pos
  have hR := gasR_pos
  have hps : 0 < (Gr r).ps ∧ 0 < (Gr r).Ts := by
    rcases h.gibbs with rfl | rfl | rfl <;> constructor <;> simp [Gr, G1, G2, G5, idealGibbs] <;> norm_num
  obtain ⟨hps, hTs⟩ := hps
  refine ⟨?_, ?_, ?_⟩
  · unfold Gibbs.V; positivity
  · unfold Gibbs.Cp
    have : 0 < -(Gr r).gtt (p / (Gr r).ps) ((Gr r).Ts / T) := by linarith
    have e : -gasR * ((Gr r).Ts / T) ^ 2 * (Gr r).gtt (p / (Gr r).ps) ((Gr r).Ts / T) =
        gasR * ((Gr r).Ts / T) ^ 2 * -(Gr r).gtt (p / (Gr r).ps) ((Gr r).Ts / T) := by ring
    rw [e]; positivity
  · unfold Gibbs.Dvdp
    exact div_neg_of_neg_of_pos (mul_neg_of_pos_of_neg (by positivity) h2) (by positivity)

/-- the thermal expansion is positive: regions 2 and 5, and region 1 from 5 °C on -/
theorem InRange.expand {r p T} (h : InRange r p T) (h5 : r = 1 → 278.15 ≤ T) : 0 < (Gr r).B p T := by
  have hp := h.p_pos
  have hT := h.T_pos
  rcases h.gibbs with rfl | rfl | rfl
  · rw [Gr_1, Gibbs.B, show G1.ps = 16.53 from rfl, show G1.Ts = 1386 from rfl]
    exact (Tm.det1_expand h (h5 rfl)).2.2.1 rfl
  · rw [Gr_2, Gibbs.B, show G2.ps = 1 from rfl, show G2.Ts = 540 from rfl, div_one]
    rcases le_total p 0.000612 with hl | hl
    · have key := low_l2x (low2 h hl)
      rw [sub_add_cancel, l2x_eq _ _ hp.ne' (by positivity)] at key
      exact (pos_iff_pos_of_mul_pos key).1 hp
    · exact (Tm.det2_pos h (by norm_num at *; linarith)).expand hp
  · rw [Gr_5, Gibbs.B, show G5.ps = 1 from rfl, show G5.Ts = 1000 from rfl, div_one]
    exact (Tm.det5_pos h).expand hp

theorem InRange.Dvdt_pos {r p T} (h : InRange r p T) (h5 : r = 1 → 278.15 ≤ T) : 0 < (Gr r).Dvdt p T := by
  have h1 := h.expand h5
  have hR := gasR_pos
  have hps : 0 < (Gr r).ps := by
    rcases h.gibbs with rfl | rfl | rfl <;> simp [Gr, G1, G2, G5, idealGibbs] <;> norm_num
  unfold Gibbs.Dvdt; positivity

/-- the states of the region map -/
theorem inRange_of_region {r p T} (hr : GibbsRegion r) (hp : Domain.PressureOk p T) (ht : Domain.TemperatureOk T)
    (h : Domain.Region p T r) : InRange r p T := by
  have hp0 : 0 < p := lt_of_lt_of_le (by unfold Domain.pMin; norm_num) hp.1
  have hp100 : p ≤ 100.0000001 := by have := hp.2.1; norm_num; linarith
  have ht' : 273.1499999 ≤ T := by have := ht.1; norm_num at *; linarith
  have sat : T ≤ 623.15 → T ∈ Set.Icc (273.15 : ℝ) 647.096 := fun h => ⟨ht.1, by norm_num at *; linarith⟩
  cases h with
  | r1 h1 h2 h3 h4 =>
    have e : Sat.psat T ≤ p := (Domain.IsSat.eq (sat h1) h2) ▸ h3
    exact .inl ⟨rfl, hp0, ht', h1, by norm_num; linarith, hp.2.1⟩
  | r2_below_sat h1 h2 h3 h4 =>
    have e : p ≤ Sat.psat T := (Domain.IsSat.eq (sat h1) h2) ▸ h3.le
    exact .inr (.inl ⟨rfl, hp0, ht', by norm_num at *; linarith, hp100, fun _ => by norm_num; linarith,
      fun h => absurd h1 (not_le.2 h)⟩)
  | r2_below_B23 h1 h2 h3 h4 =>
    exact .inr (.inl ⟨rfl, hp0, ht', by norm_num at *; linarith, hp100, fun h => absurd h (not_le.2 h1), fun _ _ => by norm_num; linarith⟩)
  | r2_hot h1 h2 =>
    exact .inr (.inl ⟨rfl, hp0, ht', h2, hp100, fun h => absurd h (not_le.2 (by norm_num at *; linarith)),
      fun _ h => absurd h (not_le.2 h1)⟩)
  | r3 => rcases hr with h | h | h <;> omega
  | r4 => rcases hr with h | h | h <;> omega
  | r5 h1 => exact .inr (.inr ⟨rfl, hp0, hp.2.2 h1, h1.le, ht.2⟩)

/-! monotonicity -/

theorem Gibbs.dS_dT {G : Gibbs} {p T : ℝ} (hs : G.Smooth (p / G.ps) (G.Ts / T)) (hT0 : T ≠ 0) :
    HasDerivAt (fun T => G.S p T) (G.Cp p T / T) T := by
  have h1 : HasDerivAt (fun T => G.gt (p / G.ps) (G.Ts / T)) (G.gtt (p / G.ps) (G.Ts / T) * (-(G.Ts / T ^ 2))) T :=
    HasDerivAt.comp (h₂ := fun y => G.gt (p / G.ps) y) T hs.gtt (Gibbs.hT hT0)
  have h2 : HasDerivAt (fun T => G.g (p / G.ps) (G.Ts / T)) (G.gt (p / G.ps) (G.Ts / T) * (-(G.Ts / T ^ 2))) T :=
    HasDerivAt.comp (h₂ := fun y => G.g (p / G.ps) y) T hs.gt (Gibbs.hT hT0)
  refine ((((Gibbs.hT (G := G) hT0).mul h1).sub h2).const_mul gasR).congr_deriv ?_
  unfold Gibbs.Cp; field_simp; ring

/-- at a given pressure the region is an interval of temperatures -/
theorem InRange.between {r p T T' T''} (h : InRange r p T) (h' : InRange r p T') (h1 : T ≤ T'') (h2 : T'' ≤ T') :
    InRange r p T'' := by
  have mono : ∀ {a b : ℝ}, 273.1499999 ≤ a → a ≤ b → b ≤ 623.15 → Sat.psat a ≤ Sat.psat b := fun h1 h2 h3 =>
    psat_mono (by norm_num at h1 ⊢; linarith) h2 h3
  rcases h with h | h | h
  · rcases h' with h' | h' | h'
    · exact .inl ⟨h.1, h.2.1, h.2.2.1.trans h1, h2.trans h'.2.2.2.1,
        (mono (h.2.2.1.trans h1) h2 h'.2.2.2.1).trans h'.2.2.2.2.1, h.2.2.2.2.2⟩
    all_goals omega
  · rcases h' with h' | h' | h'
    · omega
    · obtain ⟨hr, hp, a1, a2, a3, a4, a5⟩ := h
      obtain ⟨-, -, b1, b2, -, b4, b5⟩ := h'
      refine .inr (.inl ⟨hr, hp, a1.trans h1, h2.trans b2, a3, fun hT => ?_, fun hT hT' => ?_⟩)
      · exact (a4 (h1.trans hT)).trans (add_le_add_left (mono a1 h1 hT) _)
      · have hB : ∀ {a b : ℝ}, 623.15 ≤ a → a ≤ b → Domain.pB23 a ≤ Domain.pB23 b := fun h1 h2 => by
          unfold Domain.pB23; norm_num at h1 ⊢; nlinarith
        rcases le_or_gt T 623.15 with hc | hc
        · refine (a4 hc).trans (add_le_add_left (((mono a1 hc (by norm_num)).trans ?_).trans (hB le_rfl hT.le)) _)
          refine Sat.psat_623.2.le.trans ?_
          unfold Domain.pB23; norm_num
        · exact (a5 hc (h1.trans hT')).trans (add_le_add_left (hB hc.le h1) _)
    · omega
  · rcases h' with h' | h' | h'
    · omega
    · omega
    · exact .inr (.inr ⟨h.1, h.2.1, h.2.2.1, h.2.2.2.1.trans h1, h2.trans h'.2.2.2.2⟩)

/-- at a given temperature the region is an interval of pressures -/
theorem InRange.between_p {r p p' p'' T} (h : InRange r p T) (h' : InRange r p' T) (h1 : p ≤ p'') (h2 : p'' ≤ p') :
    InRange r p'' T := by
  rcases h with h | h | h
  · rcases h' with h' | h' | h'
    · exact .inl ⟨h.1, h.2.1.trans_le h1, h.2.2.1, h.2.2.2.1, h.2.2.2.2.1.trans (add_le_add_left h1 _), h2.trans h'.2.2.2.2.2⟩
    all_goals omega
  · rcases h' with h' | h' | h'
    · omega
    · obtain ⟨hr, hp, a1, a2, a3, a4, a5⟩ := h
      obtain ⟨-, -, b1, b2, b3, b4, b5⟩ := h'
      exact .inr (.inl ⟨hr, hp.trans_le h1, a1, a2, h2.trans b3, fun hT => h2.trans (b4 hT), fun hT hT' => h2.trans (b5 hT hT')⟩)
    · omega
  · rcases h' with h' | h' | h'
    · omega
    · omega
    · exact .inr (.inr ⟨h.1, h.2.1.trans_le h1, h2.trans h'.2.2.1, h.2.2.2.1, h.2.2.2.2⟩)

theorem strictMono_of_deriv {f f' : ℝ → ℝ} {a b : ℝ} (hab : a < b) (hd : ∀ x ∈ Set.Icc a b, HasDerivAt f (f' x) x)
    (hp : ∀ x ∈ Set.Icc a b, 0 < f' x) : f a < f b := by
  refine strictMonoOn_of_deriv_pos (convex_Icc a b) (fun x hx => (hd x hx).continuousAt.continuousWithinAt)
    (fun x hx => ?_) ⟨le_rfl, hab.le⟩ ⟨hab.le, le_rfl⟩ hab
  rw [(hd x (interior_subset hx)).deriv]; exact hp x (interior_subset hx)

theorem InRange.H_lt {r p T T'} (h : InRange r p T) (h' : InRange r p T') (hlt : T < T') :
    (Gr r).H p T < (Gr r).H p T' :=
  strictMono_of_deriv hlt (fun x hx => Gibbs.dH_dT ((h.between h' hx.1 hx.2).regular.smooth h.gibbs)
    (h.between h' hx.1 hx.2).T_pos.ne') fun x hx => (h.between h' hx.1 hx.2).stable.2.1

theorem InRange.S_lt {r p T T'} (h : InRange r p T) (h' : InRange r p T') (hlt : T < T') :
    (Gr r).S p T < (Gr r).S p T' :=
  strictMono_of_deriv hlt (fun x hx => Gibbs.dS_dT ((h.between h' hx.1 hx.2).regular.smooth h.gibbs)
    (h.between h' hx.1 hx.2).T_pos.ne') fun x hx =>
      div_pos (h.between h' hx.1 hx.2).stable.2.1 (h.between h' hx.1 hx.2).T_pos

theorem InRange.V_lt {r p p' T} (h : InRange r p T) (h' : InRange r p' T) (hlt : p < p') :
    (Gr r).V p' T < (Gr r).V p T := by
  have := strictMono_of_deriv (f := fun p => -(Gr r).V p T) hlt
    (fun x hx => (Gibbs.dV_dp ((h.between_p h' hx.1 hx.2).regular.smooth h.gibbs)).neg)
    fun x hx => by have := (h.between_p h' hx.1 hx.2).stable.2.2; linarith
  linarith

theorem InRange.S_lt_p {r p p' T} (h : InRange r p T) (h' : InRange r p' T) (h5 : r = 1 → 278.15 ≤ T) (hlt : p < p') :
    (Gr r).S p' T < (Gr r).S p T := by
  have := strictMono_of_deriv (f := fun p => -(Gr r).S p T) hlt
    (fun x hx => (Gibbs.dS_dp ((h.between_p h' hx.1 hx.2).regular.smooth h.gibbs)).neg)
    fun x hx => by have := (h.between_p h' hx.1 hx.2).Dvdt_pos h5; linarith
  linarith

theorem InRange.V_lt_T {r p T T'} (h : InRange r p T) (h' : InRange r p T') (h5 : r = 1 → 278.15 ≤ T) (hlt : T < T') :
    (Gr r).V p T < (Gr r).V p T' :=
  strictMono_of_deriv hlt (fun x hx => Gibbs.dV_dT ((h.between h' hx.1 hx.2).regular.smooth h.gibbs)
    (h.between h' hx.1 hx.2).T_pos.ne') fun x hx => (h.between h' hx.1 hx.2).Dvdt_pos fun e => (h5 e).trans hx.1

end If97
