import Verif.Lemmas.Stability
import Verif.Lemmas.Stab3

/-! Helper lemmas for C58: enthalpy, entropy and pressure of two states of one region.  h = g + T s, g is concave in T
(dg/dT = -s and s grows with T) and grows with p (dg/dp = v > 0). -/

namespace If97

theorem Gibbs.H_eq (G : Gibbs) {p T : ℝ} (hT : T ≠ 0) : G.H p T = G.Gf p T + T * G.S p T := by
  unfold Gibbs.H Gibbs.Gf Gibbs.S
  field_simp
  ring

/-- in regions 1 and 5 a state stays in range when the pressure grows -/
theorem InRange.raise {r p q T T'} (h : InRange r p T) (h' : InRange r q T') (hr : r ≠ 2) (hpq : p ≤ q) : InRange r q T := by
  rcases h with h | h | h
  · rcases h' with h' | h' | h'
    · exact .inl ⟨h.1, h'.2.1, h.2.2.1, h.2.2.2.1, by linarith [h.2.2.2.2.1], h'.2.2.2.2.2⟩
    all_goals omega
  · exact absurd h.1 hr
  · rcases h' with h' | h' | h'
    · omega
    · omega
    · exact .inr (.inr ⟨h.1, h'.2.1, h'.2.2.1, h.2.2.2.1, h.2.2.2.2⟩)

/-- in regions 2 and 5 a state stays in range when the pressure falls -/
theorem InRange.lower {r p q T} (h : InRange r p T) (hr : r ≠ 1) (hq : 0 < q) (hqp : q ≤ p) : InRange r q T := by
  rcases h with h | h | h
  · exact absurd h.1 hr
  · obtain ⟨h0, h1, h2, h3, h4, h5, h6⟩ := h
    exact .inr (.inl ⟨h0, hq, h2, h3, hqp.trans h4, fun e => hqp.trans (h5 e), fun e e' => hqp.trans (h6 e e')⟩)
  · obtain ⟨h0, h1, h2, h3, h4⟩ := h
    exact .inr (.inr ⟨h0, hq, hqp.trans h2, h3, h4⟩)

/-- the Gibbs energy lies below its tangents along an isobar -/
theorem InRange.G_tangent {r p T T'} (h : InRange r p T) (h' : InRange r p T') :
    (Gr r).Gf p T ≤ (Gr r).Gf p T' + (Gr r).S p T' * (T' - T) := by
  have key {a b : ℝ} (ha : InRange r p a) (hb : InRange r p b) (hab : a < b) :
      ∃ c ∈ Set.Ioo a b, InRange r p c ∧ -(Gr r).S p c = ((Gr r).Gf p b - (Gr r).Gf p a) / (b - a) := by
    have hd : ∀ x ∈ Set.Icc a b, HasDerivAt (fun T => (Gr r).Gf p T) (-(Gr r).S p x) x := fun x hx =>
      Gibbs.dG_dT ((ha.between hb hx.1 hx.2).regular.smooth ha.gibbs) (ha.between hb hx.1 hx.2).T_pos.ne'
    obtain ⟨c, hc, e⟩ := exists_hasDerivAt_eq_slope (fun T => (Gr r).Gf p T) (fun x => -(Gr r).S p x) hab
      (fun x hx => (hd x hx).continuousAt.continuousWithinAt) fun x hx => hd x (Set.Ioo_subset_Icc_self hx)
    exact ⟨c, hc, ha.between hb hc.1.le hc.2.le, e⟩
  rcases lt_trichotomy T T' with hlt | rfl | hlt
  · obtain ⟨c, hc, ic, e⟩ := key h h' hlt
    have hs := ic.S_lt h' hc.2
    rw [eq_div_iff (by linarith)] at e
    nlinarith
  · linarith
  · obtain ⟨c, hc, ic, e⟩ := key h' h hlt
    have hs := h'.S_lt ic hc.1
    rw [eq_div_iff (by linarith)] at e
    nlinarith

/-- compressing at a given temperature: the Gibbs energy grows by the mean of the volume -/
theorem InRange.G_compress {r p p' T} (h : InRange r p T) (h' : InRange r p' T) (hlt : p < p') :
    (Gr r).Gf p T + 1000 * (Gr r).V p' T * (p' - p) < (Gr r).Gf p' T ∧
    (Gr r).Gf p' T < (Gr r).Gf p T + 1000 * (Gr r).V p T * (p' - p) := by
  have hd : ∀ x ∈ Set.Icc p p', HasDerivAt (fun p => (Gr r).Gf p T) (1000 * (Gr r).V x T) x := fun x hx =>
    Gibbs.dG_dp ((h.between_p h' hx.1 hx.2).regular.smooth h.gibbs)
  obtain ⟨c, hc, e⟩ := exists_hasDerivAt_eq_slope (fun p => (Gr r).Gf p T) (fun x => 1000 * (Gr r).V x T) hlt
    (fun x hx => (hd x hx).continuousAt.continuousWithinAt) fun x hx => hd x (Set.Ioo_subset_Icc_self hx)
  have ic := h.between_p h' hc.1.le hc.2.le
  have h1 := ic.V_lt h' hc.2
  have h2 := h.V_lt ic hc.1
  rw [eq_div_iff (by linarith)] at e
  constructor <;> nlinarith

/-- a state of higher pressure and at least the same entropy has the higher enthalpy -/
theorem InRange.H_compress {r p p' T T'} (h : InRange r p T) (h' : InRange r p' T') (hc : InRange r p' T) (hlt : p < p')
    (hs : (Gr r).S p T ≤ (Gr r).S p' T') : (Gr r).H p T + 1000 * (Gr r).V p' T * (p' - p) < (Gr r).H p' T' := by
  have h1 := hc.G_tangent h'
  have h2 := (h.G_compress hc hlt).1
  have hT := h.T_pos
  rw [Gibbs.H_eq _ hT.ne', Gibbs.H_eq _ h'.T_pos.ne']
  nlinarith

/-- a state of higher pressure and at most the same entropy: the work is bounded by the volume at the low pressure -/
theorem InRange.H_expand {r p p' T T'} (h : InRange r p T) (h' : InRange r p' T') (hc : InRange r p T') (hlt : p < p')
    (hs : (Gr r).S p' T' ≤ (Gr r).S p T) : (Gr r).H p' T' < (Gr r).H p T + 1000 * (Gr r).V p T' * (p' - p) := by
  have h1 := hc.G_tangent h
  have h2 := (hc.G_compress h' hlt).2
  have hT := h'.T_pos
  rw [Gibbs.H_eq _ h.T_pos.ne', Gibbs.H_eq _ hT.ne']
  nlinarith

namespace R3

/-- the densities up to 800 kg/m³ reach every pressure up to 100 MPa -/
theorem P_dense {T : ℝ} (t1 : 647.1 ≤ T) (t2 : T ≤ 863.15) : 100 < P T 800 := by
  have h0 : 100 < P 647.1 800 := by
    norm_num [P, fd, xd, yt, poly_i_powi_sum, r3_IJn, n1, gasR]
  rcases t1.lt_or_eq with h | h
  · by_contra hc
    have := P_below (le_refl _) h t2 (d := 800) (by norm_num) (le_refl _) (not_lt.1 hc) 647.1 ⟨le_refl _, h.le⟩
    linarith
  · rw [← h]; exact h0

/-- the state of a given pressure on an isotherm, denser than a given one -/
theorem exists_v {T v p : ℝ} (t1 : 647.1 ≤ T) (t2 : T ≤ 863.15) (h0 : 0.00125 ≤ v) (hp : P T (1 / v) ≤ p) (hM : p ≤ 100) :
    ∃ w, 0.00125 ≤ w ∧ w ≤ v ∧ P T (1 / w) = p := by
  have hT : 0 < T := by linarith
  have hc : ContinuousOn (fun w => P T (1 / w)) (Set.Icc 0.00125 v) := fun w hw =>
    (dP_dv hT (by have := hw.1; linarith)).continuousAt.continuousWithinAt
  have e : (1 : ℝ) / 0.00125 = 800 := by norm_num
  obtain ⟨w, hw, ew⟩ := intermediate_value_Icc' h0 hc ⟨hp, by simp only [e]; linarith [P_dense t1 t2]⟩
  exact ⟨w, hw.1, hw.2, ew⟩

section
variable {T T' v v' p p' : ℝ} (t1 : 647.1 ≤ T) (t2 : T ≤ 863.15) (t1' : 647.1 ≤ T') (t2' : T' ≤ 863.15) (h0 : 0.00125 ≤ v)
  (h0' : 0.00125 ≤ v') (hp : P T (1 / v) = p) (hp' : P T' (1 / v') = p') (hM : p' ≤ 100) (hlt : p < p')
  (hs : S T (1 / v) ≤ S T' (1 / v'))
include t1 t2 t1' t2' h0 h0' hp hp' hM hlt hs

/-- a state of higher pressure and at least the same entropy is warmer -/
theorem T_compress : T < T' := by
  by_contra hc
  have hc := not_lt.1 hc
  have hT : 0 < T := by linarith
  have hv : 0 < v := by linarith
  have hv' : 0 < v' := by linarith
  have d1 : 1 / v ≤ 800 := by rw [div_le_iff₀ hv]; linarith
  have hvv : v' < v := by
    by_contra hvv
    have hvv := not_lt.1 hvv
    have a1 : P T' (1 / v') ≤ P T' (1 / v) := by
      rcases hvv.lt_or_eq with h | h
      · exact (P_anti t1' t2' h0 h).le
      · rw [h]
    have a2 : P T' (1 / v) ≤ P T (1 / v) := by
      rcases hc.lt_or_eq with h | h
      · exact (P_mono_T t1' h t2 (by positivity) d1 (by rw [hp]; linarith)).le
      · rw [h]
    linarith
  have b1 := S_mono t1' t2' h0' hvv (by rw [hp']; exact hM)
  have b2 : S T' (1 / v) ≤ S T (1 / v) := by
    rcases hc.lt_or_eq with h | h
    · exact (S_mono_T t1' h t2 (by positivity) d1).le
    · rw [h]
  linarith

/-- a state of higher pressure and at least the same entropy has the higher enthalpy -/
theorem H_compress : ∃ w, 0.00125 ≤ w ∧ P T (1 / w) = p' ∧ H T (1 / v) + 1000 * w * (p' - p) ≤ H T' (1 / v') := by
  have hTT := T_compress t1 t2 t1' t2' h0 h0' hp hp' hM hlt hs
  have hT : 0 < T := by linarith
  obtain ⟨w, w0, wv, hw⟩ := exists_v t1 t2 h0 (hp.le.trans hlt.le) hM
  refine ⟨w, w0, hw, ?_⟩
  have g1 := G_isobar t1 hTT t2' w0 h0' hw hp' hM
  -- the tangent of the free energy at v
  have g2 : Fh T (1 / v) + 1000 * p * v ≤ Fh T (1 / w) + 1000 * p * w := by
    have hd (x : ℝ) (hx : x ∈ Set.Icc w v) : HasDerivAt (fun x => -(Fh T (1 / x) + 1000 * p * x))
        (-(-(1000 * P T (1 / x)) + 1000 * p * 1)) x :=
      ((dF_dv hT (by linarith [hx.1])).add ((hasDerivAt_id x).const_mul (1000 * p))).neg
    have := monotoneOn_of_deriv_nonneg (D := Set.Icc w v) (f := fun x => -(Fh T (1 / x) + 1000 * p * x)) (convex_Icc _ _)
      (fun x hx => (hd x hx).continuousAt.continuousWithinAt)
      (fun x hx => (hd x (interior_subset hx)).differentiableAt.differentiableWithinAt) ?_ ⟨le_refl _, wv⟩ ⟨wv, le_refl _⟩ wv
    · simp only at this; linarith
    · intro x hx
      rw [(hd x (interior_subset hx)).deriv]
      rw [interior_Icc] at hx
      have := P_anti t1 t2 (w0.trans hx.1.le) hx.2
      linarith
  rw [H_eq hT (by linarith), H_eq (by linarith) (by linarith), hp, hp']
  nlinarith
end

end R3
end If97
