import Verif.Lemmas.Tm.St3
import Verif.Lemmas.SatBound
import Verif.Lemmas.Helmholtz
import Verif.Spec.Domain
import Mathlib.Analysis.Calculus.Deriv.MeanValue

/-! Helper lemmas for C55: signs of the derivatives of the Helmholtz function of region 3. -/

namespace If97
namespace R3
open Tm

/-- the three sign conditions at a state -/
def Stable (T d : ℝ) : Prop := 0 < D2 T d ∧ ftt (xd d) (yt T) < 0 ∧ (Td2p_reg3 T d ≤ 100 → 0 < B T d)

private theorem of {T d : ℝ} (hT : 0 < T) (h : Stab3 (d / 322) (647.096 / T)) : Stable T d := by
  obtain ⟨h1, h2, h3⟩ := h
  have e1 : (647.096 : ℝ) / (647.096 / T) = T := by field_simp
  have e2 : 322 * (d / 322) = d := by field_simp
  rw [pP, e1, e2] at h3
  exact ⟨h1, h2, h3⟩

private theorem box {R : ℝ → ℝ → Prop} {x1 xc y1 yc : ℕ} (h : Good R x1 y1 xc 2000000 yc 2000000) {δ τ : ℝ}
    (a : (xc : ℝ) - x1 ≤ δ * 2000000) (b : δ * 2000000 ≤ xc + x1) (c : (yc : ℝ) - y1 ≤ τ * 2000000)
    (e : τ * 2000000 ≤ yc + y1) : R δ τ :=
  h δ τ (by rw [abs_le]; push_cast; constructor <;> linarith) (by rw [abs_le]; push_cast; constructor <;> linarith)

section
variable {T d : ℝ}

/-- above 373.95 °C at every density up to 800 kg/m³ -/
theorem stable_hot (t1 : 647.1 ≤ T) (t2 : T ≤ 863.15) (d0 : 0 < d) (d1 : d ≤ 800) : Stable T d := by
  have hT : 0 < T := by linarith
  have y1 : 0.749691 ≤ 647.096 / T := by rw [le_div_iff₀ hT]; linarith
  have y2 : 647.096 / T ≤ 0.999994 := by rw [div_le_iff₀ hT]; linarith
  have x0 : 0 < d / 322 := by positivity
  have x1 : d / 322 ≤ 2.5 := by rw [div_le_iff₀ (by norm_num)]; linarith
  have hy : 0 < 647.096 / T := by positivity
  refine of hT ?_
  generalize d / 322 = δ at *
  generalize 647.096 / T = τ at *
  rcases le_total δ 0.3 with h | h
  · exact box st3h_root0 (by norm_num; linarith) (by norm_num at *; linarith) (by norm_num at *; linarith) (by norm_num at *; linarith) hy x0
  rcases le_total δ 0.5 with h' | h'
  · exact box st3h_root1 (by norm_num at *; linarith) (by norm_num at *; linarith) (by norm_num at *; linarith) (by norm_num at *; linarith) hy x0
  rcases le_total δ 0.8 with h'' | h''
  · exact box st3h_root2 (by norm_num at *; linarith) (by norm_num at *; linarith) (by norm_num at *; linarith) (by norm_num at *; linarith) hy x0
  rcases le_total δ 1.2 with g | g
  · exact box st3h_root3 (by norm_num at *; linarith) (by norm_num at *; linarith) (by norm_num at *; linarith) (by norm_num at *; linarith) hy x0
  rcases le_total δ 1.7 with g' | g'
  · exact box st3h_root4 (by norm_num at *; linarith) (by norm_num at *; linarith) (by norm_num at *; linarith) (by norm_num at *; linarith) hy x0
  · exact box st3h_root5 (by norm_num at *; linarith) (by norm_num at *; linarith) (by norm_num at *; linarith) (by norm_num at *; linarith) hy x0

/-- around the critical temperature, away from the critical density -/
theorem stable_mid (t1 : 646 ≤ T) (t2 : T ≤ 647.1) (d0 : 0 < d) (d1 : d ≤ 800) (hd : d ≤ 240 ∨ 400 ≤ d) : Stable T d := by
  have hT : 0 < T := by linarith
  have y1 : 0.99999 ≤ 647.096 / T := by rw [le_div_iff₀ hT]; linarith
  have y2 : 647.096 / T ≤ 1.0017 := by rw [div_le_iff₀ hT]; linarith
  have x0 : 0 < d / 322 := by positivity
  have hy : 0 < 647.096 / T := by positivity
  refine of hT ?_
  rcases hd with hd | hd
  · have x1 : d / 322 ≤ 0.7455 := by rw [div_le_iff₀ (by norm_num)]; linarith
    generalize d / 322 = δ at *
    generalize 647.096 / T = τ at *
    exact box st3m_root0 (by norm_num; linarith) (by norm_num at *; linarith) (by norm_num at *; linarith) (by norm_num at *; linarith) hy x0
  · have x1 : d / 322 ≤ 2.5 := by rw [div_le_iff₀ (by norm_num)]; linarith
    have x2 : 1.242 ≤ d / 322 := by rw [le_div_iff₀ (by norm_num)]; linarith
    generalize d / 322 = δ at *
    generalize 647.096 / T = τ at *
    exact box st3n_root0 (by norm_num at *; linarith) (by norm_num at *; linarith) (by norm_num at *; linarith) (by norm_num at *; linarith) hy x0

private theorem dome_nonneg (h1 : 623.15 ≤ T) (h2 : T ≤ 647.096) : 0 ≤ 16 * (647.096 - T) - (647.096 - T) ^ 2 / 3 := by
  nlinarith
private theorem lnv_eq (hT : 0 < T) : lnv (647.096 / T)⁻¹ = (16 * (647.096 - T) - (647.096 - T) ^ 2 / 3) / 322 := by
  unfold lnv; rw [inv_div, show 647.096 * (1 - T / 647.096) = 647.096 - T by field_simp]
private theorem pP_eq (hT : 0 < T) : pP (d / 322) (647.096 / T) = Td2p_reg3 T d := by
  have e1 : (647.096 : ℝ) / (647.096 / T) = T := by field_simp
  have e2 : 322 * (d / 322) = d := by field_simp
  rw [pP, e1, e2]

/-- liquid from 350 °C to 372.85 °C -/
theorem stable_liq (t1 : 623.15 ≤ T) (t2 : T ≤ 646) (d1 : d ≤ 800)
    (hl : 322 + (16 * (647.096 - T) - (647.096 - T) ^ 2 / 3) ≤ d) (hs : Sat.psat T ≤ Td2p_reg3 T d)
    (hp : Td2p_reg3 T d ≤ 100) : Stable T d := by
  have hT : 0 < T := by linarith
  have y1 : 1.001696 ≤ 647.096 / T := by rw [le_div_iff₀ hT]; linarith
  have y2 : 647.096 / T ≤ 1.038428 := by rw [div_le_iff₀ hT]; linarith
  have d0 : 322 ≤ d := by linarith [dome_nonneg t1 (by linarith)]
  have x0 : 1 ≤ d / 322 := by rw [le_div_iff₀ (by norm_num)]; linarith
  have x1 : d / 322 ≤ 2.5 := by rw [div_le_iff₀ (by norm_num)]; linarith
  have hy : 0 < 647.096 / T := by positivity
  have hi : InLiqH (d / 322) (647.096 / T) := by
    refine ⟨by positivity, by rwa [pP_eq hT], ?_, ?_⟩
    · rw [lnv_eq hT, le_div_iff₀ (by norm_num), add_mul, div_mul_cancel₀ _ (by norm_num)]; linarith
    · rw [pP_eq hT]
      refine le_trans (le_trans (le_of_eq ?_) (Sat.psat_lo t1 (by linarith)).le) hs
      rw [inv_div, Sat.bq]
  refine of hT ?_
  generalize d / 322 = δ at *
  generalize 647.096 / T = τ at *
  rcases le_total δ 1.2 with g | g
  · exact box st3q_root0 (by norm_num at *; linarith) (by norm_num at *; linarith) (by norm_num at *; linarith) (by norm_num at *; linarith) hy hi
  rcases le_total δ 1.7 with g' | g'
  · exact box st3q_root1 (by norm_num at *; linarith) (by norm_num at *; linarith) (by norm_num at *; linarith) (by norm_num at *; linarith) hy hi
  · exact box st3q_root2 (by norm_num at *; linarith) (by norm_num at *; linarith) (by norm_num at *; linarith) (by norm_num at *; linarith) hy hi

/-- vapour from 350 °C to 372.85 °C -/
theorem stable_vap (t1 : 623.15 ≤ T) (t2 : T ≤ 646) (d0 : 0 < d)
    (hl : d ≤ 322 - (16 * (647.096 - T) - (647.096 - T) ^ 2 / 3)) (hb : Domain.pB23 T ≤ Td2p_reg3 T d)
    (hs : Td2p_reg3 T d ≤ Sat.psat T) : Stable T d := by
  have hT : 0 < T := by linarith
  have y1 : 1.001696 ≤ 647.096 / T := by rw [le_div_iff₀ hT]; linarith
  have y2 : 647.096 / T ≤ 1.038428 := by rw [div_le_iff₀ hT]; linarith
  have d1 : d ≤ 322 := by linarith [dome_nonneg t1 (by linarith)]
  have x0 : 0 < d / 322 := by positivity
  have x1 : d / 322 ≤ 1 := by rw [div_le_iff₀ (by norm_num)]; linarith
  have hy : 0 < 647.096 / T := by positivity
  have hb' : 0 ≤ Domain.pB23 T := by unfold Domain.pB23; nlinarith
  have hi : InVap (d / 322) (647.096 / T) := by
    have hm := Sat.psat_hi t1 (by linarith : T ≤ 647.096)
    refine ⟨x0, ?_, ?_, ?_, ?_, ?_⟩
    · rw [pP_eq hT, inv_div]
      refine le_trans (le_of_eq ?_) hb
      rw [Domain.pB23]; norm_num; ring
    · rw [lnv_eq hT, div_le_iff₀ (by norm_num), sub_mul, div_mul_cancel₀ _ (by norm_num)]; linarith
    · rw [pP_eq hT, inv_div]
      exact le_trans hs (le_trans hm.le (le_of_eq (by rw [Sat.bq])))
    · rw [pP_eq hT]; linarith
    · rw [pP_eq hT]
      have : Sat.psat T ≤ Sat.psat 647.096 :=
        Sat.psat_strictMonoOn.monotoneOn ⟨by linarith, by linarith⟩ (by norm_num) (by linarith)
      linarith [Sat.psat_max.2]
  refine of hT ?_
  generalize d / 322 = δ at *
  generalize 647.096 / T = τ at *
  rcases le_total δ 0.3 with h | h
  · exact box st3v_root0 (by norm_num; linarith) (by norm_num at *; linarith) (by norm_num at *; linarith) (by norm_num at *; linarith) hy hi
  rcases le_total δ 0.5 with h' | h'
  · exact box st3v_root1 (by norm_num at *; linarith) (by norm_num at *; linarith) (by norm_num at *; linarith) (by norm_num at *; linarith) hy hi
  rcases le_total δ 0.8 with h'' | h''
  · exact box st3v_root2 (by norm_num at *; linarith) (by norm_num at *; linarith) (by norm_num at *; linarith) (by norm_num at *; linarith) hy hi
  · exact box st3v_root3 (by norm_num at *; linarith) (by norm_num at *; linarith) (by norm_num at *; linarith) (by norm_num at *; linarith) hy hi
end

/-! ### consequences -/

section
variable {T d : ℝ} (hT : 0 < T) (hd : 0 < d) (h : Stable T d)
include hT hd h

theorem Stable.dpdv : Dpdv T d < 0 := by
  have := gasR_pos; have h1 := h.1
  unfold Dpdv; rw [neg_lt_zero]; positivity
theorem Stable.cv : 0 < Cv T d := by
  have := gasR_pos
  have hy : 0 < yt T := by unfold yt; positivity
  have : 0 < gasR * yt T ^ 2 := by positivity
  unfold Cv; nlinarith [h.2.1]
theorem Stable.kt : 0 < -d / Dpdv T d := div_pos_of_neg_of_neg (by linarith) (h.dpdv hT hd)
theorem Stable.cp : Cv T d ≤ Cp T d := by
  have := gasR_pos; have h1 := h.1
  have : 0 ≤ gasR * (d / 322) * B T d ^ 2 / D2 T d := by positivity
  unfold Cp; linarith
theorem Stable.cp' (hp : Td2p_reg3 T d ≤ 100) : Cv T d < Cp T d := by
  have := gasR_pos; have h1 := h.1; have h3 := h.2.2 hp
  have : 0 < gasR * (d / 322) * B T d ^ 2 / D2 T d := by positivity
  unfold Cp; linarith
theorem Stable.w : 0 < Real.sqrt (1000 * gasR * T * (d / 322) *
    (D2 T d - d / 322 * (B T d) ^ 2 / ((yt T) ^ 2 * ftt (xd d) (yt T)))) := by
  have := gasR_pos; have h1 := h.1
  have hy : 0 < yt T := by unfold yt; positivity
  have : d / 322 * (B T d) ^ 2 / ((yt T) ^ 2 * ftt (xd d) (yt T)) ≤ 0 :=
    div_nonpos_of_nonneg_of_nonpos (by positivity) (mul_nonpos_of_nonneg_of_nonpos (by positivity) h.2.1.le)
  exact Real.sqrt_pos.2 (mul_pos (by positivity) (by linarith))
theorem Stable.dpdt (hp : Td2p_reg3 T d ≤ 100) : 0 < Dpdt T d := by
  have := gasR_pos; have h3 := h.2.2 hp
  unfold Dpdt; positivity
end

/-- isotherms above 373.95 °C -/
theorem P_anti {T v v' : ℝ} (t1 : 647.1 ≤ T) (t2 : T ≤ 863.15) (h0 : 0.00125 ≤ v) (h : v < v') : P T (1 / v') < P T (1 / v) := by
  have hT : 0 < T := by linarith
  refine strictAntiOn_of_deriv_neg (D := Set.Ici (0.00125 : ℝ)) (f := fun v => P T (1 / v)) (convex_Ici _) ?_ ?_ h0 (h0.trans h.le) h
  · intro x hx
    have : (0 : ℝ) < x := lt_of_lt_of_le (by norm_num) hx
    exact (dP_dv hT this).continuousAt.continuousWithinAt
  · intro x hx
    rw [interior_Ici] at hx
    have hx' : (0.00125 : ℝ) < x := hx
    have : (0 : ℝ) < x := by linarith
    rw [(dP_dv hT this).deriv]
    refine (stable_hot t1 t2 (by positivity) ?_).dpdv hT (by positivity)
    rw [div_le_iff₀ this]; linarith

theorem S_mono {T v v' : ℝ} (t1 : 647.1 ≤ T) (t2 : T ≤ 863.15) (h0 : 0.00125 ≤ v) (h : v < v') (hp : P T (1 / v) ≤ 100) :
    S T (1 / v) < S T (1 / v') := by
  have hT : 0 < T := by linarith
  refine strictMonoOn_of_deriv_pos (D := Set.Ici v) (f := fun v => S T (1 / v)) (convex_Ici _) ?_ ?_ (le_refl v) h.le h
  · intro x hx
    have : (0 : ℝ) < x := lt_of_lt_of_le (by linarith) hx
    exact (dS_dv hT this).continuousAt.continuousWithinAt
  · intro x hx
    rw [interior_Ici] at hx
    have hx' : v < x := hx
    have : (0 : ℝ) < x := by linarith
    rw [(dS_dv hT this).deriv]
    have hd : 0 < 1 / x := by positivity
    have := (stable_hot t1 t2 hd (by rw [div_le_iff₀ this]; linarith)).dpdt hT hd
      (by rw [vP hT hd]; linarith [P_anti t1 t2 h0 hx'])
    positivity

/-- a function that increases wherever it is at most M, and ends at most at M, has been below its final value -/
theorem lt_of_rising {f f' : ℝ → ℝ} {a b M : ℝ} (hab : a < b) (hf : ∀ x ∈ Set.Icc a b, HasDerivAt f (f' x) x)
    (hpos : ∀ x ∈ Set.Icc a b, f x ≤ M → 0 < f' x) (hb : f b ≤ M) : ∀ x ∈ Set.Icc a b, f x ≤ M := by
  by_contra hcon
  push Not at hcon
  obtain ⟨c, hc, hM⟩ := hcon
  have hcont : ContinuousOn f (Set.Icc c b) := fun x hx =>
    (hf x ⟨hc.1.trans hx.1, hx.2⟩).continuousAt.continuousWithinAt
  have hcl : IsClosed (Set.Icc c b ∩ f ⁻¹' Set.Iic M) := hcont.preimage_isClosed_of_isClosed isClosed_Icc isClosed_Iic
  have hne : (Set.Icc c b ∩ f ⁻¹' Set.Iic M).Nonempty := ⟨b, ⟨hc.2, le_refl b⟩, hb⟩
  have hbd : BddBelow (Set.Icc c b ∩ f ⁻¹' Set.Iic M) := ⟨c, fun x hx => hx.1.1⟩
  have he := hcl.csInf_mem hne hbd
  set e := sInf (Set.Icc c b ∩ f ⁻¹' Set.Iic M) with hedef
  have hce : c < e := lt_of_le_of_ne he.1.1 fun h => by
    have := he.2; rw [← h] at this; exact absurd this (not_le.2 hM)
  have hbig : ∀ x, c ≤ x → x < e → M < f x := by
    intro x h1 h2
    by_contra h3
    exact absurd (csInf_le hbd ⟨⟨h1, h2.le.trans he.1.2⟩, not_lt.1 h3⟩) (not_le.2 h2)
  have hde := hf e ⟨hc.1.trans he.1.1, he.1.2⟩
  have hp := hpos e ⟨hc.1.trans he.1.1, he.1.2⟩ he.2
  have hs := hasDerivAt_iff_tendsto_slope.1 hde
  have hs' := hs.mono_left (nhdsWithin_mono e (s := Set.Iio e) fun x hx => ne_of_lt hx)
  have ev := (hs'.eventually (lt_mem_nhds hp)).and (Ioo_mem_nhdsLT hce)
  obtain ⟨x, hx1, hx2⟩ := ev.exists
  have : f x > f e := lt_of_le_of_lt he.2 (hbig x hx2.1.le hx2.2)
  rw [slope_def_field] at hx1
  have hneg : x - e < 0 := sub_neg.2 hx2.2
  have := div_neg_of_pos_of_neg (sub_pos.2 this) hneg
  linarith

section
variable {T T' d : ℝ} (t1 : 647.1 ≤ T) (h : T < T') (t2 : T' ≤ 863.15) (d0 : 0 < d) (d1 : d ≤ 800) (hp : P T' d ≤ 100)
include t1 h t2 d0 d1 hp

theorem P_below : ∀ x ∈ Set.Icc T T', P x d ≤ 100 := by
  refine lt_of_rising (f := fun T => P T d) (f' := fun T => Dpdt T d) h ?_ ?_ hp
  · intro x hx; exact dP_dT (by linarith [hx.1]) d0
  · intro x hx hM
    have hx0 : 0 < x := by linarith [hx.1]
    exact (stable_hot (t1.trans hx.1) (hx.2.trans t2) d0 d1).dpdt hx0 d0 (by rw [vP hx0 d0]; exact hM)

private theorem mono {g g' : ℝ → ℝ} (hg : ∀ x, 0 < x → HasDerivAt g (g' x) x)
    (hg' : ∀ x, 0 < x → Stable x d → Td2p_reg3 x d ≤ 100 → 0 < g' x) : g T < g T' := by
  refine strictMonoOn_of_deriv_pos (D := Set.Icc T T') (convex_Icc _ _) ?_ ?_ ⟨le_refl _, h.le⟩ ⟨h.le, le_refl _⟩ h
  · intro x hx
    exact (hg x (by linarith [hx.1])).continuousAt.continuousWithinAt
  · intro x hx
    have hx := interior_subset hx
    have hx0 : 0 < x := by linarith [hx.1]
    rw [(hg x hx0).deriv]
    exact hg' x hx0 (stable_hot (t1.trans hx.1) (hx.2.trans t2) d0 d1)
      (by rw [vP hx0 d0]; exact P_below t1 h t2 d0 d1 hp x hx)

theorem P_mono_T : P T d < P T' d :=
  mono t1 h t2 d0 d1 hp (fun _ hx => dP_dT hx d0) fun _ hx hs hp => hs.dpdt hx d0 hp
theorem H_mono_T : H T d < H T' d :=
  mono t1 h t2 d0 d1 hp (fun _ hx => dH_dT hx d0) fun _ hx hs hp => by
    have := hs.dpdt hx d0 hp; have := hs.cv hx d0; positivity
theorem U_mono_T : U T d < U T' d :=
  mono t1 h t2 d0 d1 hp (fun _ hx => dU_dT hx d0) fun _ hx hs _ => hs.cv hx d0
end

/-! ### isobars above 373.95 °C -/

theorem dS_dT {T d : ℝ} (hT : 0 < T) (hd : 0 < d) : HasDerivAt (fun T => S T d) (Cv T d / T) T := by
  have h1 := (comp_T hT hd (d_ft_y (x := xd d) (yt0 hT hd)))
  have h2 := (comp_T hT hd (d_f_y (x := xd d) (yt0 hT hd)))
  refine ((((hyt hT hd).mul h1).sub h2).const_mul gasR).congr_deriv ?_
  unfold Cv; field_simp; ring

theorem S_mono_T {T T' d : ℝ} (t1 : 647.1 ≤ T) (h : T < T') (t2 : T' ≤ 863.15) (d0 : 0 < d) (d1 : d ≤ 800) : S T d < S T' d := by
  refine strictMonoOn_of_deriv_pos (D := Set.Icc T T') (f := fun T => S T d) (convex_Icc _ _) ?_ ?_
    ⟨le_refl _, h.le⟩ ⟨h.le, le_refl _⟩ h
  · intro x hx
    exact (dS_dT (by linarith [hx.1]) d0).continuousAt.continuousWithinAt
  · intro x hx
    have hx := interior_subset hx
    have hx0 : 0 < x := by linarith [hx.1]
    rw [(dS_dT hx0 d0).deriv]
    exact div_pos ((stable_hot (t1.trans hx.1) (hx.2.trans t2) d0 d1).cv hx0 d0) hx0

/-- h = f + T s + p v -/
theorem H_eq {T v : ℝ} (hT : 0 < T) (hv : 0 < v) : H T (1 / v) = Fh T (1 / v) + T * S T (1 / v) + 1000 * P T (1 / v) * v := by
  unfold H Fh S P
  have : (647.096 : ℝ) = T * yt T := by unfold yt; field_simp
  rw [this]; norm_num; field_simp; ring

section
variable {T T' v v' p : ℝ} (t1 : 647.1 ≤ T) (h : T < T') (t2 : T' ≤ 863.15) (h0 : 0.00125 ≤ v) (h0' : 0.00125 ≤ v')
  (hp : P T (1 / v) = p) (hp' : P T' (1 / v') = p) (hM : p ≤ 100)
include t1 h t2 h0 h0' hp hp' hM

theorem V_isobar : v < v' := by
  by_contra hc
  have hv' : 0 < v' := by linarith
  have e1 := P_mono_T t1 h t2 (d := 1 / v') (by positivity) (by rw [div_le_iff₀ hv']; linarith) (hp' ▸ hM)
  rcases (not_lt.1 hc).lt_or_eq with hc | hc
  · have := P_anti t1 (h.le.trans t2) h0' hc
    linarith
  · subst hc; linarith

theorem S_isobar : S T (1 / v) < S T' (1 / v') := by
  have hv := V_isobar t1 h t2 h0 h0' hp hp' hM
  have hv' : 0 < v' := by linarith
  exact (S_mono t1 (h.le.trans t2) h0 hv (hp ▸ hM)).trans
    (S_mono_T t1 h t2 (by positivity) (by rw [div_le_iff₀ hv']; linarith))

/-- the Gibbs function is concave along the isobar -/
theorem G_isobar : Fh T (1 / v) + 1000 * p * v ≤ Fh T' (1 / v') + 1000 * p * v' + S T' (1 / v') * (T' - T) := by
  have hv := V_isobar t1 h t2 h0 h0' hp hp' hM
  have hT : 0 < T := by linarith
  have hv' : 0 < v' := by linarith
  have hd' : 1 / v' ≤ 800 := by rw [div_le_iff₀ hv']; linarith
  have a1 : Fh T (1 / v) + 1000 * p * v ≤ Fh T (1 / v') + 1000 * p * v' := by
    refine monotoneOn_of_deriv_nonneg (D := Set.Icc v v') (f := fun x => Fh T (1 / x) + 1000 * p * x) (convex_Icc _ _) ?_ ?_ ?_
      ⟨le_refl _, hv.le⟩ ⟨hv.le, le_refl _⟩ hv.le
    · intro x hx
      have hx0 : 0 < x := by linarith [hx.1]
      exact ((dF_dv hT hx0).add ((hasDerivAt_id x).const_mul (1000 * p))).continuousAt.continuousWithinAt
    · intro x hx
      have hx := interior_subset hx
      have hx0 : 0 < x := by linarith [hx.1]
      exact ((dF_dv hT hx0).add ((hasDerivAt_id x).const_mul (1000 * p))).differentiableAt.differentiableWithinAt
    · intro x hx
      rw [interior_Icc] at hx
      have hx0 : 0 < x := by linarith [hx.1]
      have := ((dF_dv hT hx0).add ((hasDerivAt_id x).const_mul (1000 * p))).deriv
      have e : deriv (fun x => Fh T (1 / x) + 1000 * p * x) x = -(1000 * P T (1 / x)) + 1000 * p * 1 := this
      rw [e]
      have := P_anti t1 (h.le.trans t2) h0 hx.1
      linarith
  have a2 : Fh T (1 / v') + S T' (1 / v') * T ≤ Fh T' (1 / v') + S T' (1 / v') * T' := by
    have hd (x : ℝ) (hx : x ∈ Set.Icc T T') : HasDerivAt (fun x => Fh x (1 / v') + S T' (1 / v') * x)
        (-S x (1 / v') + S T' (1 / v') * 1) x :=
      (dF_dT (by linarith [hx.1]) (by positivity)).add ((hasDerivAt_id x).const_mul _)
    refine monotoneOn_of_deriv_nonneg (D := Set.Icc T T') (f := fun x => Fh x (1 / v') + S T' (1 / v') * x) (convex_Icc _ _) ?_ ?_ ?_ ⟨le_refl _, h.le⟩ ⟨h.le, le_refl _⟩ h.le
    · exact fun x hx => (hd x hx).continuousAt.continuousWithinAt
    · exact fun x hx => (hd x (interior_subset hx)).differentiableAt.differentiableWithinAt
    · intro x hx
      rw [(hd x (interior_subset hx)).deriv]
      rw [interior_Icc] at hx
      have := S_mono_T (t1.trans hx.1.le) hx.2 t2 (d := 1 / v') (by positivity) hd'
      linarith
  linarith

theorem H_isobar : H T (1 / v) < H T' (1 / v') := by
  have h1 := G_isobar t1 h t2 h0 h0' hp hp' hM
  have h2 := S_isobar t1 h t2 h0 h0' hp hp' hM
  have hT : 0 < T := by linarith
  rw [H_eq hT (by linarith), H_eq (by linarith) (by linarith), hp, hp']
  nlinarith
end

end R3
end If97
