import Verif.Spec.Thermo
import Verif.Lemmas.PolyReal
import Verif.Props.C09
import Verif.Props.C10
import Verif.Props.C11
import Mathlib.Analysis.SpecialFunctions.Log.Deriv
import Mathlib.Analysis.Calculus.Deriv.Inv

/-! Helper lemmas for C12-C22: the property functions of regions 1, 2, 5 as expressions
in one dimensionless Gibbs function and its derivatives. -/

namespace If97

/-- A dimensionless Gibbs function with its claimed derivatives and reducing quantities. -/
structure Gibbs where
  g : ℝ → ℝ → ℝ
  gp : ℝ → ℝ → ℝ
  gt : ℝ → ℝ → ℝ
  gpp : ℝ → ℝ → ℝ
  gpt : ℝ → ℝ → ℝ
  gtt : ℝ → ℝ → ℝ
  ps : ℝ
  Ts : ℝ

namespace Gibbs
variable (G : Gibbs)

/-- the claimed derivatives are derivatives at (x, y) -/
structure Smooth (x y : ℝ) : Prop where
  ps : G.ps ≠ 0
  gp : HasDerivAt (fun x => G.g x y) (G.gp x y) x
  gt : HasDerivAt (fun y => G.g x y) (G.gt x y) y
  gpp : HasDerivAt (fun x => G.gp x y) (G.gpp x y) x
  gpt : HasDerivAt (fun y => G.gp x y) (G.gpt x y) y
  gtp : HasDerivAt (fun x => G.gt x y) (G.gpt x y) x
  gtt : HasDerivAt (fun y => G.gt x y) (G.gtt x y) y

variable (p T : ℝ)

noncomputable def V : ℝ := 0.001 * gasR * T * G.gp (p / G.ps) (G.Ts / T) / G.ps
noncomputable def S : ℝ := gasR * (G.Ts / T * G.gt (p / G.ps) (G.Ts / T) - G.g (p / G.ps) (G.Ts / T))
noncomputable def H : ℝ := gasR * G.Ts * G.gt (p / G.ps) (G.Ts / T)
noncomputable def U : ℝ := gasR * (G.Ts * G.gt (p / G.ps) (G.Ts / T) - T * (p / G.ps) * G.gp (p / G.ps) (G.Ts / T))
noncomputable def Gf : ℝ := gasR * T * G.g (p / G.ps) (G.Ts / T)
noncomputable def Ff : ℝ := gasR * T * (G.g (p / G.ps) (G.Ts / T) - p / G.ps * G.gp (p / G.ps) (G.Ts / T))
noncomputable def Cp : ℝ := -gasR * (G.Ts / T) ^ 2 * G.gtt (p / G.ps) (G.Ts / T)
/-- γ_π − τ γ_πτ -/
noncomputable def B : ℝ := G.gp (p / G.ps) (G.Ts / T) - G.Ts / T * G.gpt (p / G.ps) (G.Ts / T)
noncomputable def Cv : ℝ := G.Cp p T + gasR * (G.B p T) ^ 2 / G.gpp (p / G.ps) (G.Ts / T)
noncomputable def Dvdt : ℝ := 0.001 * gasR * G.B p T / G.ps
noncomputable def Dvdp : ℝ := 0.001 * gasR * T * G.gpp (p / G.ps) (G.Ts / T) / G.ps ^ 2
noncomputable def Dhdp : ℝ := gasR * G.Ts * G.gpt (p / G.ps) (G.Ts / T) / G.ps

variable {G p T}

theorem hp (x : ℝ) : HasDerivAt (fun p : ℝ => p / G.ps) (1 / G.ps) x := (hasDerivAt_id x).div_const _

theorem hT (hT0 : T ≠ 0) : HasDerivAt (fun T : ℝ => G.Ts / T) (-(G.Ts / T ^ 2)) T := by
  have := ((hasDerivAt_const T G.Ts).div (hasDerivAt_id T) hT0)
  exact this.congr_deriv (by simp; ring)

variable (hs : G.Smooth (p / G.ps) (G.Ts / T))
include hs

theorem dG_dp : HasDerivAt (fun p => G.Gf p T) (1000 * G.V p T) p := by
  have h : HasDerivAt (fun p => G.g (p / G.ps) (G.Ts / T)) (G.gp (p / G.ps) (G.Ts / T) * (1 / G.ps)) p :=
    HasDerivAt.comp (h₂ := fun x => G.g x (G.Ts / T)) p hs.gp (hp p)
  refine (h.const_mul (gasR * T)).congr_deriv ?_
  unfold V; ring

theorem dV_dp : HasDerivAt (fun p => G.V p T) (G.Dvdp p T) p := by
  have h : HasDerivAt (fun p => G.gp (p / G.ps) (G.Ts / T)) (G.gpp (p / G.ps) (G.Ts / T) * (1 / G.ps)) p :=
    HasDerivAt.comp (h₂ := fun x => G.gp x (G.Ts / T)) p hs.gpp (hp p)
  refine ((h.const_mul (0.001 * gasR * T)).div_const G.ps).congr_deriv ?_
  unfold Dvdp; ring

theorem dH_dp : HasDerivAt (fun p => G.H p T) (G.Dhdp p T) p := by
  have h : HasDerivAt (fun p => G.gt (p / G.ps) (G.Ts / T)) (G.gpt (p / G.ps) (G.Ts / T) * (1 / G.ps)) p :=
    HasDerivAt.comp (h₂ := fun x => G.gt x (G.Ts / T)) p hs.gtp (hp p)
  refine (h.const_mul (gasR * G.Ts)).congr_deriv ?_
  unfold Dhdp; ring

theorem dS_dp : HasDerivAt (fun p => G.S p T) (-(1000 * G.Dvdt p T)) p := by
  have h : HasDerivAt (fun p => G.g (p / G.ps) (G.Ts / T)) (G.gp (p / G.ps) (G.Ts / T) * (1 / G.ps)) p :=
    HasDerivAt.comp (h₂ := fun x => G.g x (G.Ts / T)) p hs.gp (hp p)
  have h' : HasDerivAt (fun p => G.gt (p / G.ps) (G.Ts / T)) (G.gpt (p / G.ps) (G.Ts / T) * (1 / G.ps)) p :=
    HasDerivAt.comp (h₂ := fun x => G.gt x (G.Ts / T)) p hs.gtp (hp p)
  refine (((h'.const_mul (G.Ts / T)).sub h).const_mul gasR).congr_deriv ?_
  unfold Dvdt B; ring

variable (hT0 : T ≠ 0)
include hT0

theorem dG_dT : HasDerivAt (fun T => G.Gf p T) (-G.S p T) T := by
  have h : HasDerivAt (fun T => G.g (p / G.ps) (G.Ts / T))
      (G.gt (p / G.ps) (G.Ts / T) * (-(G.Ts / T ^ 2))) T :=
    HasDerivAt.comp (h₂ := fun y => G.g (p / G.ps) y) T hs.gt (hT hT0)
  have h2 := ((hasDerivAt_id T).const_mul gasR).mul h
  refine h2.congr_deriv ?_
  unfold S; simp only [id]; field_simp; ring

theorem dV_dT : HasDerivAt (fun T => G.V p T) (G.Dvdt p T) T := by
  have h : HasDerivAt (fun T => G.gp (p / G.ps) (G.Ts / T))
      (G.gpt (p / G.ps) (G.Ts / T) * (-(G.Ts / T ^ 2))) T :=
    HasDerivAt.comp (h₂ := fun y => G.gp (p / G.ps) y) T hs.gpt (hT hT0)
  have h2 := (((hasDerivAt_id T).const_mul (0.001 * gasR)).mul h).div_const G.ps
  refine h2.congr_deriv ?_
  unfold Dvdt B; simp only [id]; field_simp; ring

theorem dH_dT : HasDerivAt (fun T => G.H p T) (G.Cp p T) T := by
  have h : HasDerivAt (fun T => G.gt (p / G.ps) (G.Ts / T))
      (G.gtt (p / G.ps) (G.Ts / T) * (-(G.Ts / T ^ 2))) T :=
    HasDerivAt.comp (h₂ := fun y => G.gt (p / G.ps) y) T hs.gtt (hT hT0)
  refine (h.const_mul (gasR * G.Ts)).congr_deriv ?_
  unfold Cp; field_simp

end Gibbs

/-! ### region 1 -/

noncomputable def G1 : Gibbs where
  g x y := poly_powi (7.1 - x) (y - 1.222) r1_IJn
  gp x y := -poly_i_powi (7.1 - x) (y - 1.222) r1_IJn
  gt x y := poly_j_powi (7.1 - x) (y - 1.222) r1_IJn
  gpp x y := poly_ii_powi (7.1 - x) (y - 1.222) r1_IJn
  gpt x y := -poly_ij_powi (7.1 - x) (y - 1.222) r1_IJn
  gtt x y := poly_jj_powi (7.1 - x) (y - 1.222) r1_IJn
  ps := 16.53
  Ts := 1386

theorem G1_smooth (x y : ℝ) (hx : 7.1 - x ≠ 0) (hy : y - 1.222 ≠ 0) : G1.Smooth x y where
  ps := by norm_num [G1]
  gp := ((C11_i r1_IJn (7.1 - x) (y - 1.222) (.inl hx)).comp_const_sub 7.1 x).congr_deriv (by simp [G1])
  gt := ((C11_j r1_IJn (7.1 - x) (y - 1.222) (.inl hy)).comp_sub_const y 1.222).congr_deriv (by simp [G1])
  gpp := ((C11_ii r1_IJn (7.1 - x) (y - 1.222) (.inl hx)).comp_const_sub 7.1 x).neg.congr_deriv (by simp [G1])
  gpt := ((C11_ij r1_IJn (7.1 - x) (y - 1.222) (.inl hy)).comp_sub_const y 1.222).neg.congr_deriv (by simp [G1])
  gtp := ((C11_ji r1_IJn (7.1 - x) (y - 1.222) (.inl hx)).comp_const_sub 7.1 x).congr_deriv (by simp [G1])
  gtt := ((C11_jj r1_IJn (7.1 - x) (y - 1.222) (.inl hy)).comp_sub_const y 1.222).congr_deriv (by simp [G1])

/-! ### regions 2 and 5: ideal-gas part plus residual part -/

noncomputable def idealSum (n : List ℝ) (J : List Int) (k : Nat) (y : ℝ) : ℝ :=
  ((List.range' 0 k).map fun i => nthF n i * y ^ nthI J i).sum
noncomputable def idealSum1 (n : List ℝ) (J : List Int) (k : Nat) (y : ℝ) : ℝ :=
  ((List.range' 0 k).map fun i => nthF n i * (nthI J i : ℝ) * y ^ (nthI J i - 1)).sum
noncomputable def idealSum2 (n : List ℝ) (J : List Int) (k : Nat) (y : ℝ) : ℝ :=
  ((List.range' 0 k).map fun i => nthF n i * ((nthI J i * (nthI J i - 1) : Int) : ℝ) * y ^ (nthI J i - 2)).sum

theorem idealSum_deriv (n J k) (y : ℝ) (hy : y ≠ 0) :
    HasDerivAt (idealSum n J k) (idealSum1 n J k y) y := by
  apply hasDerivAt_sum_map (fun (i : Nat) (y : ℝ) => nthF n i * y ^ nthI J i)
  intro i _
  exact ((hasDerivAt_zpow (nthI J i) y (.inl hy)).const_mul (nthF n i)).congr_deriv (by ring)

theorem idealSum1_deriv (n J k) (y : ℝ) (hy : y ≠ 0) :
    HasDerivAt (idealSum1 n J k) (idealSum2 n J k y) y := by
  apply hasDerivAt_sum_map (fun (i : Nat) (y : ℝ) => nthF n i * (nthI J i : ℝ) * y ^ (nthI J i - 1))
  intro i _
  refine ((hasDerivAt_zpow (nthI J i - 1) y (.inl hy)).const_mul (nthF n i * (nthI J i : ℝ))).congr_deriv ?_
  rw [show nthI J i - 1 - 1 = nthI J i - 2 by ring]; push_cast; ring

/-- ideal part ln π + Σ n τ^J plus a residual polynomial in (π, τ - c) -/
noncomputable def idealGibbs (n : List ℝ) (J : List Int) (k : Nat) (T : List (Int × Int × ℝ)) (c ps Ts : ℝ) : Gibbs where
  g x y := Real.log x + idealSum n J k y + poly_powi x (y - c) T
  gp x y := 1 / x + poly_i_powi x (y - c) T
  gt x y := idealSum1 n J k y + poly_j_powi x (y - c) T
  gpp x y := -1 / x ^ 2 + poly_ii_powi x (y - c) T
  gpt x y := poly_ij_powi x (y - c) T
  gtt x y := idealSum2 n J k y + poly_jj_powi x (y - c) T
  ps := ps
  Ts := Ts

theorem idealGibbs_smooth (n J k T) (c ps Ts x y : ℝ) (hps : ps ≠ 0) (hx : x ≠ 0) (hy : y ≠ 0)
    (hc : y - c ≠ 0 ∨ ∀ e ∈ T, 0 ≤ e.2.1) : (idealGibbs n J k T c ps Ts).Smooth x y where
  ps := hps
  gp := (((Real.hasDerivAt_log hx).add_const _).add (C11_i T x (y - c) (.inl hx))).congr_deriv
    (by simp [idealGibbs])
  gt := (((idealSum_deriv n J k y hy).const_add (Real.log x)).add
    ((C11_j T x (y - c) hc).comp_sub_const y c)).congr_deriv (by simp [idealGibbs])
  gpp := by
    have h1 : HasDerivAt (fun x : ℝ => 1 / x) (-1 / x ^ 2) x :=
      ((hasDerivAt_inv hx).congr_of_eventuallyEq (Filter.Eventually.of_forall fun x => by simp)).congr_deriv
        (by field_simp)
    exact h1.add (C11_ii T x (y - c) (.inl hx))
  gpt := ((hasDerivAt_const y (1 / x)).add ((C11_ij T x (y - c) hc).comp_sub_const y c)).congr_deriv
    (by simp [idealGibbs])
  gtp := ((hasDerivAt_const x (idealSum1 n J k y)).add (C11_ji T x (y - c) (.inl hx))).congr_deriv
    (by simp [idealGibbs])
  gtt := ((idealSum1_deriv n J k y hy).add ((C11_jj T x (y - c) hc).comp_sub_const y c)).congr_deriv
    (by simp [idealGibbs])

noncomputable def G2 : Gibbs := idealGibbs r2_n0 r2_J0 9 r2_IJn 0.5 1 540
noncomputable def G5 : Gibbs := idealGibbs r5_no r5_Jo 6 r5_IJn 0 1 1000

end If97

/-! Helper lemmas for C12-C22: what `pt(p, t, (o, r))` returns in regions 1, 2, 5, in terms
of the Gibbs function of the region. -/

namespace If97
open Filter Topology

/-- the Gibbs function of region `r` -/
noncomputable def Gr (r : Int) : Gibbs := if r = 1 then G1 else if r = 2 then G2 else G5

@[simp] theorem Gr_1 : Gr 1 = G1 := rfl
@[simp] theorem Gr_2 : Gr 2 = G2 := rfl
@[simp] theorem Gr_5 : Gr 5 = G5 := rfl

theorem Regular.eventually_p {r p T} (h : Regular r p T) : ∀ᶠ p' in 𝓝 p, Regular r p' T := by
  obtain ⟨h1, h2, h3, h4⟩ := h
  by_cases hr : r = 1
  · filter_upwards [lt_mem_nhds h1, isOpen_ne.mem_nhds (h3 hr).1] with q hq hq'
    exact ⟨hq, h2, fun _ => ⟨hq', (h3 hr).2⟩, h4⟩
  · filter_upwards [lt_mem_nhds h1] with q hq
    exact ⟨hq, h2, fun h => absurd h hr, h4⟩

theorem Regular.eventually_T {r p T} (h : Regular r p T) : ∀ᶠ T' in 𝓝 T, Regular r p T' := by
  obtain ⟨h1, h2, h3, h4⟩ := h
  by_cases hr : r = 1
  · filter_upwards [lt_mem_nhds h2, isOpen_ne.mem_nhds (h3 hr).2] with q hq hq'
    exact ⟨h1, hq, fun _ => ⟨(h3 hr).1, hq'⟩, fun h => by omega⟩
  · by_cases hr2 : r = 2
    · filter_upwards [lt_mem_nhds h2, isOpen_ne.mem_nhds (h4 hr2)] with q hq hq'
      exact ⟨h1, hq, fun h => absurd h hr, fun _ => hq'⟩
    · filter_upwards [lt_mem_nhds h2] with q hq
      exact ⟨h1, hq, fun h => absurd h hr, fun h => absurd h hr2⟩

theorem Regular.eventually_t {r p t} (h : Regular r p (t + 273.15)) : ∀ᶠ t' in 𝓝 t, Regular r p (t' + 273.15) := by
  have hc : Tendsto (fun t : ℝ => t + 273.15) (𝓝 t) (𝓝 (t + 273.15)) :=
    (continuous_id.add continuous_const).tendsto t
  exact hc.eventually h.eventually_T

theorem Regular.base1 {p T} (h : Regular 1 p T) : 7.1 - p / 16.53 ≠ 0 ∧ 1386 / T - 1.222 ≠ 0 := by
  obtain ⟨h1, h2, h3, h4⟩ := h
  obtain ⟨h3, h5⟩ := h3 rfl
  constructor
  · intro h; apply h3; field_simp at h; norm_num at h ⊢; linarith
  · intro h; apply h5
    field_simp at h; rw [eq_div_iff (by norm_num)]; norm_num at h ⊢; linarith

theorem Regular.base2 {p T} (h : Regular 2 p T) : 540 / T - 0.5 ≠ 0 := by
  obtain ⟨h1, h2, h3, h4⟩ := h
  intro h; apply h4 rfl
  field_simp at h; norm_num at h ⊢; linarith

theorem Regular.smooth {r p T} (hr : GibbsRegion r) (h : Regular r p T) :
    (Gr r).Smooth (p / (Gr r).ps) ((Gr r).Ts / T) := by
  have hT := h.2.1
  have hp := h.1
  rcases hr with rfl | rfl | rfl
  · exact G1_smooth _ _ h.base1.1 h.base1.2
  · refine idealGibbs_smooth _ _ _ _ _ _ _ _ _ one_ne_zero ?_ ?_ (.inl h.base2)
    · simpa [G2, idealGibbs] using hp.ne'
    · simp [G2, idealGibbs, hT.ne']
  · refine idealGibbs_smooth _ _ _ _ _ _ _ _ _ one_ne_zero ?_ ?_ (.inl ?_)
    · simpa [G5, idealGibbs] using hp.ne'
    · simp [G5, idealGibbs, hT.ne']
    · simp [G5, idealGibbs, hT.ne']

/-! ### the building blocks -/

section
variable (x y : ℝ)

theorem g1 : gamma_reg1 x y = G1.g x y := (C09_region1 x y).1
theorem g1p : gamma_pi_reg1 x y = G1.gp x y := (C09_region1 x y).2.1
theorem g1pp : gamma_pipi_reg1 x y = G1.gpp x y := (C09_region1 x y).2.2.1
theorem g1t : gamma_tau_reg1 x y = G1.gt x y := (C09_region1 x y).2.2.2.1
theorem g1tt : gamma_tautau_reg1 x y = G1.gtt x y := (C09_region1 x y).2.2.2.2

variable (hx : 7.1 - x ≠ 0) (hy : y - 1.222 ≠ 0)
include hy
theorem g1_0_j : polys_0_j_powi_reg1 x y = (G1.g x y, G1.gt x y) := C10_0_j_steps _ _ _ _ rfl hy
theorem g1_i_ij : polys_i_ij_powi_reg1 x y = (G1.gp x y, G1.gpt x y) := by
  unfold polys_i_ij_powi_reg1; rw [C10_i_ij_steps _ _ _ _ rfl hy]; rfl
include hx
theorem g1pt : gamma_pitau_reg1 x y = G1.gpt x y := by
  unfold gamma_pitau_reg1; rw [C10_ij_steps _ _ _ _ rfl hx hy]; rfl
theorem g1_i_j : polys_i_j_powi_reg1 x y = (G1.gp x y, G1.gt x y) := by
  unfold polys_i_j_powi_reg1; rw [C10_i_j_steps _ _ _ _ rfl hx hy]; rfl
theorem g1_4 : polys_i_ii_ij_jj_powi_reg1 x y = (G1.gp x y, G1.gpp x y, G1.gpt x y, G1.gtt x y) := by
  unfold polys_i_ii_ij_jj_powi_reg1; rw [C10_i_ii_ij_jj_steps _ _ _ _ rfl hx hy]; rfl
omit hy
theorem g1_i_ii : polys_i_ii_powi_reg1 x y = (G1.gp x y, G1.gpp x y) := by
  unfold polys_i_ii_powi_reg1; rw [C10_i_ii_steps _ _ _ _ rfl hx]; rfl
end

section
variable (x y : ℝ)

theorem ideal_fold (n : List ℝ) (J : List Int) (k : Nat) (a : ℝ) :
    (List.range' 0 k).foldl (fun r i => r + nthF n i * Flt.powi y (nthI J i)) a = a + idealSum n J k y :=
  foldl_add_sum _ _ _
theorem ideal_fold1 (n : List ℝ) (J : List Int) (k : Nat) :
    (List.range' 0 k).foldl (fun r i => r + nthF n i * ofI32 (nthI J i) * Flt.powi y (nthI J i - 1)) (0.0 : ℝ) =
      idealSum1 n J k y := foldl_add_sum0 _ _
theorem ideal_fold2 (n : List ℝ) (J : List Int) (k : Nat) :
    (List.range' 0 k).foldl
      (fun r i => r + nthF n i * ofI32 (nthI J i * (nthI J i - 1)) * Flt.powi y (nthI J i - 2)) (0.0 : ℝ) =
      idealSum2 n J k y := foldl_add_sum0 _ _

theorem g20 : gamma0_reg2 x y = Real.log x + idealSum r2_n0 r2_J0 9 y := ideal_fold _ _ _ _ _
theorem g20t : gamma0_tau_reg2 y = idealSum1 r2_n0 r2_J0 9 y := ideal_fold1 _ _ _ _
theorem g20tt : gamma0_tautau_reg2 x y = idealSum2 r2_n0 r2_J0 9 y := ideal_fold2 _ _ _ _
theorem g50 : gamma0_reg5 x y = Real.log x + idealSum r5_no r5_Jo 6 y := ideal_fold _ _ _ _ _
theorem g50t : gamma0_tau_reg5 y = idealSum1 r5_no r5_Jo 6 y := ideal_fold1 _ _ _ _
theorem g50tt : gamma0_tautau_reg5 y = idealSum2 r5_no r5_Jo 6 y := ideal_fold2 _ _ _ _

theorem g2_g : gamma0_reg2 x y + gammar_reg2 x y = G2.g x y := by
  rw [g20, (C09_region2 x y).1]; rfl
theorem g2_gp : gamma0_pi_reg2 x + gammar_pi_reg2 x y = G2.gp x y := by
  rw [(C09_region2 x y).2.1, gamma0_pi_reg2, show (1.0 : ℝ) = 1 by norm_num]; rfl
theorem g2_gpp : gamma0_pipi_reg2 x + gammar_pipi_reg2 x y = G2.gpp x y := by
  rw [(C09_region2 x y).2.2.1, gamma0_pipi_reg2]
  simp only [G2, idealGibbs]; congr 1; norm_num; ring
theorem g2_gt : gamma0_tau_reg2 y + gammar_tau_reg2 x y = G2.gt x y := by
  rw [g20t, (C09_region2 x y).2.2.2.1]; rfl
theorem g2_gtt : gamma0_tautau_reg2 x y + gammar_tautau_reg2 x y = G2.gtt x y := by
  rw [g20tt, (C09_region2 x y).2.2.2.2]; rfl
theorem g2_gpt (hx : x ≠ 0) (hy : y - 0.5 ≠ 0) : gamma0_pitau_reg2 + gammar_pitau_reg2 x y = G2.gpt x y := by
  unfold gamma0_pitau_reg2 gammar_pitau_reg2
  rw [C10_ij_steps _ _ _ _ rfl hx hy, show (0.0 : ℝ) = 0 by norm_num, zero_add]; rfl
theorem g2_0_j (hy : y - 0.5 ≠ 0) :
    polys_0_j_powi_reg2 x y = (poly_powi x (y - 0.5) r2_IJn, poly_j_powi x (y - 0.5) r2_IJn) :=
  C10_0_j_steps _ _ _ _ rfl hy
theorem g2_i_j (hx : x ≠ 0) (hy : y - 0.5 ≠ 0) :
    polys_i_j_powi_reg2 x y = (poly_i_powi x (y - 0.5) r2_IJn, poly_j_powi x (y - 0.5) r2_IJn) :=
  C10_i_j_steps _ _ _ _ rfl hx hy
theorem g2_4 (hx : x ≠ 0) (hy : y - 0.5 ≠ 0) : polys_i_ii_ij_jj_powi_reg2 x y =
    (poly_i_powi x (y - 0.5) r2_IJn, poly_ii_powi x (y - 0.5) r2_IJn,
      poly_ij_powi x (y - 0.5) r2_IJn, poly_jj_powi x (y - 0.5) r2_IJn) :=
  C10_i_ii_ij_jj_steps _ _ _ _ rfl hx hy

theorem sub00 : y - (0 : ℝ) = y := sub_zero y
theorem g5_g : gamma0_reg5 x y + gammar_reg5 x y = G5.g x y := by
  simp only [g50, gammar_reg5, G5, idealGibbs, sub_zero]
theorem g5_gp : gamma0_pi_reg5 x + gammar_pi_reg5 x y = G5.gp x y := by
  simp only [gamma0_pi_reg5, gammar_pi_reg5, G5, idealGibbs, sub_zero]; norm_num
theorem g5_gpp : gamma0_pipi_reg5 x + gammar_pipi_reg5 x y = G5.gpp x y := by
  simp only [gamma0_pipi_reg5, gammar_pipi_reg5, G5, idealGibbs, sub_zero]; congr 1; norm_num; ring
theorem g5_gt : gamma0_tau_reg5 y + gammar_tau_reg5 x y = G5.gt x y := by
  simp only [g50t, gammar_tau_reg5, G5, idealGibbs, sub_zero]
theorem g5_gtt : gamma0_tautau_reg5 y + gammar_tautau_reg5 x y = G5.gtt x y := by
  simp only [g50tt, gammar_tautau_reg5, G5, idealGibbs, sub_zero]
theorem g5_gpt : gamma0_pitau_reg5 + gammar_pitau_reg5 x y = G5.gpt x y := by
  simp only [gamma0_pitau_reg5, gammar_pitau_reg5, G5, idealGibbs, sub_zero]; norm_num
end

end If97

/-! Helper lemmas for C12-C22: every property function of regions 1, 2, 5 in terms of the
Gibbs function. -/

namespace If97
set_option linter.unusedSectionVars false

private theorem RG : (RGAS_WATER : ℝ) = gasR := rfl
theorem gasR_pos : 0 < gasR := by unfold gasR; norm_num
theorem gasR_ne : gasR ≠ 0 := gasR_pos.ne'

/-! ### region 1 -/
namespace V1
variable {p T : ℝ}

theorem Ts : (r1Tstar : ℝ) = G1.Ts := by unfold r1Tstar G1; norm_num
theorem Ps : (r1pstar : ℝ) = G1.ps := rfl
theorem Ps0 : G1.ps ≠ 0 := by unfold G1; norm_num
theorem Ts0 : G1.Ts ≠ 0 := by unfold G1; norm_num
theorem bx (h : Regular 1 p T) : 7.1 - p / G1.ps ≠ 0 := h.base1.1
theorem by' (h : Regular 1 p T) : G1.Ts / T - 1.222 ≠ 0 := h.base1.2

variable (h : Regular 1 p T)
include h

theorem V : pT2v_reg1 p T = G1.V p T := by
  have := h.1.ne'; have := Ps0
  simp only [pT2v_reg1, Gibbs.V, Ts, Ps, RG, g1p]; field_simp
theorem H : pT2h_reg1 p T = G1.H p T := by
  have := h.2.1.ne'
  simp only [pT2h_reg1, Gibbs.H, Ts, Ps, RG, g1t]; field_simp
theorem S : pT2s_reg1 p T = G1.S p T := by
  simp only [pT2s_reg1, Gibbs.S, Ts, Ps, RG, g1_0_j _ _ (by' h)]
theorem U : pT2u_reg1 p T = G1.U p T := by
  have := h.2.1.ne'; have := Ps0
  simp only [pT2u_reg1, Gibbs.U, Ts, Ps, RG, g1_i_j _ _ (bx h) (by' h)]; field_simp
theorem Gf : pT2g_reg1 p T = G1.Gf p T := by
  simp only [pT2g_reg1, Gibbs.Gf, Ts, Ps, RG, g1]
theorem Ff : pT2f_reg1 p T = G1.Ff p T := by
  simp only [pT2f_reg1, Gibbs.Ff, Ts, Ps, RG, g1, g1p]
theorem Cp : pT2cp_reg1 p T = G1.Cp p T := by
  simp only [pT2cp_reg1, Gibbs.Cp, Ts, Ps, RG, g1tt]; ring
theorem Cv : pT2cv_reg1 p T = G1.Cv p T := by
  simp only [pT2cv_reg1, Gibbs.Cv, Gibbs.B, Gibbs.Cp, Ts, Ps, RG, g1_4 _ _ (bx h) (by' h)]; ring
theorem Dvdt : pT2dvdTcp_reg1 p T = G1.Dvdt p T := by
  simp only [pT2dvdTcp_reg1, Gibbs.Dvdt, Gibbs.B, Ts, Ps, RG, g1p, g1pt _ _ (bx h) (by' h)]
theorem Dvdp : pT2dvdpct_reg1 p T = G1.Dvdp p T := by
  simp only [pT2dvdpct_reg1, Gibbs.Dvdp, Ts, Ps, RG, g1pp]; ring
theorem Kt : pT2kt_reg1 p T = -G1.Dvdp p T / G1.V p T := by
  have := h.2.1.ne'; have := Ps0; have := gasR_ne
  simp only [pT2kt_reg1, Gibbs.Dvdp, Gibbs.V, Ts, Ps, g1_i_ii _ _ (bx h)]; field_simp
theorem Ec (hV : G1.V p T ≠ 0) : pT2ec_reg1 p T = G1.Dvdt p T / G1.V p T := by
  have := h.2.1.ne'; have := Ps0; have := gasR_ne
  have hg : G1.gp (p / G1.ps) (G1.Ts / T) ≠ 0 := by
    intro h0; apply hV; simp [Gibbs.V, h0]
  simp only [pT2ec_reg1, Gibbs.Dvdt, Gibbs.B, Gibbs.V, Ts, Ps, g1_i_ij _ _ (by' h), show (1.0 : ℝ) = 1 by norm_num]
  field_simp
theorem Dpdt : pT2dpdtcv_reg1 p T = -G1.Dvdt p T / G1.Dvdp p T := by
  have := h.2.1.ne'; have := Ps0; have := gasR_ne
  simp only [pT2dpdtcv_reg1, Gibbs.Dvdt, Gibbs.B, Gibbs.Dvdp, Ts, Ps, g1p, g1pp, g1pt _ _ (bx h) (by' h)]
  field_simp; ring
theorem Jtc (hV : G1.V p T ≠ 0) : pT2joule_reg1 p T = -G1.Dhdp p T / G1.Cp p T := by
  have := h.2.1.ne'; have := Ps0; have := gasR_ne; have := Ts0
  have hg : G1.gp (p / G1.ps) (G1.Ts / T) ≠ 0 := by
    intro h0; apply hV; simp [Gibbs.V, h0]
  simp only [pT2joule_reg1, Gibbs.Dhdp, Gibbs.Cp, Ts, Ps, RG, g1p, g1tt, g1pt _ _ (bx h) (by' h)]
  field_simp
theorem Ijtc : pT2iJTC_reg1 p T = 0.001 * G1.Dhdp p T := by
  simp only [pT2iJTC_reg1, Gibbs.Dhdp, Ts, Ps, RG, g1pt _ _ (bx h) (by' h)]; ring
theorem E : pT2e_reg1 p T = G1.H p T - 273.16 * G1.S p T := by
  have := h.2.1.ne'
  simp only [pT2e_reg1, Gibbs.H, Gibbs.S, Ts, Ps, RG, g1, g1t]; field_simp; ring
theorem Wsq : ∃ X, X = 1000 * gasR * T / ((G1.B p T) ^ 2 / ((G1.Ts / T) ^ 2 * G1.gtt (p / G1.ps) (G1.Ts / T)) -
    G1.gpp (p / G1.ps) (G1.Ts / T)) ∧ pT2w_reg1 p T = G1.gp (p / G1.ps) (G1.Ts / T) * Real.sqrt X := by
  refine ⟨_, rfl, ?_⟩
  simp only [pT2w_reg1, Gibbs.B, Ts, Ps, RG, g1_4 _ _ (bx h) (by' h), fsqrt, real_sqrt]
  norm_num [pow_two]

end V1

/-! ### region 2 -/
namespace V2
variable {p T : ℝ}

theorem Ts : (r2Tstar : ℝ) = G2.Ts := by unfold r2Tstar G2 idealGibbs; norm_num
theorem Ps : G2.ps = 1 := rfl
theorem pp : p = p / G2.ps := by rw [Ps, div_one]
theorem Ts0 : G2.Ts ≠ 0 := by unfold G2 idealGibbs; norm_num
theorem by' (h : Regular 2 p T) : G2.Ts / T - 0.5 ≠ 0 := h.base2

variable (h : Regular 2 p T)
include h

theorem V : pT2v_reg2 p T = G2.V p T := by
  simp only [pT2v_reg2, Gibbs.V, Ts, Ps, RG, g2_gp, div_one]
theorem H : pT2h_reg2 p T = G2.H p T := by
  simp only [pT2h_reg2, Gibbs.H, Ts, Ps, RG, g2_gt, div_one]
theorem S : pT2s_reg2 p T = G2.S p T := by
  have hT := h.2.1.ne'
  have ht : G2.Ts / T ≠ 0 := div_ne_zero Ts0 hT
  have hf : ∀ y : ℝ, y ≠ 0 → ∀ a : ℝ, (List.range' 0 9).foldl (fun (acc : ℝ × ℝ) i =>
      (acc.1 + nthF r2_n0 i * y ^ nthI r2_J0 i, acc.2 + nthF r2_n0 i * y ^ nthI r2_J0 i * (nthI r2_J0 i : ℝ))) (a, 0.0) =
      (a + idealSum r2_n0 r2_J0 9 y, idealSum1 r2_n0 r2_J0 9 y * y) := by
    intro y hy a
    rw [C10.fold2]
    refine Prod.ext rfl ?_
    simp only [idealSum1]
    rw [show (0.0 : ℝ) = 0 by norm_num, zero_add, ← div_left_inj' hy, sum_map_div, mul_div_assoc, div_self hy, mul_one]
    refine sum_map_congr fun i _ => ?_
    rw [zpow_sub_one₀ hy]; field_simp
  have := hf _ ht (Real.log p)
  simp only [pT2s_reg2, Gibbs.S, Ts, Ps, RG, g2_0_j _ _ (by' h), fln, real_ln, real_powi, ofI32, real_ofInt, div_one]
  rw [this]
  simp only [G2, idealGibbs] at *
  field_simp
theorem U : pT2u_reg2 p T = G2.U p T := by
  have := h.2.1.ne'; have := h.1.ne'
  simp only [pT2u_reg2, Gibbs.U, Ts, Ps, RG, g2_i_j _ _ h.1.ne' (by' h), div_one, gamma0_pi_reg2, g20t]
  simp only [G2, idealGibbs]; norm_num; field_simp
theorem Gf : pT2g_reg2 p T = G2.Gf p T := by
  simp only [pT2g_reg2, Gibbs.Gf, Ts, Ps, RG, g2_g, div_one]
theorem Ff : pT2f_reg2 p T = G2.Ff p T := by
  simp only [pT2f_reg2, Gibbs.Ff, Ts, Ps, RG, g2_g, g2_gp, div_one]
theorem Cp : pT2cp_reg2 p T = G2.Cp p T := by
  simp only [pT2cp_reg2, Gibbs.Cp, Ts, Ps, RG, g2_gtt, div_one]; ring
theorem Cv : pT2cv_reg2 p T = G2.Cv p T := by
  have hp := h.1.ne'
  simp only [pT2cv_reg2, Gibbs.Cv, Gibbs.B, Gibbs.Cp, Ts, Ps, RG, g2_4 _ _ h.1.ne' (by' h), div_one, g20tt]
  have e1 : ∀ c : ℝ, -1 / p ^ 2 + c = -(1 - p * p * c) / p ^ 2 := fun c => by field_simp; ring
  have e2 : ∀ c : ℝ, 1 / p + c = (1 + p * c) / p := fun c => by field_simp
  simp only [G2, idealGibbs, e1, show (1.0 : ℝ) = 1 by norm_num]
  field_simp; ring
theorem Dvdt : pT2dvdtcp_reg2 p T = G2.Dvdt p T := by
  simp only [pT2dvdtcp_reg2, Gibbs.Dvdt, Gibbs.B, Ts, Ps, RG, g2_gp, g2_gpt _ _ h.1.ne' (by' h), div_one]
theorem Dvdp : pT2dvdpct_reg2 p T = G2.Dvdp p T := by
  simp only [pT2dvdpct_reg2, Gibbs.Dvdp, Ts, Ps, RG, g2_gpp, div_one, one_pow]
theorem Kt : pT2kt_reg2 p T = -G2.Dvdp p T / G2.V p T := by
  have := h.2.1.ne'; have := gasR_ne
  simp only [pT2kt_reg2, Gibbs.Dvdp, Gibbs.V, Ts, Ps, g2_gpp, g2_gp, div_one, one_pow]; field_simp
theorem Ec : pT2ec_reg2 p T = G2.Dvdt p T / G2.V p T := by
  simp only [pT2ec_reg2, V h, Dvdt h]; norm_num; ring
theorem Dpdt : pT2dpdtcv_reg2 p T = -G2.Dvdt p T / G2.Dvdp p T := by
  have := h.2.1.ne'; have := gasR_ne
  simp only [pT2dpdtcv_reg2, Gibbs.Dvdt, Gibbs.B, Gibbs.Dvdp, Ts, Ps, g2_gp, g2_gpp, g2_gpt _ _ h.1.ne' (by' h), div_one,
    one_pow, show (1.0 : ℝ) = 1 by norm_num]
  field_simp; ring
theorem Jtc (hV : G2.V p T ≠ 0) : pT2joule_reg2 p T = -G2.Dhdp p T / G2.Cp p T := by
  have := h.2.1.ne'; have := gasR_ne; have := Ts0
  have hg : G2.gp p (G2.Ts / T) ≠ 0 := by
    intro h0; apply hV; simp [Gibbs.V, Ps, h0]
  simp only [pT2joule_reg2, Gibbs.Dhdp, Gibbs.Cp, Ts, Ps, RG, g2_gp, g2_gtt, g2_gpt _ _ h.1.ne' (by' h), div_one]
  field_simp
theorem Ijtc : pT2iJTC_reg2 p T = 0.001 * G2.Dhdp p T := by
  simp only [pT2iJTC_reg2, Gibbs.Dhdp, Ts, Ps, RG, g2_gpt _ _ h.1.ne' (by' h), div_one]; ring
theorem E : pT2e_reg2 p T = G2.H p T - 273.16 * G2.S p T := by
  have := h.2.1.ne'
  simp only [pT2e_reg2, Gibbs.H, Gibbs.S, Ts, Ps, RG, g2_g, g2_gt, Tt, div_one]; field_simp; ring
theorem W : pT2w_reg2 p T = Real.sqrt (1000 * gasR * T * (G2.gp (p / G2.ps) (G2.Ts / T)) ^ 2 /
    ((G2.B p T) ^ 2 / ((G2.Ts / T) ^ 2 * G2.gtt (p / G2.ps) (G2.Ts / T)) - G2.gpp (p / G2.ps) (G2.Ts / T))) := by
  have hp := h.1.ne'
  simp only [pT2w_reg2, Gibbs.B, Ts, Ps, RG, g2_4 _ _ h.1.ne' (by' h), div_one, g20tt, fsqrt, real_sqrt]
  congr 1
  simp only [G2, idealGibbs]
  generalize poly_i_powi p (540 / T - 0.5) r2_IJn = a
  generalize poly_ii_powi p (540 / T - 0.5) r2_IJn = b
  generalize poly_ij_powi p (540 / T - 0.5) r2_IJn = c
  generalize idealSum2 r2_n0 r2_J0 9 (540 / T) + poly_jj_powi p (540 / T - 0.5) r2_IJn = d
  generalize 540 / T = τ
  have e : (1 / p + a - τ * c) ^ 2 / (τ ^ 2 * d) - (-1 / p ^ 2 + b) =
      (1.0 - p * p * b + (1.0 + p * a - τ * p * c) * (1.0 + p * a - τ * p * c) / (τ * τ * d)) / p ^ 2 := by
    norm_num; field_simp; ring
  rw [e]
  generalize (1.0 - p * p * b + (1.0 + p * a - τ * p * c) * (1.0 + p * a - τ * p * c) / (τ * τ * d)) = D
  norm_num; field_simp; ring

end V2

/-! ### region 5 -/
namespace V5
variable {p T : ℝ}

theorem Ts : (r5Tstar : ℝ) = G5.Ts := by unfold r5Tstar G5 idealGibbs; norm_num
theorem Ps' : (r5Pstar : ℝ) = 1 := by unfold r5Pstar; norm_num
theorem Ps : G5.ps = 1 := rfl
theorem Ts0 : G5.Ts ≠ 0 := by unfold G5 idealGibbs; norm_num

variable (h : Regular 5 p T)
include h
theorem by' : G5.Ts / T ≠ 0 := div_ne_zero Ts0 h.2.1.ne'

theorem V : pT2v_reg5 p T = G5.V p T := by
  have := h.1.ne'
  simp only [pT2v_reg5, Gibbs.V, Ts, Ps, Ps', RG, g5_gp, div_one]; field_simp
theorem H : pT2h_reg5 p T = G5.H p T := by
  have := h.2.1.ne'
  simp only [pT2h_reg5, Gibbs.H, Ts, Ps, Ps', RG, g5_gt, div_one]; field_simp
theorem S : pT2s_reg5 p T = G5.S p T := by
  simp only [pT2s_reg5, Gibbs.S, Ts, Ps, Ps', RG, div_one, C10_0_j _ _ _ (by' h)]
  rw [show poly_powi p (G5.Ts / T) r5_IJn = gammar_reg5 p (G5.Ts / T) from rfl,
    show poly_j_powi p (G5.Ts / T) r5_IJn = gammar_tau_reg5 p (G5.Ts / T) from rfl, g5_g, g5_gt]
theorem U : pT2u_reg5 p T = G5.U p T := by
  have := h.2.1.ne'
  simp only [pT2u_reg5, Gibbs.U, Ts, Ps, Ps', RG, div_one, C10_i_j _ _ _ h.1.ne' (by' h)]
  rw [show poly_i_powi p (G5.Ts / T) r5_IJn = gammar_pi_reg5 p (G5.Ts / T) from rfl,
    show poly_j_powi p (G5.Ts / T) r5_IJn = gammar_tau_reg5 p (G5.Ts / T) from rfl, g5_gp, g5_gt]
  field_simp
theorem Gf : pT2g_reg5 p T = G5.Gf p T := by
  simp only [pT2g_reg5, Gibbs.Gf, Ts, Ps, Ps', RG, g5_g, div_one]
theorem Ff : pT2f_reg5 p T = G5.Ff p T := by
  simp only [pT2f_reg5, Gibbs.Ff, Ts, Ps, Ps', RG, g5_g, g5_gp, div_one]
theorem Cp : pT2cp_reg5 p T = G5.Cp p T := by
  simp only [pT2cp_reg5, Gibbs.Cp, Ts, Ps, Ps', RG, g5_gtt, div_one]; ring
/-- what the region 5 function for cv returns -/
theorem CvBug : pT2cv_reg5 p T = (G5.Cp p T - gasR * (p * G5.B p T) ^ 2) /
    (-(p ^ 2 * G5.gpp (p / G5.ps) (G5.Ts / T))) := by
  have hp := h.1.ne'
  simp only [pT2cv_reg5, Gibbs.B, Gibbs.Cp, Ts, Ps, Ps', RG, C10_i_ii_ij_jj _ _ _ h.1.ne' (by' h), div_one, g50tt]
  have e1 : ∀ c : ℝ, -(p ^ 2 * (-1 / p ^ 2 + c)) = 1 - p * p * c := fun c => by field_simp; ring
  simp only [G5, idealGibbs, e1, sub_zero]
  norm_num
  field_simp
theorem Dvdt : pT2dvdtcp_reg5 p T = G5.Dvdt p T := by
  simp only [pT2dvdtcp_reg5, Gibbs.Dvdt, Gibbs.B, Ts, Ps, Ps', RG, g5_gp, g5_gpt, div_one]
theorem Dvdp : pT2dvdpct_reg5 p T = G5.Dvdp p T := by
  simp only [pT2dvdpct_reg5, Gibbs.Dvdp, Ts, Ps, Ps', RG, g5_gpp, div_one, one_pow]
theorem Kt : pT2kt_reg5 p T = -G5.Dvdp p T / G5.V p T := by
  have := h.2.1.ne'; have := gasR_ne
  simp only [pT2kt_reg5, Gibbs.Dvdp, Gibbs.V, Ts, Ps, Ps', g5_gpp, g5_gp, div_one, one_pow]; field_simp
theorem Ec : pT2ec_reg5 p T = G5.Dvdt p T / G5.V p T := by
  simp only [pT2ec_reg5, V h, Dvdt h]; norm_num; ring
theorem Dpdt : pT2dpdtcv_reg5 p T = -G5.Dvdt p T / G5.Dvdp p T := by
  have := h.2.1.ne'; have := gasR_ne
  simp only [pT2dpdtcv_reg5, Gibbs.Dvdt, Gibbs.B, Gibbs.Dvdp, Ts, Ps, Ps', g5_gp, g5_gpp, g5_gpt, div_one,
    one_pow]
  field_simp; ring
theorem Jtc (hV : G5.V p T ≠ 0) : pT2joule_reg5 p T = -G5.Dhdp p T / G5.Cp p T := by
  have := h.2.1.ne'; have := gasR_ne; have := Ts0
  have hg : G5.gp p (G5.Ts / T) ≠ 0 := by
    intro h0; apply hV; simp [Gibbs.V, Ps, h0]
  simp only [pT2joule_reg5, Gibbs.Dhdp, Gibbs.Cp, Ts, Ps, Ps', RG, g5_gp, g5_gtt, g5_gpt, div_one]
  field_simp; norm_num
theorem Ijtc : pT2iJTC_reg5 p T = 0.001 * G5.Dhdp p T := by
  simp only [pT2iJTC_reg5, Gibbs.Dhdp, Ts, Ps, Ps', RG, g5_gpt, div_one]; ring
theorem E : pT2e_reg5 p T = G5.H p T - 273.16 * G5.S p T := by
  have := h.2.1.ne'
  simp only [pT2e_reg5, Gibbs.H, Gibbs.S, Ts, Ps, Ps', RG, g5_g, g5_gt, Tt, div_one]; field_simp; ring
theorem W : pT2w_reg5 p T = Real.sqrt (1000 * gasR * T * (G5.gp (p / G5.ps) (G5.Ts / T)) ^ 2 /
    ((G5.B p T) ^ 2 / ((G5.Ts / T) ^ 2 * G5.gtt (p / G5.ps) (G5.Ts / T)) - G5.gpp (p / G5.ps) (G5.Ts / T))) := by
  have hp := h.1.ne'
  have key : ∀ w : ℝ, Real.sqrt (if w < 0 then 0 else w) = Real.sqrt w := by
    intro w; split
    · rw [Real.sqrt_zero, Real.sqrt_eq_zero_of_nonpos (by linarith)]
    · rfl
  simp only [pT2w_reg5, Gibbs.B, Ts, Ps, Ps', RG, C10_i_ii_ij_jj _ _ _ h.1.ne' (by' h), div_one, g50tt, fsqrt, real_sqrt,
    real_lt, decide_eq_true_eq]
  rw [show (0.0 : ℝ) = 0 by norm_num, key]
  congr 1
  simp only [G5, idealGibbs, sub_zero]
  generalize poly_i_powi p (1000 / T) r5_IJn = a
  generalize poly_ii_powi p (1000 / T) r5_IJn = b
  generalize poly_ij_powi p (1000 / T) r5_IJn = c
  generalize idealSum2 r5_no r5_Jo 6 (1000 / T) + poly_jj_powi p (1000 / T) r5_IJn = d
  generalize 1000 / T = τ
  have e : (1 / p + a - τ * c) ^ 2 / (τ ^ 2 * d) - (-1 / p ^ 2 + b) =
      (1.0 - p * p * b + (1.0 + p * (a - τ * c)) * (1.0 + p * (a - τ * c)) / (τ * τ * d)) / p ^ 2 := by
    norm_num; field_simp; ring
  rw [e]
  generalize (1.0 - p * p * b + (1.0 + p * (a - τ * c)) * (1.0 + p * (a - τ * c)) / (τ * τ * d)) = D
  norm_num; field_simp; ring

end V5

end If97
