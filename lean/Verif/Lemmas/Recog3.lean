import Verif.Lemmas.Tm.Rec3
import Verif.Lemmas.SatBound
import Verif.Lemmas.DomainSat
import Verif.Lemmas.Gibbs
import Verif.Lemmas.Order

/-! Region 3: enthalpy and entropy lie between those of the borders. -/

namespace If97
open Tm Domain

/-! ### the borders -/

private theorem e13 {B : Bnd} {xr xc : ℕ} (hr : Good (RE13 B) xr 0 xc 2000 27720 12463)
    (h1 : xc = B.hi + B.lo) (h2 : xr = B.hi - B.lo) (h3 : B.lo ≤ B.hi) (h4 : 0 < B.lo) (h5 : B.hi ≤ 100000) {p : ℝ} (hp : InB B p) :
    pT2h_reg1 p 623.15 < B.h13.val (p / 100) ∧ pT2s_reg1 p 623.15 < B.s13.val (p / 100) := by
  obtain ⟨p1, p2⟩ := hp
  have h4' : (0 : ℝ) < B.lo := by exact_mod_cast h4
  have h5' : (B.hi : ℝ) ≤ 100000 := by exact_mod_cast h5
  have g : Regular 1 p 623.15 := ⟨by linarith, by norm_num, fun _ => ⟨by intro e; rw [e] at p2; linarith, by norm_num⟩,
    fun e => absurd e (by norm_num)⟩
  have := hr p (1386 / 623.15) (by
    rw [h1, h2, Nat.cast_sub h3, abs_le]; push_cast; constructor <;> linarith) (by norm_num)
  rw [V1.H g, V1.S g]
  exact this

/-- T on B23 at the pressure p -/
private theorem tb {p : ℝ} (hp : 14 ≤ p) : 0 < TB23 p ∧ b23p (TB23 p / 540) = p ∧ 572.54459862746 ≤ TB23 p := by
  have h0 : 0 ≤ (p - 13.91883977887) / 0.0010192970039326 := div_nonneg (by linarith) (by norm_num)
  have h1 := Real.sqrt_nonneg ((p - 13.91883977887) / 0.0010192970039326)
  refine ⟨by unfold TB23; linarith, ?_, by unfold TB23; linarith⟩
  have e : 540 * (TB23 p / 540) - 572.54459862746 = √((p - 13.91883977887) / 0.0010192970039326) := by unfold TB23; ring
  rw [b23p, e, Real.sq_sqrt h0]
  field_simp
  ring

private theorem sq_mono {a b : ℝ} (ha : 572.54459862746 ≤ 540 * a) (hb : 572.54459862746 ≤ 540 * b) (h : b23p a ≤ b23p b) : a ≤ b := by
  by_contra hn
  unfold b23p at h
  nlinarith

private theorem e32 {B : Bnd} {xr xc : ℕ} (hr : Good (RE32 B) xr 0 xc 2000000 1 1)
    (h1 : 572.54459862746 ≤ 540 * (((xc : ℝ) - xr) / 2000000)) (h2 : b23p (((xc : ℝ) - xr) / 2000000) ≤ B.lo / 1000)
    (h3 : B.hi / 1000 ≤ b23p (((xc : ℝ) + xr) / 2000000)) (h4 : 14000 ≤ B.lo) (h5 : B.hi ≤ 100000) {p : ℝ} (hp : InB B p) :
    B.h32.val (p / 100) < pT2h_reg2 p (B23_p2T p) ∧ B.s32.val (p / 100) < pT2s_reg2 p (B23_p2T p) := by
  obtain ⟨p1, p2⟩ := hp
  have h4' : (14000 : ℝ) ≤ B.lo := by exact_mod_cast h4
  have h5' : (B.hi : ℝ) ≤ 100000 := by exact_mod_cast h5
  have hp : 14 ≤ p := by linarith
  obtain ⟨t0, t1, t2⟩ := tb hp
  have hx : (0 : ℝ) ≤ xr := by positivity
  have l1 : ((xc : ℝ) - xr) / 2000000 ≤ TB23 p / 540 := sq_mono h1 (by linarith) (by rw [t1]; linarith)
  have l2 : TB23 p / 540 ≤ ((xc : ℝ) + xr) / 2000000 := sq_mono (by linarith) (by
    have : ((xc : ℝ) - xr) / 2000000 ≤ ((xc : ℝ) + xr) / 2000000 := by gcongr; linarith
    linarith) (by rw [t1]; linarith)
  have := hr (TB23 p / 540) 1 (by
    rw [le_div_iff₀ (by norm_num)] at l2
    rw [div_le_iff₀ (by norm_num)] at l1
    rw [abs_le]; push_cast; constructor <;> linarith) (by norm_num)
  rw [RE32, t1] at this
  rw [B23_p2T_eq]
  have hb : TB23 p ≠ 1080 := by
    intro e
    have : b23p (TB23 p / 540) ≤ 200 := by rw [t1]; linarith
    rw [e] at this; norm_num [b23p] at this
  have g : Regular 2 p (TB23 p) := ⟨by linarith, t0, fun e => absurd e (by norm_num), fun _ => hb⟩
  rw [V2.H g, V2.S g]
  have e : (TB23 p / 540)⁻¹ = 540 / TB23 p := inv_div _ _
  rw [e] at this
  have e1 : p / G2.ps = p := by rw [V2.Ps, div_one]
  unfold Gibbs.H Gibbs.S
  rw [e1]
  exact this

/-- the fitted bounds lie between the enthalpies and entropies of the borders -/
private def Fr (B : Bnd) (p : ℝ) : Prop :=
  (pT2h_reg1 p 623.15 < B.h13.val (p / 100) ∧ pT2s_reg1 p 623.15 < B.s13.val (p / 100)) ∧
    B.h32.val (p / 100) < pT2h_reg2 p (B23_p2T p) ∧ B.s32.val (p / 100) < pT2s_reg2 p (B23_p2T p)

private theorem fr0 {p : ℝ} (h : InB bd0 p) : Fr bd0 p := And.intro (e13 e13_0_root rfl rfl (by decide) (by decide) (by decide) h)
  (e32 e32_0_root (by norm_num) (by norm_num [b23p, bd0]) (by norm_num [b23p, bd0]) (by decide) (by decide) h)
private theorem fr1 {p : ℝ} (h : InB bd1 p) : Fr bd1 p := And.intro (e13 e13_1_root rfl rfl (by decide) (by decide) (by decide) h)
  (e32 e32_1_root (by norm_num) (by norm_num [b23p, bd1]) (by norm_num [b23p, bd1]) (by decide) (by decide) h)
private theorem fr2 {p : ℝ} (h : InB bd2 p) : Fr bd2 p := And.intro (e13 e13_2_root rfl rfl (by decide) (by decide) (by decide) h)
  (e32 e32_2_root (by norm_num) (by norm_num [b23p, bd2]) (by norm_num [b23p, bd2]) (by decide) (by decide) h)
private theorem fr3 {p : ℝ} (h : InB bd3 p) : Fr bd3 p := And.intro (e13 e13_3_root rfl rfl (by decide) (by decide) (by decide) h)
  (e32 e32_3_root (by norm_num) (by norm_num [b23p, bd3]) (by norm_num [b23p, bd3]) (by decide) (by decide) h)
private theorem fr4 {p : ℝ} (h : InB bd4 p) : Fr bd4 p := And.intro (e13 e13_4_root rfl rfl (by decide) (by decide) (by decide) h)
  (e32 e32_4_root (by norm_num) (by norm_num [b23p, bd4]) (by norm_num [b23p, bd4]) (by decide) (by decide) h)
private theorem fr5 {p : ℝ} (h : InB bd5 p) : Fr bd5 p := And.intro (e13 e13_5_root rfl rfl (by decide) (by decide) (by decide) h)
  (e32 e32_5_root (by norm_num) (by norm_num [b23p, bd5]) (by norm_num [b23p, bd5]) (by decide) (by decide) h)

/-- enthalpy and entropy strictly between those of region 1 at 623.15 K and of region 2 on B23 -/
def Between (p h s : ℝ) : Prop :=
  (pT2h_reg1 p 623.15 < h ∧ h < pT2h_reg2 p (B23_p2T p)) ∧ (pT2s_reg1 p 623.15 < s ∧ s < pT2s_reg2 p (B23_p2T p))

private theorem between {B : Bnd} {p h s : ℝ} (ho : Over B p h s) (hu : Under B p h s)
    (hb : Fr B p) : Between p h s :=
  ⟨⟨hb.1.1.trans ho.1, hu.1.trans hb.2.1⟩, ⟨hb.1.2.trans ho.2, hu.2.trans hb.2.2⟩⟩

/-! ### the region -/

private theorem band {R : ℝ → ℝ → Prop} {y1 : ℕ} {yc : ℕ} {δ τ : ℝ}
    (h0 : Good R 300000 y1 300000 2000000 yc 2000000) (h1 : Good R 200000 y1 800000 2000000 yc 2000000)
    (h2 : Good R 300000 y1 1300000 2000000 yc 2000000) (h3 : Good R 400000 y1 2000000 2000000 yc 2000000)
    (h4 : Good R 500000 y1 2900000 2000000 yc 2000000) (h5 : Good R 800000 y1 4200000 2000000 yc 2000000)
    (d0 : 0 ≤ δ) (d1 : δ ≤ 2.5) (ht : |τ * 2000000 - yc| ≤ y1) : R δ τ := by
  have ht : |τ * ((2000000 : ℕ) : ℝ) - yc| ≤ y1 := by exact_mod_cast ht
  rcases le_total δ 0.3 with h | h
  · exact h0 δ τ (by rw [abs_le]; push_cast; constructor <;> norm_num at * <;> linarith) ht
  rcases le_total δ 0.5 with h' | h'
  · exact h1 δ τ (by rw [abs_le]; push_cast; constructor <;> norm_num at * <;> linarith) ht
  rcases le_total δ 0.8 with h'' | h''
  · exact h2 δ τ (by rw [abs_le]; push_cast; constructor <;> norm_num at * <;> linarith) ht
  rcases le_total δ 1.2 with g | g
  · exact h3 δ τ (by rw [abs_le]; push_cast; constructor <;> norm_num at * <;> linarith) ht
  rcases le_total δ 1.7 with g' | g'
  · exact h4 δ τ (by rw [abs_le]; push_cast; constructor <;> norm_num at * <;> linarith) ht
  · exact h5 δ τ (by rw [abs_le]; push_cast; constructor <;> norm_num at * <;> linarith) ht

private theorem bandq {R : ℝ → ℝ → Prop} {δ τ : ℝ}
    (h3 : Good R 200000 38350 2200000 2000000 2038350 2000000)
    (h4 : Good R 500000 38350 2900000 2000000 2038350 2000000) (h5 : Good R 800000 38350 4200000 2000000 2038350 2000000)
    (d0 : 1 ≤ δ) (d1 : δ ≤ 2.5) (ht : |τ * ((2000000 : ℕ) : ℝ) - (2038350 : ℕ)| ≤ (38350 : ℕ)) : R δ τ := by
  rcases le_total δ 1.2 with g | g
  · exact h3 δ τ (by rw [abs_le]; push_cast; constructor <;> norm_num at * <;> linarith) ht
  rcases le_total δ 1.7 with g' | g'
  · exact h4 δ τ (by rw [abs_le]; push_cast; constructor <;> norm_num at * <;> linarith) ht
  · exact h5 δ τ (by rw [abs_le]; push_cast; constructor <;> norm_num at * <;> linarith) ht

private theorem bandv {R : ℝ → ℝ → Prop} {δ τ : ℝ}
    (h0 : Good R 300000 38350 300000 2000000 2038350 2000000) (h1 : Good R 200000 38350 800000 2000000 2038350 2000000)
    (h2 : Good R 300000 38350 1300000 2000000 2038350 2000000) (h3 : Good R 200000 38350 1800000 2000000 2038350 2000000)
    (d0 : 0 ≤ δ) (d1 : δ ≤ 1) (ht : |τ * ((2000000 : ℕ) : ℝ) - (2038350 : ℕ)| ≤ (38350 : ℕ)) : R δ τ := by
  rcases le_total δ 0.3 with h | h
  · exact h0 δ τ (by rw [abs_le]; push_cast; constructor <;> norm_num at * <;> linarith) ht
  rcases le_total δ 0.5 with h' | h'
  · exact h1 δ τ (by rw [abs_le]; push_cast; constructor <;> norm_num at * <;> linarith) ht
  rcases le_total δ 0.8 with h'' | h''
  · exact h2 δ τ (by rw [abs_le]; push_cast; constructor <;> norm_num at * <;> linarith) ht
  · exact h3 δ τ (by rw [abs_le]; push_cast; constructor <;> norm_num at * <;> linarith) ht

section
variable {T d p : ℝ} (hp : p = Td2p_reg3 T d) (d0 : 0 < d) (d1 : d ≤ 800) (t1 : 623.2 ≤ T) (hB : T + 0.05 ≤ TB23 p) (p0 : 14 ≤ p)
include hp d0 d1 t1 hB p0

/-- the coordinates of a state -/
private theorem coords : pP (d / 322) (647.096 / T) = p ∧ pH (d / 322) (647.096 / T) = Td2h_reg3 T d ∧
    pS (d / 322) (647.096 / T) = Td2s_reg3 T d ∧ 0 < d / 322 ∧ d / 322 ≤ 2.5 ∧ (647.096 / T)⁻¹ = T / 647.096 ∧
    0 ≤ gB (d / 322) (647.096 / T) := by
  have hT : 0 < T := by linarith
  have e1 : 647.096 / (647.096 / T) = T := by field_simp
  have e2 : 322 * (d / 322) = d := by field_simp
  have ep : pP (d / 322) (647.096 / T) = p := by rw [pP, e1, e2, hp]
  refine ⟨ep, by rw [pH, e1, e2], by rw [pS, e1, e2], by positivity, by rw [div_le_iff₀ (by norm_num)]; linarith,
    inv_div _ _, ?_⟩
  obtain ⟨-, t2, t3⟩ := tb p0
  have e3 : 647.096 * (T / 647.096) = T := by field_simp
  have e4 : 540 * (TB23 p / 540) = TB23 p := by field_simp
  rw [gB, ep, inv_div, e3]
  rw [b23p, e4] at t2
  have h1 : (T + 0.05 - 572.54459862746) ^ 2 ≤ (TB23 p - 572.54459862746) ^ 2 :=
    pow_le_pow_left₀ (by norm_num at *; linarith) (by linarith) 2
  linarith

/-- from 22.064 MPa to 100 MPa -/
theorem between_sup (p1 : 22.064 ≤ p) (p2 : p ≤ 100) (t2 : T ≤ 863.15) : Between p (Td2h_reg3 T d) (Td2s_reg3 T d) := by
  obtain ⟨ep, eh, es, x0, x1, -, hg⟩ := coords hp d0 d1 t1 hB p0
  have hT : 0 < T := by linarith
  have b1 : 0.749691 ≤ 647.096 / T := by rw [le_div_iff₀ hT]; linarith
  have b2 : 647.096 / T ≤ 1.03835 := by rw [div_le_iff₀ hT]; linarith
  have ht : |647.096 / T * 2000000 - (1788041 : ℕ)| ≤ (288659 : ℕ) := by
    rw [abs_le]; push_cast; constructor <;> norm_num at * <;> linarith
  rw [← eh, ← es]
  rw [← ep] at p1 p2 ⊢
  rcases le_total (pP (d / 322) (647.096 / T)) 30 with h | h
  · have hb : InB bd0 (pP (d / 322) (647.096 / T)) := by constructor <;> norm_num [bd0] at * <;> linarith
    have := band rec_0_0_root rec_0_1_root rec_0_2_root rec_0_3_root rec_0_4_root rec_0_5_root x0.le x1 ht x0 hb hg
    exact between this.1 this.2 (fr0 hb)
  rcases le_total (pP (d / 322) (647.096 / T)) 45 with h' | h'
  · have hb : InB bd1 (pP (d / 322) (647.096 / T)) := by constructor <;> norm_num [bd1] at * <;> linarith
    have := band rec_1_0_root rec_1_1_root rec_1_2_root rec_1_3_root rec_1_4_root rec_1_5_root x0.le x1 ht x0 hb hg
    exact between this.1 this.2 (fr1 hb)
  rcases le_total (pP (d / 322) (647.096 / T)) 70 with h'' | h''
  · have hb : InB bd2 (pP (d / 322) (647.096 / T)) := by constructor <;> norm_num [bd2] at * <;> linarith
    have := band rec_2_0_root rec_2_1_root rec_2_2_root rec_2_3_root rec_2_4_root rec_2_5_root x0.le x1 ht x0 hb hg
    exact between this.1 this.2 (fr2 hb)
  · have hb : InB bd3 (pP (d / 322) (647.096 / T)) := by constructor <;> norm_num [bd3] at * <;> linarith
    have := band rec_3_0_root rec_3_1_root rec_3_2_root rec_3_3_root rec_3_4_root rec_3_5_root x0.le x1 ht x0 hb hg
    exact between this.1 this.2 (fr3 hb)

/-- at least 16.53 MPa -/
private theorem sub_p : 16.53 ≤ p := by
  obtain ⟨ep, -, -, -, -, ei, hg⟩ := coords hp d0 d1 t1 hB p0
  rw [gB, ep, ei] at hg
  have e3 : 647.096 * (T / 647.096) = T := by field_simp
  rw [e3] at hg
  nlinarith

private theorem sub_key {B : Bnd} (hk : Sub3 B (d / 322) (647.096 / T)) (hf : Fr B p) :
    Between p (Td2h_reg3 T d) (Td2s_reg3 T d) ∧ Above34 p (Td2h_reg3 T d) (Td2s_reg3 T d) := by
  obtain ⟨ep, eh, es, -⟩ := coords hp d0 d1 t1 hB p0
  unfold Sub3 at hk
  rw [ep, eh, es] at hk
  exact ⟨between hk.1 hk.2.2 hf, hk.2.1⟩

private theorem sub_bnd (p1 : p < 22.064) : InB bd4 p ∨ InB bd5 p := by
  have p2 := sub_p hp d0 d1 t1 hB p0
  rcases le_total p 18.5 with h | h
  · left; constructor <;> norm_num [bd4] at * <;> linarith
  · right; constructor <;> norm_num [bd5] at * <;> linarith

/-- below 22.064 MPa, liquid, 0.1 K from saturation at Ts -/
theorem between_liq {Ts : ℝ} (p1 : p < 22.064) (hs : Sat.psat Ts = p) (s2 : Ts ≤ 647.096)
    (hs' : T + 0.1 ≤ Ts) (hd : 322 + (16 * (647.096 - T) - (647.096 - T) ^ 2 / 3) ≤ d) :
    Between p (Td2h_reg3 T d) (Td2s_reg3 T d) ∧ Above34 p (Td2h_reg3 T d) (Td2s_reg3 T d) := by
  obtain ⟨ep, -, -, x0, x1, ei, -⟩ := coords hp d0 d1 t1 hB p0
  have hT : 0 < T := by linarith
  have b2 : 647.096 / T ≤ 1.03835 := by rw [div_le_iff₀ hT]; linarith
  have t2 : T ≤ 647.096 := by linarith
  have b1 : 1 ≤ 647.096 / T := by rw [le_div_iff₀ hT]; linarith
  have ht : |647.096 / T * ((2000000 : ℕ) : ℝ) - (2038350 : ℕ)| ≤ (38350 : ℕ) := by
    rw [abs_le]; push_cast; constructor <;> linarith
  have hL : 0 ≤ gL (d / 322) (647.096 / T) := by
    have h1 := Sat.psat_lo (T := T + 0.1) (by linarith) (by linarith)
    have h2 := Sat.psat_strictMonoOn.monotoneOn (a := T + 0.1) (b := Ts) ⟨by linarith, by linarith⟩ ⟨by linarith, by linarith⟩ hs'
    rw [hs] at h2
    rw [gL, ep, ei, ← add_div]
    unfold Sat.bq at h1
    linarith
  have hD : 1 + lnv (647.096 / T)⁻¹ ≤ d / 322 := by
    rw [ei, lnv, le_div_iff₀ (by norm_num)]
    refine le_trans (le_of_eq ?_) hd
    field_simp
  have x2 : 1 ≤ d / 322 := by rw [le_div_iff₀ (by norm_num)]; nlinarith
  rcases sub_bnd hp d0 d1 t1 hB p0 p1 with hb | hb
  · exact sub_key hp d0 d1 t1 hB p0
      (bandq subq_0_0_root subq_0_1_root subq_0_2_root x2 x1 ht x0 (by rwa [ep]) hL hD) (fr4 hb)
  · exact sub_key hp d0 d1 t1 hB p0
      (bandq subq_1_0_root subq_1_1_root subq_1_2_root x2 x1 ht x0 (by rwa [ep]) hL hD) (fr5 hb)

private theorem sub_gV {Ts : ℝ} (hs : Sat.psat Ts = p) (s1 : 623.15 ≤ Ts) (s2 : Ts ≤ 647.096) (hs' : Ts + 0.1 ≤ T) :
    0 ≤ gV (d / 322) (647.096 / T) := by
  obtain ⟨ep, -, -, -, -, ei, -⟩ := coords hp d0 d1 t1 hB p0
  have h1 := Sat.psat_hi s1 s2
  rw [hs] at h1
  rw [gV, ep, ei, ← sub_div]
  unfold Sat.bq at h1
  have e1 : Ts / 647.096 ≤ (T - 0.1) / 647.096 := by gcongr; linarith
  have e2 : 0.9 ≤ Ts / 647.096 := by rw [le_div_iff₀ (by norm_num)]; linarith
  have h2 : (2.675 * (Ts / 647.096) ^ 2 - 1.1753 * (Ts / 647.096) + 0.66763) ^ 4 ≤
      (2.675 * ((T - 0.1) / 647.096) ^ 2 - 1.1753 * ((T - 0.1) / 647.096) + 0.66763) ^ 4 := by
    refine pow_le_pow_left₀ (by nlinarith) (by nlinarith) 4
  linarith

/-- below 22.064 MPa and 647.096 K, vapour, 0.1 K from saturation at Ts -/
theorem between_vap {Ts : ℝ} (p1 : p < 22.064) (hs : Sat.psat Ts = p) (s1 : 623.15 ≤ Ts) (s2 : Ts ≤ 647.096)
    (hs' : Ts + 0.1 ≤ T) (t2 : T < 647.096) (hd : d ≤ 322 - (16 * (647.096 - T) - (647.096 - T) ^ 2 / 3)) :
    Between p (Td2h_reg3 T d) (Td2s_reg3 T d) ∧ Above34 p (Td2h_reg3 T d) (Td2s_reg3 T d) := by
  obtain ⟨ep, -, -, x0, x1, ei, hg⟩ := coords hp d0 d1 t1 hB p0
  have hV := sub_gV hp d0 d1 t1 hB p0 hs s1 s2 hs'
  have hT : 0 < T := by linarith
  have b2 : 647.096 / T ≤ 1.03835 := by rw [div_le_iff₀ hT]; linarith
  have b1 : 1 ≤ 647.096 / T := by rw [le_div_iff₀ hT]; linarith
  have ht : |647.096 / T * ((2000000 : ℕ) : ℝ) - (2038350 : ℕ)| ≤ (38350 : ℕ) := by
    rw [abs_le]; push_cast; constructor <;> linarith
  have hD : d / 322 ≤ 1 - lnv (647.096 / T)⁻¹ := by
    rw [ei, lnv, div_le_iff₀ (by norm_num)]
    refine le_trans hd (le_of_eq ?_)
    field_simp
  have x2 : d / 322 ≤ 1 := by rw [div_le_iff₀ (by norm_num)]; nlinarith
  rcases sub_bnd hp d0 d1 t1 hB p0 p1 with hb | hb
  · exact sub_key hp d0 d1 t1 hB p0
      (bandv subv_0_0_root subv_0_1_root subv_0_2_root subv_0_3_root x0.le x2 ht x0 (by rwa [ep]) hV hg hD) (fr4 hb)
  · exact sub_key hp d0 d1 t1 hB p0
      (bandv subv_1_0_root subv_1_1_root subv_1_2_root subv_1_3_root x0.le x2 ht x0 (by rwa [ep]) hV hg hD) (fr5 hb)

/-- below 22.064 MPa, from 647.096 K on, 0.1 K from saturation at Ts -/
theorem between_hot {Ts : ℝ} (p1 : p < 22.064) (hs : Sat.psat Ts = p) (s1 : 623.15 ≤ Ts) (s2 : Ts ≤ 647.096)
    (hs' : Ts + 0.1 ≤ T) (t2 : 647.096 ≤ T) :
    Between p (Td2h_reg3 T d) (Td2s_reg3 T d) ∧ Above34 p (Td2h_reg3 T d) (Td2s_reg3 T d) := by
  obtain ⟨ep, -, -, x0, x1, ei, hg⟩ := coords hp d0 d1 t1 hB p0
  have hV := sub_gV hp d0 d1 t1 hB p0 hs s1 s2 hs'
  have hT : 0 < T := by linarith
  have t3 : T ≤ 663 := by
    have hg := hg
    rw [gB, ep, ei] at hg
    have e3 : 647.096 * (T / 647.096) = T := by field_simp
    rw [e3] at hg
    nlinarith
  have b1 : 0.976 ≤ 647.096 / T := by rw [le_div_iff₀ hT]; linarith
  have b3 : 647.096 / T ≤ 1 := by rw [div_le_iff₀ hT]; linarith
  have ht : |647.096 / T * 2000000 - (1976000 : ℕ)| ≤ (24000 : ℕ) := by
    rw [abs_le]; push_cast; constructor <;> linarith
  rcases sub_bnd hp d0 d1 t1 hB p0 p1 with hb | hb
  · exact sub_key hp d0 d1 t1 hB p0 (band subw_0_0_root subw_0_1_root subw_0_2_root subw_0_3_root subw_0_4_root subw_0_5_root
      x0.le x1 ht x0 (by rwa [ep]) hV hg) (fr4 hb)
  · exact sub_key hp d0 d1 t1 hB p0 (band subw_1_0_root subw_1_1_root subw_1_2_root subw_1_3_root subw_1_4_root subw_1_5_root
      x0.le x1 ht x0 (by rwa [ep]) hV hg) (fr5 hb)
end

/-! ### the detectors -/

section
variable {p x : ℝ} (p1 : 16.5291642526045 < p) (p2 : p ≤ 100)
include p1 p2

theorem ph_three (h1 : pT2h_reg1 p 623.15 < x) (h2 : x < pT2h_reg2 p (B23_p2T p))
    (h3 : p < 22.064 → h2p_sat_reg3 x ≤ p) : ph_sub_region p x = 3 := by
  unfold ph_sub_region
  have a : ((P_MIN : ℝ) <=. p && p <=. Ps_623) = false := by
    simp only [P_MIN, Ps_623, real_le, Bool.and_eq_false_iff, decide_eq_false_iff_not]; right; exact not_le.2 p1
  rw [a]
  rcases lt_or_ge p 22.064 with hp | hp
  · have b : ((Ps_623 : ℝ) <. p && p <. PC_WATER) = true := by
      simp only [Ps_623, PC_WATER, real_lt, Bool.and_eq_true, decide_eq_true_eq]; exact ⟨p1, hp⟩
    rw [b]
    simp only [real_le, real_lt, Bool.and_eq_true, decide_eq_true_eq, if_true, Bool.false_eq_true, if_false, Option.getD_none,
      not_le.2 h1, and_false, h1, h2, and_self, not_lt.2 (h3 hp), Option.getD_some]
  · have b : ((Ps_623 : ℝ) <. p && p <. PC_WATER) = false := by
      simp only [PC_WATER, real_lt, Bool.and_eq_false_iff, decide_eq_false_iff_not]; right; exact not_lt.2 hp
    have c : ((PC_WATER : ℝ) <=. p && p <=. 100.0) = true := by
      simp only [PC_WATER, real_le, Bool.and_eq_true, decide_eq_true_eq]; norm_num at *; exact ⟨hp, p2⟩
    rw [b, c]
    simp only [real_le, real_lt, Bool.and_eq_true, decide_eq_true_eq, if_true, Bool.false_eq_true, if_false, Option.getD_none,
      not_le.2 h1, and_false, h1, h2, and_self]

theorem ps_three (h1 : pT2s_reg1 p 623.15 < x) (h2 : x < pT2s_reg2 p (B23_p2T p))
    (h3 : p < 22.064 → s2p_sat_reg3 x ≤ p) : ps_sub_region p x = 3 := by
  unfold ps_sub_region
  have a : ((P_MIN : ℝ) <=. p && p <=. Ps_623) = false := by
    simp only [P_MIN, Ps_623, real_le, Bool.and_eq_false_iff, decide_eq_false_iff_not]; right; exact not_le.2 p1
  rw [a]
  rcases lt_or_ge p 22.064 with hp | hp
  · have b : ((Ps_623 : ℝ) <. p && p <. PC_WATER) = true := by
      simp only [Ps_623, PC_WATER, real_lt, Bool.and_eq_true, decide_eq_true_eq]; exact ⟨p1, hp⟩
    rw [b]
    simp only [real_le, real_lt, Bool.and_eq_true, decide_eq_true_eq, if_true, Bool.false_eq_true, if_false, Option.getD_none,
      not_le.2 h1, and_false, h1, h2, and_self, not_lt.2 (h3 hp), Option.getD_some]
  · have b : ((Ps_623 : ℝ) <. p && p <. PC_WATER) = false := by
      simp only [PC_WATER, real_lt, Bool.and_eq_false_iff, decide_eq_false_iff_not]; right; exact not_lt.2 hp
    have c : ((PC_WATER : ℝ) <=. p && p <=. 100.0) = true := by
      simp only [PC_WATER, real_le, Bool.and_eq_true, decide_eq_true_eq]; norm_num at *; exact ⟨hp, p2⟩
    rw [b, c]
    simp only [real_le, real_lt, Bool.and_eq_true, decide_eq_true_eq, if_true, Bool.false_eq_true, if_false, Option.getD_none,
      not_le.2 h1, and_false, h1, h2, and_self]
end

theorem h34_le {p h s : ℝ} (hp : 0 ≤ p) (ha : Above34 p h s) : h2p_sat_reg3 h ≤ p := by
  unfold h2p_sat_reg3
  dsimp only
  split_ifs
  · norm_num [ofI32, INVALID_H, real_ofInt]; linarith
  · have := ha.1
    norm_num at this ⊢; linarith

theorem s34_le {p h s : ℝ} (hp : 0 ≤ p) (ha : Above34 p h s) : s2p_sat_reg3 s ≤ p := by
  unfold s2p_sat_reg3
  dsimp only
  split_ifs
  · norm_num [ofI32, INVALID_S, real_ofInt]; linarith
  · have := ha.2
    norm_num at this ⊢; linarith

end If97
