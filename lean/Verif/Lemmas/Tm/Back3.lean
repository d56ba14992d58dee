import Verif.Lemmas.Tm.Bands3
import Verif.Lemmas.SatBound
import Verif.Spec.Domain

/-! Region 3: T and v from (p, h) and (p, s) at every state of the region. -/

namespace If97.Tm

private theorem band {R : ℝ → ℝ → Prop} {y1 : ℕ} {yc : ℕ} {δ τ : ℝ}
    (h0 : Good R 300000 y1 300000 2000000 yc 2000000) (h1 : Good R 200000 y1 800000 2000000 yc 2000000)
    (h2 : Good R 300000 y1 1300000 2000000 yc 2000000) (h3 : Good R 400000 y1 2000000 2000000 yc 2000000)
    (h4 : Good R 500000 y1 2900000 2000000 yc 2000000) (h5 : Good R 800000 y1 4200000 2000000 yc 2000000)
    (d0 : 0 ≤ δ) (d1 : δ ≤ 2.5) (ht : |τ * 2000000 - yc| ≤ y1) : R δ τ := by
  have ht : |τ * ((2000000 : ℕ) : ℝ) - yc| ≤ y1 := by exact_mod_cast ht
  rcases le_total δ 0.3 with h | h
  · exact h0 δ τ (by rw [abs_le]; push_cast; constructor <;> norm_num at * <;> linarith) ht
  rcases le_total δ 0.5 with h' | h'
  · exact h1 δ τ (by rw [abs_le]; push_cast; constructor <;> norm_num at * <;> linarith) ht
  rcases le_total δ 0.8 with h'' | h''
  · exact h2 δ τ (by rw [abs_le]; push_cast; constructor <;> norm_num at * <;> linarith) ht
  rcases le_total δ 1.2 with g | g
  · exact h3 δ τ (by rw [abs_le]; push_cast; constructor <;> norm_num at * <;> linarith) ht
  rcases le_total δ 1.7 with g' | g'
  · exact h4 δ τ (by rw [abs_le]; push_cast; constructor <;> norm_num at * <;> linarith) ht
  · exact h5 δ τ (by rw [abs_le]; push_cast; constructor <;> norm_num at * <;> linarith) ht

/-- a state of region 3, by temperature and density: up to 100 MPa and above B23, or above 22.064 MPa below the
critical temperature -/
def In3 (T d : ℝ) : Prop :=
  0 < d ∧ d ≤ 800 ∧ Td2p_reg3 T d ≤ 100 ∧
  ((647.096 ≤ T ∧ T ≤ 863.15 ∧ Domain.pB23 T ≤ Td2p_reg3 T d) ∨ (623.15 ≤ T ∧ T ≤ 647.096 ∧ 22.064 ≤ Td2p_reg3 T d))

private theorem coords {T d : ℝ} (h : In3 T d) : 647.096 / (647.096 / T) = T ∧ 322 * (d / 322) = d ∧
    0 ≤ d / 322 ∧ d / 322 ≤ 2.5 := by
  obtain ⟨h1, h2, -, h3⟩ := h
  have : 0 < T := by rcases h3 with h | h <;> linarith [h.1]
  refine ⟨by field_simp, by field_simp, by positivity, ?_⟩
  rw [div_le_iff₀ (by norm_num)]; linarith

private theorem go {R : Co → Co → Co → ℝ → ℝ → Prop} {C : ℝ → ℝ → Prop}
    (hR : ∀ b2 b1 b0 x y, R b2 b1 b0 x y = (InP b2 b1 b0 x y → C (647.096 / y) (322 * x)))
    (hot : ∀ δ τ : ℝ, 0 ≤ δ → δ ≤ 2.5 → |τ * 2000000 - (1749691 : ℕ)| ≤ (250309 : ℕ) → RHot R δ τ)
    (cold : ∀ δ τ : ℝ, 0 ≤ δ → δ ≤ 2.5 → |τ * 2000000 - (2038428 : ℕ)| ≤ (38428 : ℕ) → RCold R δ τ)
    {T d : ℝ} (h : In3 T d) : C T d := by
  obtain ⟨e1, e2, d0, d1⟩ := coords h
  obtain ⟨h1, h2, h3, h4⟩ := h
  have hx : 0 < d / 322 := by positivity
  have ep : pP (d / 322) (647.096 / T) = Td2p_reg3 T d := by rw [pP, e1, e2]
  have key {b2 b1 b0 : Co} (hr : R b2 b1 b0 (d / 322) (647.096 / T)) (hi : InP b2 b1 b0 (d / 322) (647.096 / T)) : C T d := by
    rw [hR] at hr
    have := hr hi
    rwa [e1, e2] at this
  rcases h4 with ⟨t1, t2, hp⟩ | ⟨t1, t2, hp⟩
  · have hT : 0 < T := by linarith
    have b1 : 0.749691 ≤ 647.096 / T := by rw [le_div_iff₀ hT]; linarith
    have b2 : 647.096 / T ≤ 1 := by rw [div_le_one hT]; exact t1
    refine key (hot _ _ d0 d1 (by rw [abs_le]; push_cast; constructor <;> norm_num at * <;> linarith)) ⟨hx, by rwa [ep], ?_⟩
    rw [ep]
    refine le_trans (le_of_eq ?_) hp
    rw [Domain.pB23]
    norm_num [Co.val]
    field_simp
    ring
  · have hT : 0 < T := by linarith
    have b1 : 1 ≤ 647.096 / T := by rw [le_div_iff₀ hT]; linarith
    have b2 : 647.096 / T ≤ 1.038428 := by rw [div_le_iff₀ hT]; linarith
    refine key (cold _ _ d0 d1 (by rw [abs_le]; push_cast; constructor <;> norm_num at * <;> linarith)) ⟨hx, by rwa [ep], ?_⟩
    rw [ep]
    refine le_trans (le_of_eq ?_) hp
    norm_num [Co.val]

theorem ph3_back {T d : ℝ} (h : In3 T d) : ClosePh T d :=
  go (R := RPh3) (C := ClosePh) (fun _ _ _ _ _ => rfl)
    (fun _ _ d0 d1 ht => band ph3_root0 ph3_root1 ph3_root2 ph3_root3 ph3_root4 ph3_root5 d0 d1 ht)
    (fun _ _ d0 d1 ht => band ph3l_root0 ph3l_root1 ph3l_root2 ph3l_root3 ph3l_root4 ph3l_root5 d0 d1 ht) h

theorem ps3_back {T d : ℝ} (h : In3 T d) : ClosePs T d :=
  go (R := RPs3) (C := ClosePs) (fun _ _ _ _ _ => rfl)
    (fun _ _ d0 d1 ht => band ps3_root0 ps3_root1 ps3_root2 ps3_root3 ps3_root4 ps3_root5 d0 d1 ht)
    (fun _ _ d0 d1 ht => band ps3l_root0 ps3l_root1 ps3l_root2 ps3l_root3 ps3l_root4 ps3l_root5 d0 d1 ht) h

/-! ### below the critical temperature and the critical pressure -/

/-- liquid, by temperature and density -/
def In3q (T d : ℝ) : Prop :=
  623.15 ≤ T ∧ T ≤ 647.096 ∧ d ≤ 800 ∧ 322 + (16 * (647.096 - T) - (647.096 - T) ^ 2 / 3) ≤ d ∧
  Sat.psat T ≤ Td2p_reg3 T d ∧ Td2p_reg3 T d ≤ 22.064

/-- vapour, by temperature and density -/
def In3v (T d : ℝ) : Prop :=
  623.15 ≤ T ∧ T ≤ 647.096 ∧ 0 < d ∧ d ≤ 322 - (16 * (647.096 - T) - (647.096 - T) ^ 2 / 3) ∧
  Domain.pB23 T ≤ Td2p_reg3 T d ∧ Td2p_reg3 T d ≤ Sat.psat T

private theorem dome_nonneg {T : ℝ} (h1 : 623.15 ≤ T) (h2 : T ≤ 647.096) : 0 ≤ 16 * (647.096 - T) - (647.096 - T) ^ 2 / 3 := by
  nlinarith

private theorem low_tau {T : ℝ} (h1 : 623.15 ≤ T) (h2 : T ≤ 647.096) :
    |647.096 / T * ((2000000 : ℕ) : ℝ) - (2038428 : ℕ)| ≤ (38428 : ℕ) ∧ 647.096 / (647.096 / T) = T ∧
    (647.096 / T)⁻¹ = T / 647.096 := by
  have hT : 0 < T := by linarith
  have b1 : 1 ≤ 647.096 / T := by rw [le_div_iff₀ hT]; linarith
  have b2 : 647.096 / T ≤ 1.038428 := by rw [div_le_iff₀ hT]; linarith
  refine ⟨?_, by field_simp, inv_div _ _⟩
  rw [abs_le]; push_cast; constructor <;> norm_num at * <;> linarith

private theorem goq {R : ℝ → ℝ → Prop} {C : ℝ → ℝ → Prop} (hR : ∀ x y, R x y = (InLiq x y → C (647.096 / y) (322 * x)))
    (h0 : Good R 200000 38428 2200000 2000000 2038428 2000000) (h1 : Good R 500000 38428 2900000 2000000 2038428 2000000)
    (h2 : Good R 800000 38428 4200000 2000000 2038428 2000000) {T d : ℝ} (h : In3q T d) : C T d := by
  obtain ⟨t1, t2, d2, hl, hs, hp⟩ := h
  obtain ⟨ht, e1, ei⟩ := low_tau t1 t2
  have e2 : 322 * (d / 322) = d := by field_simp
  have ep : pP (d / 322) (647.096 / T) = Td2p_reg3 T d := by rw [pP, e1, e2]
  have d1 : 322 ≤ d := by linarith [dome_nonneg t1 t2]
  have x1 : 1 ≤ d / 322 := by rw [le_div_iff₀ (by norm_num)]; linarith
  have x2 : d / 322 ≤ 2.5 := by rw [div_le_iff₀ (by norm_num)]; linarith
  have hr : R (d / 322) (647.096 / T) := by
    rcases le_total (d / 322) 1.2 with g | g
    · exact h0 _ _ (by rw [abs_le]; push_cast; constructor <;> norm_num at * <;> linarith) ht
    rcases le_total (d / 322) 1.7 with g' | g'
    · exact h1 _ _ (by rw [abs_le]; push_cast; constructor <;> norm_num at * <;> linarith) ht
    · exact h2 _ _ (by rw [abs_le]; push_cast; constructor <;> norm_num at * <;> linarith) ht
  rw [hR, e1, e2] at hr
  refine hr ⟨by linarith, by rwa [ep], ?_, ?_⟩
  · rw [ei, lnv, le_div_iff₀ (by norm_num)]
    refine le_trans (le_of_eq ?_) hl
    field_simp
  · rw [ei, ep]
    exact le_trans (Sat.psat_lo t1 t2).le hs

private theorem gov {R : ℝ → ℝ → Prop} {C : ℝ → ℝ → Prop} (hR : ∀ x y, R x y = (InVap x y → C (647.096 / y) (322 * x)))
    (h0 : Good R 300000 38428 300000 2000000 2038428 2000000) (h1 : Good R 200000 38428 800000 2000000 2038428 2000000)
    (h2 : Good R 300000 38428 1300000 2000000 2038428 2000000) (h3 : Good R 200000 38428 1800000 2000000 2038428 2000000)
    {T d : ℝ} (h : In3v T d) : C T d := by
  obtain ⟨t1, t2, d0, hl, hb, hp⟩ := h
  obtain ⟨ht, e1, ei⟩ := low_tau t1 t2
  have e2 : 322 * (d / 322) = d := by field_simp
  have ep : pP (d / 322) (647.096 / T) = Td2p_reg3 T d := by rw [pP, e1, e2]
  have d1 : d ≤ 322 := by linarith [dome_nonneg t1 t2]
  have x1 : 0 < d / 322 := by positivity
  have x2 : d / 322 ≤ 1 := by rw [div_le_iff₀ (by norm_num)]; linarith
  have hr : R (d / 322) (647.096 / T) := by
    rcases le_total (d / 322) 0.3 with g | g
    · exact h0 _ _ (by rw [abs_le]; push_cast; constructor <;> norm_num at * <;> linarith) ht
    rcases le_total (d / 322) 0.5 with g' | g'
    · exact h1 _ _ (by rw [abs_le]; push_cast; constructor <;> norm_num at * <;> linarith) ht
    rcases le_total (d / 322) 0.8 with g'' | g''
    · exact h2 _ _ (by rw [abs_le]; push_cast; constructor <;> norm_num at * <;> linarith) ht
    · exact h3 _ _ (by rw [abs_le]; push_cast; constructor <;> norm_num at * <;> linarith) ht
  have hm : Sat.psat T ≤ Sat.psat 647.096 :=
    Sat.psat_strictMonoOn.monotoneOn ⟨by linarith, by linarith⟩ (by norm_num) t2
  rw [hR, e1, e2] at hr
  refine hr ⟨x1, ?_, ?_, ?_, ?_, ?_⟩
  · rw [ei, ep]
    refine le_trans (le_of_eq ?_) hb
    rw [Domain.pB23]
    norm_num
    ring
  · rw [ei, lnv, div_le_iff₀ (by norm_num)]
    refine le_trans hl (le_of_eq ?_)
    field_simp
  · rw [ei, ep]
    exact le_trans hp (Sat.psat_hi t1 t2).le
  · rw [ep]
    refine le_trans ?_ hb
    rw [Domain.pB23]
    nlinarith
  · rw [ep]; linarith [Sat.psat_max.2]

theorem ph3q_back {T d : ℝ} (h : In3q T d) : ClosePh T d :=
  goq (R := RPh3q) (C := ClosePh) (fun _ _ => rfl) ph3q_root0 ph3q_root1 ph3q_root2 h
theorem ph3v_back {T d : ℝ} (h : In3v T d) : ClosePh T d :=
  gov (R := RPh3v) (C := ClosePh) (fun _ _ => rfl) ph3v_root0 ph3v_root1 ph3v_root2 ph3v_root3 h
theorem ps3q_back {T d : ℝ} (h : In3q T d) : ClosePs T d :=
  goq (R := RPs3q) (C := ClosePs) (fun _ _ => rfl) ps3q_root0 ps3q_root1 ps3q_root2 h
theorem ps3v_back {T d : ℝ} (h : In3v T d) : ClosePs T d :=
  gov (R := RPs3v) (C := ClosePs) (fun _ _ => rfl) ps3v_root0 ps3v_root1 ps3v_root2 ps3v_root3 h

end If97.Tm
