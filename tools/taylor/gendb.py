s='''import Verif.Lemmas.Tm.Cover1
import Verif.Lemmas.Tm.Cover2g
import Verif.Lemmas.Tm.Det1_0
import Verif.Lemmas.Tm.Det1_1
import Verif.Lemmas.Tm.Det1_2
import Verif.Lemmas.Tm.Det2_0
import Verif.Lemmas.Tm.Det2_1
import Verif.Lemmas.Tm.Det2_2
import Verif.Lemmas.Tm.Det5

/-! The determinant of the second derivatives is positive on regions 1, 2, 5. -/

namespace If97.Tm

theorem det1_all : ∀ s ∈ strips1, ∀ p τ : ℝ, s.Mem p τ → 0 < G1.det (p / 16.53) τ := by
  unfold strips1
'''
for i in range(50): s+=f"  refine List.forall_mem_cons.2 ⟨fun p τ h => det1_{i} p τ h.1 h.2, ?_⟩\n"
s+='''  exact fun _ h => absurd h List.not_mem_nil

theorem det1_pos {p T : ℝ} (h : InRange 1 p T) : 0 < G1.det (p / G1.ps) (G1.Ts / T) := by
  obtain ⟨s, hs, hm⟩ := cover1 h
  exact det1_all s hs _ _ hm

/-- from π B and π² C to B and C -/
theorem DetI.det {G : Gibbs} {k : Bool} {x y : ℝ} (h : DetI G k x y) (hx : x ≠ 0) : 0 < G.det x y := by
  have e : -(y ^ 2 * G.gtt x y) * -(x ^ 2 * G.gpp x y) - (x * G.gp x y - y * (x * G.gpt x y)) ^ 2 = x ^ 2 * G.det x y := by
    unfold Gibbs.det; ring
  exact pos_of_mul_pos_right (e ▸ h.1) (by positivity)

theorem det2_pos {p T : ℝ} (h : InRange 2 p T) (hp : 0.000611212677444 ≤ p) : DetI G2 false p (540 / T) := by
  obtain ⟨β, τ, a, b, c, d, e, f, g, hτ, i, j⟩ := coords2 h hp
  have hβ : β ^ 4 ≠ 0 := by rw [f]; exact h.p_pos.ne'
  suffices RDet2 β τ by rw [← f, ← hτ]; exact this hβ
  rcases le_total p 4 with k | k
  · exact cover2a det2_0 det2_1 det2_2 det2_3 det2_4 det2_5 e c d a (i k)
  · exact cover2g (.one (by decide) det2_6) (.one (by decide) det2_7) (.one (by decide) det2_8) (.one (by decide) det2_9)
      (.one (by decide) det2_10) (.one (by decide) det2_11) e c d (j k) b

theorem det5_pos {p T : ℝ} (h : InRange 5 p T) : DetI G5 true p (1000 / T) := by
  have hp := h.p_pos
  have hT := h.T_pos
  rcases h with h | h | h
  · exact absurd h.1 (by decide)
  · exact absurd h.1 (by decide)
  · refine det5_all p (1000 / T) ?_ ?_ hp.ne'
    · rw [abs_le]; push_cast; constructor <;> linarith [h.2.2.1]
    · have h1 := h.2.2.2.1
      have h2 := h.2.2.2.2
      have e : 1000 / T * (100000 : ℕ) = 100000000 / T := by push_cast; ring
      rw [e, abs_le]; push_cast
      constructor
      · rw [neg_le_sub_iff_le_add, ← sub_le_iff_le_add, le_div_iff₀ hT]; norm_num at *; linarith
      · rw [sub_le_iff_le_add, div_le_iff₀ hT]; norm_num at *; linarith

theorem det_pos {r : Int} {p T : ℝ} (h : InRange r p T) (hp : 0.000611212677444 ≤ p) :
    0 < (Gr r).det (p / (Gr r).ps) ((Gr r).Ts / T) := by
  rcases h.gibbs with rfl | rfl | rfl
  · exact det1_pos h
  · rw [Gr_2, show G2.ps = 1 from rfl, div_one]; exact (det2_pos h hp).det h.p_pos.ne'
  · rw [Gr_5, show G5.ps = 1 from rfl, div_one]; exact (det5_pos h).det h.p_pos.ne'

end If97.Tm
'''
open('/verif/lean/Verif/Lemmas/Tm/DetBack.lean','w').write(s)
