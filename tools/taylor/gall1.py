import json
O='/verif/lean/Verif/Lemmas/Tm/'
s="".join(f"import Verif.Lemmas.Tm.{m}\n" for m in ['Cover1']+[f'Ph1_{i}' for i in range(6)]+[f'Ps1_{i}' for i in range(4)]+[f'Hs1_{i}' for i in range(14)])
s+="""
/-! The backward equations of region 1 on the whole region. -/

namespace If97.Tm
set_option maxRecDepth 100000

theorem lift {R : ℝ → ℝ → Prop} {leaf : Nat → Nat → Nat → Nat → Nat → Nat → Bool} {t : Tr} {s : Strip}
    (hl : LeafOk (leaf s.xr s.yr) s.xr s.yr R) (h : verify (leaf s.xr s.yr) s.xr s.yr t s.xc s.D s.yc s.E = true)
    (h1 : 0 < s.D) (h2 : 0 < s.E) (h3 : s.xr ≤ s.xc) (h4 : s.yr ≤ s.yc) : ∀ p y, s.Mem p y → R p y :=
  fun _ _ hm => verify_sound hl h1 h2 h3 h4 h hm.1 hm.2

"""
N=50
for nm,leaf,ok,R in [('ph1','leafPh1 P12 25 1000','leafPh1_ok P12_ok (by decide)','|ph2T_reg1 p (0.461526 * 1386 * G1.gt (p / 16.53) τ) - 1386 / τ| ≤ ((25 : ℕ) : ℝ) / (1000 : ℕ)'),
 ('ps1','leafPs1 P12 25 1000','leafPs1_ok P12_ok (by decide)','|ps2T_reg1 p (0.461526 * (τ * G1.gt (p / 16.53) τ - G1.g (p / 16.53) τ)) - 1386 / τ| ≤ ((25 : ℕ) : ℝ) / (1000 : ℕ)'),
 ('hs1','leafHs1 P12 15 1000 25 1000','leafHs1_ok P12_ok (by decide)','''|hs2p_reg1 (0.461526 * 1386 * G1.gt (p / 16.53) τ) (0.461526 * (τ * G1.gt (p / 16.53) τ - G1.g (p / 16.53) τ)) - p|
        ≤ ((15 : ℕ) : ℝ) / (1000 : ℕ) ∧
      |ph2T_reg1 (hs2p_reg1 (0.461526 * 1386 * G1.gt (p / 16.53) τ)
        (0.461526 * (τ * G1.gt (p / 16.53) τ - G1.g (p / 16.53) τ))) (0.461526 * 1386 * G1.gt (p / 16.53) τ) - 1386 / τ|
        ≤ ((25 : ℕ) : ℝ) / (1000 : ℕ)''')]:
    s+=f"theorem {nm}_all : ∀ s ∈ strips1, ∀ p τ : ℝ, s.Mem p τ → {R} := by\n  unfold strips1\n"
    for i in range(N):
        s+=f"  refine List.forall_mem_cons.2 ⟨lift (leaf := {leaf}) ({ok}) {nm}_{i} (by decide) (by decide) (by decide) (by decide), ?_⟩\n"
    s+="  exact fun _ h => absurd h List.not_mem_nil\n\n"
s+="""variable {p T : ℝ} (h : InRange 1 p T)

theorem eH : 0.461526 * 1386 * G1.gt (p / 16.53) (1386 / T) = G1.H p T := by
  simp only [Gibbs.H, gasR, G1]
theorem eS : 0.461526 * (1386 / T * G1.gt (p / 16.53) (1386 / T) - G1.g (p / 16.53) (1386 / T)) = G1.S p T := by
  simp only [Gibbs.S, gasR, G1]

include h

theorem ph1_back : |ph2T_reg1 p (G1.H p T) - T| ≤ 0.025 := by
  obtain ⟨s, hs, hm⟩ := cover1 h
  have := ph1_all s hs _ _ hm
  rw [div_div_cancel₀ (by norm_num), eH] at this
  exact this.trans (by norm_num)

theorem ps1_back : |ps2T_reg1 p (G1.S p T) - T| ≤ 0.025 := by
  obtain ⟨s, hs, hm⟩ := cover1 h
  have := ps1_all s hs _ _ hm
  rw [div_div_cancel₀ (by norm_num), eS] at this
  exact this.trans (by norm_num)

theorem hs1_back : |hs2p_reg1 (G1.H p T) (G1.S p T) - p| ≤ 0.015 ∧
    |ph2T_reg1 (hs2p_reg1 (G1.H p T) (G1.S p T)) (G1.H p T) - T| ≤ 0.025 := by
  obtain ⟨s, hs, hm⟩ := cover1 h
  have := hs1_all s hs _ _ hm
  rw [div_div_cancel₀ (by norm_num), eH, eS] at this
  exact ⟨this.1.trans (by norm_num), this.2.trans (by norm_num)⟩

end If97.Tm
"""
open(O+'Back1.lean','w').write(s)
