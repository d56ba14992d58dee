import Verif.Lemmas.IvCover
import Verif.Lemmas.IvTables

namespace If97.Iv
set_option maxRecDepth 100000

/-! τ γ_τ − γ < 33.5 without the logarithm in region 5 (kernel-checked, see Lemmas/Interval.lean) -/


def F_l5m : Fun := eval% mkFun l5m
theorem F_l5m_eq : F_l5m = mkFun l5m := by decide +kernel
theorem F_l5m_small : (mkFun l5m).Small := by decide +kernel

private def trr5m5_0 : Tree := eval% search F_l5m 40 ⟨25000000, 25000000, 1000000, 685878, 245960, 1000000, 0⟩
private theorem okr5m5_0 : verifyF F_l5m (nat_lit 25000000) (nat_lit 245960) trr5m5_0 (nat_lit 25000000) (nat_lit 1000000) (nat_lit 685878)
    (nat_lit 1000000) (nat_lit 0) = true := by decide +kernel

theorem pos_l5m_5 {B : Box} (hB : B ∈ boxes5) {X Y : ℝ} (hm : B.Mem X Y) : 0 < evS l5m X Y (Y + 0) := by
  have key : ∀ {xc xr D yc yr E c : Nat} {t : Tree}, Box.Wf ⟨xc, xr, D, yc, yr, E, c⟩ →
      verifyF F_l5m xr yr t xc D yc E c = true → (c : ℝ) / E = 0 → Box.Mem ⟨xc, xr, D, yc, yr, E, c⟩ X Y →
      0 < evS l5m X Y (Y + 0) := fun h1 h2 h3 h4 => h3 ▸ sound F_l5m_eq F_l5m_small h1 h2 h4
  simp only [boxes5, List.mem_cons, List.not_mem_nil, or_false] at hB
  rcases hB with rfl
  exact key (by decide) okr5m5_0 (by norm_num) hm

/-! τ γ_τ − γ > 4 without the logarithm in region 5 (kernel-checked, see Lemmas/Interval.lean) -/


def F_l5s : Fun := eval% mkFun l5s
theorem F_l5s_eq : F_l5s = mkFun l5s := by decide +kernel
theorem F_l5s_small : (mkFun l5s).Small := by decide +kernel

private def trr5s5_0 : Tree := eval% search F_l5s 40 ⟨25000000, 25000000, 1000000, 685878, 245960, 1000000, 0⟩
private theorem okr5s5_0 : verifyF F_l5s (nat_lit 25000000) (nat_lit 245960) trr5s5_0 (nat_lit 25000000) (nat_lit 1000000) (nat_lit 685878)
    (nat_lit 1000000) (nat_lit 0) = true := by decide +kernel

theorem pos_l5s_5 {B : Box} (hB : B ∈ boxes5) {X Y : ℝ} (hm : B.Mem X Y) : 0 < evS l5s X Y (Y + 0) := by
  have key : ∀ {xc xr D yc yr E c : Nat} {t : Tree}, Box.Wf ⟨xc, xr, D, yc, yr, E, c⟩ →
      verifyF F_l5s xr yr t xc D yc E c = true → (c : ℝ) / E = 0 → Box.Mem ⟨xc, xr, D, yc, yr, E, c⟩ X Y →
      0 < evS l5s X Y (Y + 0) := fun h1 h2 h3 h4 => h3 ▸ sound F_l5s_eq F_l5s_small h1 h2 h4
  simp only [boxes5, List.mem_cons, List.not_mem_nil, or_false] at hB
  rcases hB with rfl
  exact key (by decide) okr5s5_0 (by norm_num) hm

/-! γ_πτ < 0 in region 5 (kernel-checked, see Lemmas/Interval.lean) -/


def F_l5z : Fun := eval% mkFun l5z
theorem F_l5z_eq : F_l5z = mkFun l5z := by decide +kernel
theorem F_l5z_small : (mkFun l5z).Small := by decide +kernel

private def trr5z5_0 : Tree := eval% search F_l5z 40 ⟨25000000, 25000000, 1000000, 685878, 245960, 1000000, 0⟩
private theorem okr5z5_0 : verifyF F_l5z (nat_lit 25000000) (nat_lit 245960) trr5z5_0 (nat_lit 25000000) (nat_lit 1000000) (nat_lit 685878)
    (nat_lit 1000000) (nat_lit 0) = true := by decide +kernel

theorem pos_l5z_5 {B : Box} (hB : B ∈ boxes5) {X Y : ℝ} (hm : B.Mem X Y) : 0 < evS l5z X Y (Y + 0) := by
  have key : ∀ {xc xr D yc yr E c : Nat} {t : Tree}, Box.Wf ⟨xc, xr, D, yc, yr, E, c⟩ →
      verifyF F_l5z xr yr t xc D yc E c = true → (c : ℝ) / E = 0 → Box.Mem ⟨xc, xr, D, yc, yr, E, c⟩ X Y →
      0 < evS l5z X Y (Y + 0) := fun h1 h2 h3 h4 => h3 ▸ sound F_l5z_eq F_l5z_small h1 h2 h4
  simp only [boxes5, List.mem_cons, List.not_mem_nil, or_false] at hB
  rcases hB with rfl
  exact key (by decide) okr5z5_0 (by norm_num) hm

end If97.Iv
