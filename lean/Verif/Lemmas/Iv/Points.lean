import Verif.Lemmas.IvCover
import Verif.Lemmas.IvTables

namespace If97.Iv
set_option maxRecDepth 100000

/-! a point value for C47 (kernel-checked, see Lemmas/Interval.lean) -/


def F_lw1 : Fun := eval% mkFun lw1
theorem F_lw1_eq : F_lw1 = mkFun lw1 := by decide +kernel
theorem F_lw1_small : (mkFun lw1).Small := by decide +kernel

private def trw1w1_0 : Tree := eval% search F_lw1 40 ⟨7039504, 1, 1000000, 3852136, 1, 1000000, 1222000⟩
private theorem okw1w1_0 : verifyF F_lw1 (nat_lit 1) (nat_lit 1) trw1w1_0 (nat_lit 7039504) (nat_lit 1000000) (nat_lit 3852136)
    (nat_lit 1000000) (nat_lit 1222000) = true := by decide +kernel

theorem pos_lw1_w1 {B : Box} (hB : B ∈ boxes_w1) {X Y : ℝ} (hm : B.Mem X Y) : 0 < evS lw1 X Y (Y + 1.222) := by
  have key : ∀ {xc xr D yc yr E c : Nat} {t : Tree}, Box.Wf ⟨xc, xr, D, yc, yr, E, c⟩ →
      verifyF F_lw1 xr yr t xc D yc E c = true → (c : ℝ) / E = 1.222 → Box.Mem ⟨xc, xr, D, yc, yr, E, c⟩ X Y →
      0 < evS lw1 X Y (Y + 1.222) := fun h1 h2 h3 h4 => h3 ▸ sound F_lw1_eq F_lw1_small h1 h2 h4
  simp only [boxes_w1, List.mem_cons, List.not_mem_nil, or_false] at hB
  rcases hB with rfl
  exact key (by decide) okw1w1_0 (by norm_num) hm

/-! a point value for C47 (kernel-checked, see Lemmas/Interval.lean) -/


def F_lw2 : Fun := eval% mkFun lw2
theorem F_lw2_eq : F_lw2 = mkFun lw2 := by decide +kernel
theorem F_lw2_small : (mkFun lw2).Small := by decide +kernel

private def trw2w2_0 : Tree := eval% search F_lw2 40 ⟨7039504, 1, 1000000, 3760923, 1, 1000000, 1222000⟩
private theorem okw2w2_0 : verifyF F_lw2 (nat_lit 1) (nat_lit 1) trw2w2_0 (nat_lit 7039504) (nat_lit 1000000) (nat_lit 3760923)
    (nat_lit 1000000) (nat_lit 1222000) = true := by decide +kernel

theorem pos_lw2_w2 {B : Box} (hB : B ∈ boxes_w2) {X Y : ℝ} (hm : B.Mem X Y) : 0 < evS lw2 X Y (Y + 1.222) := by
  have key : ∀ {xc xr D yc yr E c : Nat} {t : Tree}, Box.Wf ⟨xc, xr, D, yc, yr, E, c⟩ →
      verifyF F_lw2 xr yr t xc D yc E c = true → (c : ℝ) / E = 1.222 → Box.Mem ⟨xc, xr, D, yc, yr, E, c⟩ X Y →
      0 < evS lw2 X Y (Y + 1.222) := fun h1 h2 h3 h4 => h3 ▸ sound F_lw2_eq F_lw2_small h1 h2 h4
  simp only [boxes_w2, List.mem_cons, List.not_mem_nil, or_false] at hB
  rcases hB with rfl
  exact key (by decide) okw2w2_0 (by norm_num) hm

/-! a point value for C47 (kernel-checked, see Lemmas/Interval.lean) -/


def F_lw3 : Fun := eval% mkFun lw3
theorem F_lw3_eq : F_lw3 = mkFun lw3 := by decide +kernel
theorem F_lw3_small : (mkFun lw3).Small := by decide +kernel

private def trw3w3_0 : Tree := eval% search F_lw3 40 ⟨6495040, 1, 1000000, 3833627, 1, 1000000, 1222000⟩
private theorem okw3w3_0 : verifyF F_lw3 (nat_lit 1) (nat_lit 1) trw3w3_0 (nat_lit 6495040) (nat_lit 1000000) (nat_lit 3833627)
    (nat_lit 1000000) (nat_lit 1222000) = true := by decide +kernel

theorem pos_lw3_w3 {B : Box} (hB : B ∈ boxes_w3) {X Y : ℝ} (hm : B.Mem X Y) : 0 < evS lw3 X Y (Y + 1.222) := by
  have key : ∀ {xc xr D yc yr E c : Nat} {t : Tree}, Box.Wf ⟨xc, xr, D, yc, yr, E, c⟩ →
      verifyF F_lw3 xr yr t xc D yc E c = true → (c : ℝ) / E = 1.222 → Box.Mem ⟨xc, xr, D, yc, yr, E, c⟩ X Y →
      0 < evS lw3 X Y (Y + 1.222) := fun h1 h2 h3 h4 => h3 ▸ sound F_lw3_eq F_lw3_small h1 h2 h4
  simp only [boxes_w3, List.mem_cons, List.not_mem_nil, or_false] at hB
  rcases hB with rfl
  exact key (by decide) okw3w3_0 (by norm_num) hm

/-! a point value for C47 (kernel-checked, see Lemmas/Interval.lean) -/


def F_lw4 : Fun := eval% mkFun lw4
theorem F_lw4_eq : F_lw4 = mkFun lw4 := by decide +kernel
theorem F_lw4_small : (mkFun lw4).Small := by decide +kernel

private def trw4w4_0 : Tree := eval% search F_lw4 40 ⟨7099961, 4, 1000000, 3833627, 1, 1000000, 1222000⟩
private theorem okw4w4_0 : verifyF F_lw4 (nat_lit 4) (nat_lit 1) trw4w4_0 (nat_lit 7099961) (nat_lit 1000000) (nat_lit 3833627)
    (nat_lit 1000000) (nat_lit 1222000) = true := by decide +kernel

theorem pos_lw4_w4 {B : Box} (hB : B ∈ boxes_w4) {X Y : ℝ} (hm : B.Mem X Y) : 0 < evS lw4 X Y (Y + 1.222) := by
  have key : ∀ {xc xr D yc yr E c : Nat} {t : Tree}, Box.Wf ⟨xc, xr, D, yc, yr, E, c⟩ →
      verifyF F_lw4 xr yr t xc D yc E c = true → (c : ℝ) / E = 1.222 → Box.Mem ⟨xc, xr, D, yc, yr, E, c⟩ X Y →
      0 < evS lw4 X Y (Y + 1.222) := fun h1 h2 h3 h4 => h3 ▸ sound F_lw4_eq F_lw4_small h1 h2 h4
  simp only [boxes_w4, List.mem_cons, List.not_mem_nil, or_false] at hB
  rcases hB with rfl
  exact key (by decide) okw4w4_0 (by norm_num) hm

/-! a point value for C48 (kernel-checked, see Lemmas/Interval.lean) -/


def F_lw5 : Fun := eval% mkFun lw5
theorem F_lw5_eq : F_lw5 = mkFun lw5 := by decide +kernel
theorem F_lw5_small : (mkFun lw5).Small := by decide +kernel

private def trw5w5_0 : Tree := eval% search F_lw5 40 ⟨1050394, 1, 1000000, 3505955, 1, 1000000, 1222000⟩
private theorem okw5w5_0 : verifyF F_lw5 (nat_lit 1) (nat_lit 1) trw5w5_0 (nat_lit 1050394) (nat_lit 1000000) (nat_lit 3505955)
    (nat_lit 1000000) (nat_lit 1222000) = true := by decide +kernel

theorem pos_lw5_w5 {B : Box} (hB : B ∈ boxes_w5) {X Y : ℝ} (hm : B.Mem X Y) : 0 < evS lw5 X Y (Y + 1.222) := by
  have key : ∀ {xc xr D yc yr E c : Nat} {t : Tree}, Box.Wf ⟨xc, xr, D, yc, yr, E, c⟩ →
      verifyF F_lw5 xr yr t xc D yc E c = true → (c : ℝ) / E = 1.222 → Box.Mem ⟨xc, xr, D, yc, yr, E, c⟩ X Y →
      0 < evS lw5 X Y (Y + 1.222) := fun h1 h2 h3 h4 => h3 ▸ sound F_lw5_eq F_lw5_small h1 h2 h4
  simp only [boxes_w5, List.mem_cons, List.not_mem_nil, or_false] at hB
  rcases hB with rfl
  exact key (by decide) okw5w5_0 (by norm_num) hm

/-! a point value for C48 (kernel-checked, see Lemmas/Interval.lean) -/


def F_lw6 : Fun := eval% mkFun lw6
theorem F_lw6_eq : F_lw6 = mkFun lw6 := by decide +kernel
theorem F_lw6_small : (mkFun lw6).Small := by decide +kernel

private def trw6w6_0 : Tree := eval% search F_lw6 40 ⟨7099849, 31, 1000000, 3505955, 1, 1000000, 1222000⟩
private theorem okw6w6_0 : verifyF F_lw6 (nat_lit 31) (nat_lit 1) trw6w6_0 (nat_lit 7099849) (nat_lit 1000000) (nat_lit 3505955)
    (nat_lit 1000000) (nat_lit 1222000) = true := by decide +kernel

theorem pos_lw6_w6 {B : Box} (hB : B ∈ boxes_w6) {X Y : ℝ} (hm : B.Mem X Y) : 0 < evS lw6 X Y (Y + 1.222) := by
  have key : ∀ {xc xr D yc yr E c : Nat} {t : Tree}, Box.Wf ⟨xc, xr, D, yc, yr, E, c⟩ →
      verifyF F_lw6 xr yr t xc D yc E c = true → (c : ℝ) / E = 1.222 → Box.Mem ⟨xc, xr, D, yc, yr, E, c⟩ X Y →
      0 < evS lw6 X Y (Y + 1.222) := fun h1 h2 h3 h4 => h3 ▸ sound F_lw6_eq F_lw6_small h1 h2 h4
  simp only [boxes_w6, List.mem_cons, List.not_mem_nil, or_false] at hB
  rcases hB with rfl
  exact key (by decide) okw6w6_0 (by norm_num) hm

end If97.Iv
