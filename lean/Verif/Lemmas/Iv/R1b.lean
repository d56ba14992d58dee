import Verif.Lemmas.IvCover
import Verif.Lemmas.IvTables

namespace If97.Iv
set_option maxRecDepth 100000

/-! γ_τ < 3.126 in region 1 (kernel-checked, see Lemmas/Interval.lean) -/


def F_l1h : Fun := eval% mkFun l1h
theorem F_l1h_eq : F_l1h = mkFun l1h := by decide +kernel
theorem F_l1h_small : (mkFun l1h).Small := by decide +kernel

private def trr1h1_0 : Tree := eval% search F_l1h 40 ⟨4075197, 3024804, 1000000, 2575068, 1277068, 1000000, 1222000⟩
private theorem okr1h1_0 : verifyF F_l1h (nat_lit 3024804) (nat_lit 1277068) trr1h1_0 (nat_lit 4075197) (nat_lit 1000000) (nat_lit 2575068)
    (nat_lit 1000000) (nat_lit 1222000) = true := by decide +kernel

private def trr1h1_1 : Tree := eval% search F_l1h 40 ⟨3890949, 2840556, 1000000, 1232828, 65173, 1000000, 1222000⟩
private theorem okr1h1_1 : verifyF F_l1h (nat_lit 2840556) (nat_lit 65173) trr1h1_1 (nat_lit 3890949) (nat_lit 1000000) (nat_lit 1232828)
    (nat_lit 1000000) (nat_lit 1222000) = true := by decide +kernel

private def trr1h1_2 : Tree := eval% search F_l1h 40 ⟨3790595, 2740202, 1000000, 1127828, 39828, 1000000, 1222000⟩
private theorem okr1h1_2 : verifyF F_l1h (nat_lit 2740202) (nat_lit 39828) trr1h1_2 (nat_lit 3790595) (nat_lit 1000000) (nat_lit 1127828)
    (nat_lit 1000000) (nat_lit 1222000) = true := by decide +kernel

private def trr1h1_3 : Tree := eval% search F_l1h 40 ⟨3703333, 2652940, 1000000, 1069066, 18935, 1000000, 1222000⟩
private theorem okr1h1_3 : verifyF F_l1h (nat_lit 2652940) (nat_lit 18935) trr1h1_3 (nat_lit 3703333) (nat_lit 1000000) (nat_lit 1069066)
    (nat_lit 1000000) (nat_lit 1222000) = true := by decide +kernel

private def trr1h1_4 : Tree := eval% search F_l1h 40 ⟨3652457, 2602064, 1000000, 1035425, 14707, 1000000, 1222000⟩
private theorem okr1h1_4 : verifyF F_l1h (nat_lit 2602064) (nat_lit 14707) trr1h1_4 (nat_lit 3652457) (nat_lit 1000000) (nat_lit 1035425)
    (nat_lit 1000000) (nat_lit 1222000) = true := by decide +kernel

private def trr1h1_5 : Tree := eval% search F_l1h 40 ⟨3607946, 2557553, 1000000, 1011451, 9268, 1000000, 1222000⟩
private theorem okr1h1_5 : verifyF F_l1h (nat_lit 2557553) (nat_lit 9268) trr1h1_5 (nat_lit 3607946) (nat_lit 1000000) (nat_lit 1011451)
    (nat_lit 1000000) (nat_lit 1222000) = true := by decide +kernel

theorem pos_l1h_1 {B : Box} (hB : B ∈ boxes1) {X Y : ℝ} (hm : B.Mem X Y) : 0 < evS l1h X Y (Y + 1.222) := by
  have key : ∀ {xc xr D yc yr E c : Nat} {t : Tree}, Box.Wf ⟨xc, xr, D, yc, yr, E, c⟩ →
      verifyF F_l1h xr yr t xc D yc E c = true → (c : ℝ) / E = 1.222 → Box.Mem ⟨xc, xr, D, yc, yr, E, c⟩ X Y →
      0 < evS l1h X Y (Y + 1.222) := fun h1 h2 h3 h4 => h3 ▸ sound F_l1h_eq F_l1h_small h1 h2 h4
  simp only [boxes1, List.mem_cons, List.not_mem_nil, or_false] at hB
  rcases hB with rfl | rfl | rfl | rfl | rfl | rfl
  · exact key (by decide) okr1h1_0 (by norm_num) hm
  · exact key (by decide) okr1h1_1 (by norm_num) hm
  · exact key (by decide) okr1h1_2 (by norm_num) hm
  · exact key (by decide) okr1h1_3 (by norm_num) hm
  · exact key (by decide) okr1h1_4 (by norm_num) hm
  · exact key (by decide) okr1h1_5 (by norm_num) hm

/-! τ γ_τ − γ < 9.75 in region 1 (kernel-checked, see Lemmas/Interval.lean) -/


def F_l1s : Fun := eval% mkFun l1s
theorem F_l1s_eq : F_l1s = mkFun l1s := by decide +kernel
theorem F_l1s_small : (mkFun l1s).Small := by decide +kernel

private def trr1s1_0 : Tree := eval% search F_l1s 40 ⟨4075197, 3024804, 1000000, 2575068, 1277068, 1000000, 1222000⟩
private theorem okr1s1_0 : verifyF F_l1s (nat_lit 3024804) (nat_lit 1277068) trr1s1_0 (nat_lit 4075197) (nat_lit 1000000) (nat_lit 2575068)
    (nat_lit 1000000) (nat_lit 1222000) = true := by decide +kernel

private def trr1s1_1 : Tree := eval% search F_l1s 40 ⟨3890949, 2840556, 1000000, 1232828, 65173, 1000000, 1222000⟩
private theorem okr1s1_1 : verifyF F_l1s (nat_lit 2840556) (nat_lit 65173) trr1s1_1 (nat_lit 3890949) (nat_lit 1000000) (nat_lit 1232828)
    (nat_lit 1000000) (nat_lit 1222000) = true := by decide +kernel

private def trr1s1_2 : Tree := eval% search F_l1s 40 ⟨3790595, 2740202, 1000000, 1127828, 39828, 1000000, 1222000⟩
private theorem okr1s1_2 : verifyF F_l1s (nat_lit 2740202) (nat_lit 39828) trr1s1_2 (nat_lit 3790595) (nat_lit 1000000) (nat_lit 1127828)
    (nat_lit 1000000) (nat_lit 1222000) = true := by decide +kernel

private def trr1s1_3 : Tree := eval% search F_l1s 40 ⟨3703333, 2652940, 1000000, 1069066, 18935, 1000000, 1222000⟩
private theorem okr1s1_3 : verifyF F_l1s (nat_lit 2652940) (nat_lit 18935) trr1s1_3 (nat_lit 3703333) (nat_lit 1000000) (nat_lit 1069066)
    (nat_lit 1000000) (nat_lit 1222000) = true := by decide +kernel

private def trr1s1_4 : Tree := eval% search F_l1s 40 ⟨3652457, 2602064, 1000000, 1035425, 14707, 1000000, 1222000⟩
private theorem okr1s1_4 : verifyF F_l1s (nat_lit 2602064) (nat_lit 14707) trr1s1_4 (nat_lit 3652457) (nat_lit 1000000) (nat_lit 1035425)
    (nat_lit 1000000) (nat_lit 1222000) = true := by decide +kernel

private def trr1s1_5 : Tree := eval% search F_l1s 40 ⟨3607946, 2557553, 1000000, 1011451, 9268, 1000000, 1222000⟩
private theorem okr1s1_5 : verifyF F_l1s (nat_lit 2557553) (nat_lit 9268) trr1s1_5 (nat_lit 3607946) (nat_lit 1000000) (nat_lit 1011451)
    (nat_lit 1000000) (nat_lit 1222000) = true := by decide +kernel

theorem pos_l1s_1 {B : Box} (hB : B ∈ boxes1) {X Y : ℝ} (hm : B.Mem X Y) : 0 < evS l1s X Y (Y + 1.222) := by
  have key : ∀ {xc xr D yc yr E c : Nat} {t : Tree}, Box.Wf ⟨xc, xr, D, yc, yr, E, c⟩ →
      verifyF F_l1s xr yr t xc D yc E c = true → (c : ℝ) / E = 1.222 → Box.Mem ⟨xc, xr, D, yc, yr, E, c⟩ X Y →
      0 < evS l1s X Y (Y + 1.222) := fun h1 h2 h3 h4 => h3 ▸ sound F_l1s_eq F_l1s_small h1 h2 h4
  simp only [boxes1, List.mem_cons, List.not_mem_nil, or_false] at hB
  rcases hB with rfl | rfl | rfl | rfl | rfl | rfl
  · exact key (by decide) okr1s1_0 (by norm_num) hm
  · exact key (by decide) okr1s1_1 (by norm_num) hm
  · exact key (by decide) okr1s1_2 (by norm_num) hm
  · exact key (by decide) okr1s1_3 (by norm_num) hm
  · exact key (by decide) okr1s1_4 (by norm_num) hm
  · exact key (by decide) okr1s1_5 (by norm_num) hm

/-! γ_π < 0.1144 at 623.15 K in region 1 (kernel-checked, see Lemmas/Interval.lean) -/


def F_l1u : Fun := eval% mkFun l1u
theorem F_l1u_eq : F_l1u = mkFun l1u := by decide +kernel
theorem F_l1u_small : (mkFun l1u).Small := by decide +kernel

private def trr1u1p_0 : Tree := eval% search F_l1u 40 ⟨3576104, 2525711, 1000000, 1002273, 90, 1000000, 1222000⟩
private theorem okr1u1p_0 : verifyF F_l1u (nat_lit 2525711) (nat_lit 90) trr1u1p_0 (nat_lit 3576104) (nat_lit 1000000) (nat_lit 1002273)
    (nat_lit 1000000) (nat_lit 1222000) = true := by decide +kernel

theorem pos_l1u_1p {B : Box} (hB : B ∈ boxes1p) {X Y : ℝ} (hm : B.Mem X Y) : 0 < evS l1u X Y (Y + 1.222) := by
  have key : ∀ {xc xr D yc yr E c : Nat} {t : Tree}, Box.Wf ⟨xc, xr, D, yc, yr, E, c⟩ →
      verifyF F_l1u xr yr t xc D yc E c = true → (c : ℝ) / E = 1.222 → Box.Mem ⟨xc, xr, D, yc, yr, E, c⟩ X Y →
      0 < evS l1u X Y (Y + 1.222) := fun h1 h2 h3 h4 => h3 ▸ sound F_l1u_eq F_l1u_small h1 h2 h4
  simp only [boxes1p, List.mem_cons, List.not_mem_nil, or_false] at hB
  rcases hB with rfl
  exact key (by decide) okr1u1p_0 (by norm_num) hm

/-! γ_π < 0.2299 in region 1 (kernel-checked, see Lemmas/Interval.lean) -/


def F_l1w : Fun := eval% mkFun l1w
theorem F_l1w_eq : F_l1w = mkFun l1w := by decide +kernel
theorem F_l1w_small : (mkFun l1w).Small := by decide +kernel

private def trr1w1_0 : Tree := eval% search F_l1w 40 ⟨4075197, 3024804, 1000000, 2575068, 1277068, 1000000, 1222000⟩
private theorem okr1w1_0 : verifyF F_l1w (nat_lit 3024804) (nat_lit 1277068) trr1w1_0 (nat_lit 4075197) (nat_lit 1000000) (nat_lit 2575068)
    (nat_lit 1000000) (nat_lit 1222000) = true := by decide +kernel

private def trr1w1_1 : Tree := eval% search F_l1w 40 ⟨3890949, 2840556, 1000000, 1232828, 65173, 1000000, 1222000⟩
private theorem okr1w1_1 : verifyF F_l1w (nat_lit 2840556) (nat_lit 65173) trr1w1_1 (nat_lit 3890949) (nat_lit 1000000) (nat_lit 1232828)
    (nat_lit 1000000) (nat_lit 1222000) = true := by decide +kernel

private def trr1w1_2 : Tree := eval% search F_l1w 40 ⟨3790595, 2740202, 1000000, 1127828, 39828, 1000000, 1222000⟩
private theorem okr1w1_2 : verifyF F_l1w (nat_lit 2740202) (nat_lit 39828) trr1w1_2 (nat_lit 3790595) (nat_lit 1000000) (nat_lit 1127828)
    (nat_lit 1000000) (nat_lit 1222000) = true := by decide +kernel

private def trr1w1_3 : Tree := eval% search F_l1w 40 ⟨3703333, 2652940, 1000000, 1069066, 18935, 1000000, 1222000⟩
private theorem okr1w1_3 : verifyF F_l1w (nat_lit 2652940) (nat_lit 18935) trr1w1_3 (nat_lit 3703333) (nat_lit 1000000) (nat_lit 1069066)
    (nat_lit 1000000) (nat_lit 1222000) = true := by decide +kernel

private def trr1w1_4 : Tree := eval% search F_l1w 40 ⟨3652457, 2602064, 1000000, 1035425, 14707, 1000000, 1222000⟩
private theorem okr1w1_4 : verifyF F_l1w (nat_lit 2602064) (nat_lit 14707) trr1w1_4 (nat_lit 3652457) (nat_lit 1000000) (nat_lit 1035425)
    (nat_lit 1000000) (nat_lit 1222000) = true := by decide +kernel

private def trr1w1_5 : Tree := eval% search F_l1w 40 ⟨3607946, 2557553, 1000000, 1011451, 9268, 1000000, 1222000⟩
private theorem okr1w1_5 : verifyF F_l1w (nat_lit 2557553) (nat_lit 9268) trr1w1_5 (nat_lit 3607946) (nat_lit 1000000) (nat_lit 1011451)
    (nat_lit 1000000) (nat_lit 1222000) = true := by decide +kernel

theorem pos_l1w_1 {B : Box} (hB : B ∈ boxes1) {X Y : ℝ} (hm : B.Mem X Y) : 0 < evS l1w X Y (Y + 1.222) := by
  have key : ∀ {xc xr D yc yr E c : Nat} {t : Tree}, Box.Wf ⟨xc, xr, D, yc, yr, E, c⟩ →
      verifyF F_l1w xr yr t xc D yc E c = true → (c : ℝ) / E = 1.222 → Box.Mem ⟨xc, xr, D, yc, yr, E, c⟩ X Y →
      0 < evS l1w X Y (Y + 1.222) := fun h1 h2 h3 h4 => h3 ▸ sound F_l1w_eq F_l1w_small h1 h2 h4
  simp only [boxes1, List.mem_cons, List.not_mem_nil, or_false] at hB
  rcases hB with rfl | rfl | rfl | rfl | rfl | rfl
  · exact key (by decide) okr1w1_0 (by norm_num) hm
  · exact key (by decide) okr1w1_1 (by norm_num) hm
  · exact key (by decide) okr1w1_2 (by norm_num) hm
  · exact key (by decide) okr1w1_3 (by norm_num) hm
  · exact key (by decide) okr1w1_4 (by norm_num) hm
  · exact key (by decide) okr1w1_5 (by norm_num) hm

/-! τ γ_τ − γ > 0 in region 1 from 278.15 K (kernel-checked, see Lemmas/Interval.lean) -/


def F_l1m : Fun := eval% mkFun l1m
theorem F_l1m_eq : F_l1m = mkFun l1m := by decide +kernel
theorem F_l1m_small : (mkFun l1m).Small := by decide +kernel

private def trr1m1e_0 : Tree := eval% search F_l1m 40 ⟨4075197, 3024804, 1000000, 2529462, 1231462, 1000000, 1222000⟩
private theorem okr1m1e_0 : verifyF F_l1m (nat_lit 3024804) (nat_lit 1231462) trr1m1e_0 (nat_lit 4075197) (nat_lit 1000000) (nat_lit 2529462)
    (nat_lit 1000000) (nat_lit 1222000) = true := by decide +kernel

private def trr1m1e_1 : Tree := eval% search F_l1m 40 ⟨3890949, 2840556, 1000000, 1232828, 65173, 1000000, 1222000⟩
private theorem okr1m1e_1 : verifyF F_l1m (nat_lit 2840556) (nat_lit 65173) trr1m1e_1 (nat_lit 3890949) (nat_lit 1000000) (nat_lit 1232828)
    (nat_lit 1000000) (nat_lit 1222000) = true := by decide +kernel

private def trr1m1e_2 : Tree := eval% search F_l1m 40 ⟨3790595, 2740202, 1000000, 1127828, 39828, 1000000, 1222000⟩
private theorem okr1m1e_2 : verifyF F_l1m (nat_lit 2740202) (nat_lit 39828) trr1m1e_2 (nat_lit 3790595) (nat_lit 1000000) (nat_lit 1127828)
    (nat_lit 1000000) (nat_lit 1222000) = true := by decide +kernel

private def trr1m1e_3 : Tree := eval% search F_l1m 40 ⟨3703333, 2652940, 1000000, 1069066, 18935, 1000000, 1222000⟩
private theorem okr1m1e_3 : verifyF F_l1m (nat_lit 2652940) (nat_lit 18935) trr1m1e_3 (nat_lit 3703333) (nat_lit 1000000) (nat_lit 1069066)
    (nat_lit 1000000) (nat_lit 1222000) = true := by decide +kernel

private def trr1m1e_4 : Tree := eval% search F_l1m 40 ⟨3652457, 2602064, 1000000, 1035425, 14707, 1000000, 1222000⟩
private theorem okr1m1e_4 : verifyF F_l1m (nat_lit 2602064) (nat_lit 14707) trr1m1e_4 (nat_lit 3652457) (nat_lit 1000000) (nat_lit 1035425)
    (nat_lit 1000000) (nat_lit 1222000) = true := by decide +kernel

private def trr1m1e_5 : Tree := eval% search F_l1m 40 ⟨3607946, 2557553, 1000000, 1011451, 9268, 1000000, 1222000⟩
private theorem okr1m1e_5 : verifyF F_l1m (nat_lit 2557553) (nat_lit 9268) trr1m1e_5 (nat_lit 3607946) (nat_lit 1000000) (nat_lit 1011451)
    (nat_lit 1000000) (nat_lit 1222000) = true := by decide +kernel

theorem pos_l1m_1e {B : Box} (hB : B ∈ boxes1e) {X Y : ℝ} (hm : B.Mem X Y) : 0 < evS l1m X Y (Y + 1.222) := by
  have key : ∀ {xc xr D yc yr E c : Nat} {t : Tree}, Box.Wf ⟨xc, xr, D, yc, yr, E, c⟩ →
      verifyF F_l1m xr yr t xc D yc E c = true → (c : ℝ) / E = 1.222 → Box.Mem ⟨xc, xr, D, yc, yr, E, c⟩ X Y →
      0 < evS l1m X Y (Y + 1.222) := fun h1 h2 h3 h4 => h3 ▸ sound F_l1m_eq F_l1m_small h1 h2 h4
  simp only [boxes1e, List.mem_cons, List.not_mem_nil, or_false] at hB
  rcases hB with rfl | rfl | rfl | rfl | rfl | rfl
  · exact key (by decide) okr1m1e_0 (by norm_num) hm
  · exact key (by decide) okr1m1e_1 (by norm_num) hm
  · exact key (by decide) okr1m1e_2 (by norm_num) hm
  · exact key (by decide) okr1m1e_3 (by norm_num) hm
  · exact key (by decide) okr1m1e_4 (by norm_num) hm
  · exact key (by decide) okr1m1e_5 (by norm_num) hm

/-! τ γ_τ − γ > −0.015 for saturated water near 0 °C (kernel-checked, see Lemmas/Interval.lean) -/


def F_l1n : Fun := eval% mkFun l1n
theorem F_l1n_eq : F_l1n = mkFun l1n := by decide +kernel
theorem F_l1n_small : (mkFun l1n).Small := by decide +kernel

private def trr1n1n_0 : Tree := eval% search F_l1n 40 ⟨7099952, 13, 1000000, 3806529, 45607, 1000000, 1222000⟩
private theorem okr1n1n_0 : verifyF F_l1n (nat_lit 13) (nat_lit 45607) trr1n1n_0 (nat_lit 7099952) (nat_lit 1000000) (nat_lit 3806529)
    (nat_lit 1000000) (nat_lit 1222000) = true := by decide +kernel

theorem pos_l1n_1n {B : Box} (hB : B ∈ boxes1n) {X Y : ℝ} (hm : B.Mem X Y) : 0 < evS l1n X Y (Y + 1.222) := by
  have key : ∀ {xc xr D yc yr E c : Nat} {t : Tree}, Box.Wf ⟨xc, xr, D, yc, yr, E, c⟩ →
      verifyF F_l1n xr yr t xc D yc E c = true → (c : ℝ) / E = 1.222 → Box.Mem ⟨xc, xr, D, yc, yr, E, c⟩ X Y →
      0 < evS l1n X Y (Y + 1.222) := fun h1 h2 h3 h4 => h3 ▸ sound F_l1n_eq F_l1n_small h1 h2 h4
  simp only [boxes1n, List.mem_cons, List.not_mem_nil, or_false] at hB
  rcases hB with rfl
  exact key (by decide) okr1n1n_0 (by norm_num) hm

/-! γ_πτ > 0 in region 1 up to 473.15 K (kernel-checked, see Lemmas/Interval.lean) -/


def F_l1z : Fun := eval% mkFun l1z
theorem F_l1z_eq : F_l1z = mkFun l1z := by decide +kernel
theorem F_l1z_small : (mkFun l1z).Small := by decide +kernel

private def trr1z1c_0 : Tree := eval% search F_l1z 40 ⟨4075197, 3024804, 1000000, 2779720, 1072417, 1000000, 1222000⟩
private theorem okr1z1c_0 : verifyF F_l1z (nat_lit 3024804) (nat_lit 1072417) trr1z1c_0 (nat_lit 4075197) (nat_lit 1000000) (nat_lit 2779720)
    (nat_lit 1000000) (nat_lit 1222000) = true := by decide +kernel

theorem pos_l1z_1c {B : Box} (hB : B ∈ boxes1c) {X Y : ℝ} (hm : B.Mem X Y) : 0 < evS l1z X Y (Y + 1.222) := by
  have key : ∀ {xc xr D yc yr E c : Nat} {t : Tree}, Box.Wf ⟨xc, xr, D, yc, yr, E, c⟩ →
      verifyF F_l1z xr yr t xc D yc E c = true → (c : ℝ) / E = 1.222 → Box.Mem ⟨xc, xr, D, yc, yr, E, c⟩ X Y →
      0 < evS l1z X Y (Y + 1.222) := fun h1 h2 h3 h4 => h3 ▸ sound F_l1z_eq F_l1z_small h1 h2 h4
  simp only [boxes1c, List.mem_cons, List.not_mem_nil, or_false] at hB
  rcases hB with rfl
  exact key (by decide) okr1z1c_0 (by norm_num) hm

end If97.Iv
