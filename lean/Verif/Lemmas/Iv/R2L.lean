import Verif.Lemmas.IvTables

/-! Region 2 below the triple point pressure: γ_π > 0, γ_ππ < 0, γ_ττ < 0, π (γ_π - τ γ_πτ) > 0
(kernel-checked, see Lemmas/Interval.lean) -/

namespace If97.Iv
set_option maxRecDepth 100000

/-- p ≤ 0.000612 MPa, from 273.1499999 K to 1073.15 K -/
def box2l : Box := ⟨306, 306, 1000000, 740050, 736890, 1000000, 500000⟩

private def Fl_v : Fun := eval% mkFun l2v
private theorem Fl_v_eq : Fl_v = mkFun l2v := by decide +kernel
private theorem Fl_v_small : (mkFun l2v).Small := by decide +kernel
private def trl_v : Tree := eval% search Fl_v 40 ⟨306, 306, 1000000, 740050, 736890, 1000000, 500000⟩
private theorem okl_v : verifyF Fl_v (nat_lit 306) (nat_lit 736890) trl_v (nat_lit 306) (nat_lit 1000000) (nat_lit 740050)
    (nat_lit 1000000) (nat_lit 500000) = true := by decide +kernel
theorem low_l2v {X Y : ℝ} (hm : box2l.Mem X Y) : 0 < evS l2v X Y (Y + 0.5) := by
  have h := sound Fl_v_eq Fl_v_small (by decide) okl_v hm
  rwa [show ((500000 : ℕ) : ℝ) / (1000000 : ℕ) = 0.5 by norm_num] at h

private def Fl_k : Fun := eval% mkFun l2k
private theorem Fl_k_eq : Fl_k = mkFun l2k := by decide +kernel
private theorem Fl_k_small : (mkFun l2k).Small := by decide +kernel
private def trl_k : Tree := eval% search Fl_k 40 ⟨306, 306, 1000000, 740050, 736890, 1000000, 500000⟩
private theorem okl_k : verifyF Fl_k (nat_lit 306) (nat_lit 736890) trl_k (nat_lit 306) (nat_lit 1000000) (nat_lit 740050)
    (nat_lit 1000000) (nat_lit 500000) = true := by decide +kernel
theorem low_l2k {X Y : ℝ} (hm : box2l.Mem X Y) : 0 < evS l2k X Y (Y + 0.5) := by
  have h := sound Fl_k_eq Fl_k_small (by decide) okl_k hm
  rwa [show ((500000 : ℕ) : ℝ) / (1000000 : ℕ) = 0.5 by norm_num] at h

private def Fl_c : Fun := eval% mkFun l2c
private theorem Fl_c_eq : Fl_c = mkFun l2c := by decide +kernel
private theorem Fl_c_small : (mkFun l2c).Small := by decide +kernel
private def trl_c : Tree := eval% search Fl_c 40 ⟨306, 306, 1000000, 740050, 736890, 1000000, 500000⟩
private theorem okl_c : verifyF Fl_c (nat_lit 306) (nat_lit 736890) trl_c (nat_lit 306) (nat_lit 1000000) (nat_lit 740050)
    (nat_lit 1000000) (nat_lit 500000) = true := by decide +kernel
theorem low_l2c {X Y : ℝ} (hm : box2l.Mem X Y) : 0 < evS l2c X Y (Y + 0.5) := by
  have h := sound Fl_c_eq Fl_c_small (by decide) okl_c hm
  rwa [show ((500000 : ℕ) : ℝ) / (1000000 : ℕ) = 0.5 by norm_num] at h

private def Fl_x : Fun := eval% mkFun l2x
private theorem Fl_x_eq : Fl_x = mkFun l2x := by decide +kernel
private theorem Fl_x_small : (mkFun l2x).Small := by decide +kernel
private def trl_x : Tree := eval% search Fl_x 40 ⟨306, 306, 1000000, 740050, 736890, 1000000, 500000⟩
private theorem okl_x : verifyF Fl_x (nat_lit 306) (nat_lit 736890) trl_x (nat_lit 306) (nat_lit 1000000) (nat_lit 740050)
    (nat_lit 1000000) (nat_lit 500000) = true := by decide +kernel
theorem low_l2x {X Y : ℝ} (hm : box2l.Mem X Y) : 0 < evS l2x X Y (Y + 0.5) := by
  have h := sound Fl_x_eq Fl_x_small (by decide) okl_x hm
  rwa [show ((500000 : ℕ) : ℝ) / (1000000 : ℕ) = 0.5 by norm_num] at h

end If97.Iv
