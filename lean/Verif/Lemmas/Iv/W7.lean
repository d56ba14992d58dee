import Verif.Lemmas.IvCover
import Verif.Model.Bound

/-! Values at particular states for C35 (kernel-checked, see Lemmas/Interval.lean). -/

namespace If97.Iv
set_option maxRecDepth 100000

/-- p(−x, y) as a polynomial in x -/
def flipX (l : List SM) : List SM := l.map fun m => ⟨m.c * (-1) ^ m.I, m.d, m.I, m.J, m.K⟩
theorem evS_flipX (l : List SM) (x y z : ℝ) : evS (flipX l) x y z = evS l (-x) y z := by
  induction l with
  | nil => simp [flipX]
  | cons m l ih =>
    have : flipX (m :: l) = ⟨m.c * (-1) ^ m.I, m.d, m.I, m.J, m.K⟩ :: flipX l := rfl
    rw [this, evS_cons, ih, evS_cons]; simp only [SM.ev]; push_cast; rw [neg_pow x]; ring

/-- the coefficients of the saturated-liquid enthalpy of region 3a as a function of s -/
def h3a : List SM := [
  ⟨822673364673336, 1000000000000000, 0, 1, 0⟩,
  ⟨181977213534479, 1000000000000000, 0, 4, 0⟩,
  ⟨-112000260313624, 10000000000000000, 0, 10, 0⟩,
  ⟨-746778287048033, 1000000000000000000, 0, 16, 0⟩,
  ⟨-179046263257381, 1000000000000000, 2, 1, 0⟩,
  ⟨424220110836657, 10000000000000000, 3, 36, 0⟩,
  ⟨-341355823438768, 1000000000000000, 4, 3, 0⟩,
  ⟨-209881740853565, 100000000000000, 4, 16, 0⟩,
  ⟨-822477343323596, 100000000000000, 5, 20, 0⟩,
  ⟨-499684082076008, 100000000000000, 5, 36, 0⟩,
  ⟨191413958471069, 1000000000000000, 6, 4, 0⟩,
  ⟨581062241093136, 10000000000000000, 7, 2, 0⟩,
  ⟨-165505498701029, 100000000000, 7, 28, 0⟩,
  ⟨158870443421201, 100000000000, 7, 32, 0⟩,
  ⟨-850623535172818, 10000000000000, 10, 14, 0⟩,
  ⟨-317714386511207, 10000000000, 10, 32, 0⟩,
  ⟨-945890406632871, 10000000000, 10, 36, 0⟩,
  ⟨-139273847088690, 100000000000000000000, 32, 0, 0⟩,
  ⟨631052532240980, 1000000000000000, 32, 6, 0⟩]
theorem h3a_eq : (hs_region_h3a_s_IJn : List (Int × Int × ℝ)) = toTab h3a := by
  norm_num [hs_region_h3a_s_IJn, toTab, h3a]
theorem noZ_h3a : NoZ h3a := by decide +kernel

/-- the coefficients of the saturation pressure of region 3 as a function of h -/
def h2p : List SM := [
  ⟨600073641753024, 1000000000000000, 0, 0, 0⟩,
  ⟨-936203654849857, 100000000000000, 1, 1, 0⟩,
  ⟨246590798594147, 10000000000000, 1, 3, 0⟩,
  ⟨-107014222858224, 1000000000000, 1, 4, 0⟩,
  ⟨-915821315805768, 10, 1, 36, 0⟩,
  ⟨-862332011700662, 100000000000, 5, 3, 0⟩,
  ⟨-235837344740032, 10000000000000, 7, 0, 0⟩,
  ⟨252304969384128000, 1, 8, 24, 0⟩,
  ⟨-3897187719977190000, 1, 14, 16, 0⟩,
  ⟨-33377571364529600000000, 1, 20, 16, 0⟩,
  ⟨356499469636328, 10000, 22, 3, 0⟩,
  ⟨-148547544720641000000000000, 1, 24, 18, 0⟩,
  ⟨3306115148387980000, 1, 28, 8, 0⟩,
  ⟨81364129446782900000000000000000000000, 1, 36, 24, 0⟩]
theorem h2p_eq : (h2p_sat_reg3_IJn : List (Int × Int × ℝ)) = toTab h2p := by
  norm_num [h2p_sat_reg3_IJn, toTab, h2p]
theorem noZ_h2p : NoZ h2p := by decide +kernel

/-- 8.2 − s/R in region 1 -/
def hw1 : List SM := cst 82 10 :: (t1 ++ ng (mZ (dY t1)))
def F_hw1 : Fun := eval% mkFun hw1
theorem F_hw1_eq : F_hw1 = mkFun hw1 := by decide +kernel
theorem F_hw1_small : (mkFun hw1).Small := by decide +kernel
private def trhw1_0 : Tree := eval% search F_hw1 40 ⟨1050393, 2, 1000000, 1002184, 2, 1000000, 1222000⟩
private theorem okhw1_0 : verifyF F_hw1 (nat_lit 2) (nat_lit 2) trhw1_0 (nat_lit 1050393) (nat_lit 1000000) (nat_lit 1002184)
    (nat_lit 1000000) (nat_lit 1222000) = true := by decide +kernel
theorem pos_hw1_0 {X Y : ℝ} (hm : Box.Mem ⟨1050393, 2, 1000000, 1002184, 2, 1000000, 1222000⟩ X Y) : 0 < evS hw1 X Y (Y + 1.222) := by
  have := sound F_hw1_eq F_hw1_small (by decide) okhw1_0 hm
  norm_num at this ⊢; exact this
private def trhw1_1 : Tree := eval% search F_hw1 40 ⟨6100051, 2, 1000000, 1002184, 2, 1000000, 1222000⟩
private theorem okhw1_1 : verifyF F_hw1 (nat_lit 2) (nat_lit 2) trhw1_1 (nat_lit 6100051) (nat_lit 1000000) (nat_lit 1002184)
    (nat_lit 1000000) (nat_lit 1222000) = true := by decide +kernel
theorem pos_hw1_1 {X Y : ℝ} (hm : Box.Mem ⟨6100051, 2, 1000000, 1002184, 2, 1000000, 1222000⟩ X Y) : 0 < evS hw1 X Y (Y + 1.222) := by
  have := sound F_hw1_eq F_hw1_small (by decide) okhw1_1 hm
  norm_num at this ⊢; exact this

/-- 2.62 − γ_τ in region 1 -/
def hw2 : List SM := cst 262 100 :: ng (dY t1)
def F_hw2 : Fun := eval% mkFun hw2
theorem F_hw2_eq : F_hw2 = mkFun hw2 := by decide +kernel
theorem F_hw2_small : (mkFun hw2).Small := by decide +kernel
private def trhw2_0 : Tree := eval% search F_hw2 40 ⟨6100051, 2, 1000000, 1002184, 2, 1000000, 1222000⟩
private theorem okhw2_0 : verifyF F_hw2 (nat_lit 2) (nat_lit 2) trhw2_0 (nat_lit 6100051) (nat_lit 1000000) (nat_lit 1002184)
    (nat_lit 1000000) (nat_lit 1222000) = true := by decide +kernel
theorem pos_hw2_0 {X Y : ℝ} (hm : Box.Mem ⟨6100051, 2, 1000000, 1002184, 2, 1000000, 1222000⟩ X Y) : 0 < evS hw2 X Y (Y + 1.222) := by
  have := sound F_hw2_eq F_hw2_small (by decide) okhw2_0 hm
  norm_num at this ⊢; exact this

/-- 0.01 − γ_τ in region 1 -/
def hw3 : List SM := cst 1 100 :: ng (dY t1)
def F_hw3 : Fun := eval% mkFun hw3
theorem F_hw3_eq : F_hw3 = mkFun hw3 := by decide +kernel
theorem F_hw3_small : (mkFun hw3).Small := by decide +kernel
private def trhw3_0 : Tree := eval% search F_hw3 40 ⟨7099963, 2, 1000000, 3852135, 2, 1000000, 1222000⟩
private theorem okhw3_0 : verifyF F_hw3 (nat_lit 2) (nat_lit 2) trhw3_0 (nat_lit 7099963) (nat_lit 1000000) (nat_lit 3852135)
    (nat_lit 1000000) (nat_lit 1222000) = true := by decide +kernel
theorem pos_hw3_0 {X Y : ℝ} (hm : Box.Mem ⟨7099963, 2, 1000000, 3852135, 2, 1000000, 1222000⟩ X Y) : 0 < evS hw3 X Y (Y + 1.222) := by
  have := sound F_hw3_eq F_hw3_small (by decide) okhw3_0 hm
  norm_num at this ⊢; exact this

/-- 0.01 − s/R in region 1 -/
def hw4 : List SM := cst 1 100 :: (t1 ++ ng (mZ (dY t1)))
def F_hw4 : Fun := eval% mkFun hw4
theorem F_hw4_eq : F_hw4 = mkFun hw4 := by decide +kernel
theorem F_hw4_small : (mkFun hw4).Small := by decide +kernel
private def trhw4_0 : Tree := eval% search F_hw4 40 ⟨7099963, 2, 1000000, 3852135, 2, 1000000, 1222000⟩
private theorem okhw4_0 : verifyF F_hw4 (nat_lit 2) (nat_lit 2) trhw4_0 (nat_lit 7099963) (nat_lit 1000000) (nat_lit 3852135)
    (nat_lit 1000000) (nat_lit 1222000) = true := by decide +kernel
theorem pos_hw4_0 {X Y : ℝ} (hm : Box.Mem ⟨7099963, 2, 1000000, 3852135, 2, 1000000, 1222000⟩ X Y) : 0 < evS hw4 X Y (Y + 1.222) := by
  have := sound F_hw4_eq F_hw4_small (by decide) okhw4_0 hm
  norm_num at this ⊢; exact this

/-- 10.07 − γ_τ in region 2 -/
def hw5 : List SM := cst 1007 100 :: ng (dY (o2 ++ t2))
def F_hw5 : Fun := eval% mkFun hw5
theorem F_hw5_eq : F_hw5 = mkFun hw5 := by decide +kernel
theorem F_hw5_small : (mkFun hw5).Small := by decide +kernel
private def trhw5_0 : Tree := eval% search F_hw5 40 ⟨611, 2, 1000000, 1476936, 2, 1000000, 500000⟩
private theorem okhw5_0 : verifyF F_hw5 (nat_lit 2) (nat_lit 2) trhw5_0 (nat_lit 611) (nat_lit 1000000) (nat_lit 1476936)
    (nat_lit 1000000) (nat_lit 500000) = true := by decide +kernel
theorem pos_hw5_0 {X Y : ℝ} (hm : Box.Mem ⟨611, 2, 1000000, 1476936, 2, 1000000, 500000⟩ X Y) : 0 < evS hw5 X Y (Y + 0.5) := by
  have := sound F_hw5_eq F_hw5_small (by decide) okhw5_0 hm
  norm_num at this ⊢; exact this

/-- γ_τ − 4 in region 5 -/
def hw6 : List SM := cst (-4) 1 :: dY (o5 ++ t5)
def F_hw6 : Fun := eval% mkFun hw6
theorem F_hw6_eq : F_hw6 = mkFun hw6 := by decide +kernel
theorem F_hw6_small : (mkFun hw6).Small := by decide +kernel
private def trhw6_0 : Tree := eval% search F_hw6 40 ⟨50000000, 2, 1000000, 931836, 2, 1000000, 0⟩
private theorem okhw6_0 : verifyF F_hw6 (nat_lit 2) (nat_lit 2) trhw6_0 (nat_lit 50000000) (nat_lit 1000000) (nat_lit 931836)
    (nat_lit 1000000) (nat_lit 0) = true := by decide +kernel
theorem pos_hw6_0 {X Y : ℝ} (hm : Box.Mem ⟨50000000, 2, 1000000, 931836, 2, 1000000, 0⟩ X Y) : 0 < evS hw6 X Y (Y + 0) := by
  have := sound F_hw6_eq F_hw6_small (by decide) okhw6_0 hm
  norm_num at this ⊢; exact this

/-- s/R + ln p − 12 in region 2 -/
def hw8 : List SM := cst (-12) 1 :: (ng (o2 ++ t2) ++ mZ (dY (o2 ++ t2)))
def F_hw8 : Fun := eval% mkFun hw8
theorem F_hw8_eq : F_hw8 = mkFun hw8 := by decide +kernel
theorem F_hw8_small : (mkFun hw8).Small := by decide +kernel
private def trhw8_0 : Tree := eval% search F_hw8 40 ⟨611, 2, 1000000, 1476936, 2, 1000000, 500000⟩
private theorem okhw8_0 : verifyF F_hw8 (nat_lit 2) (nat_lit 2) trhw8_0 (nat_lit 611) (nat_lit 1000000) (nat_lit 1476936)
    (nat_lit 1000000) (nat_lit 500000) = true := by decide +kernel
theorem pos_hw8_0 {X Y : ℝ} (hm : Box.Mem ⟨611, 2, 1000000, 1476936, 2, 1000000, 500000⟩ X Y) : 0 < evS hw8 X Y (Y + 0.5) := by
  have := sound F_hw8_eq F_hw8_small (by decide) okhw8_0 hm
  norm_num at this ⊢; exact this

/-- s/R + 0.01 in region 1 -/
def hw9 : List SM := cst 1 100 :: (ng t1 ++ mZ (dY t1))
def F_hw9 : Fun := eval% mkFun hw9
theorem F_hw9_eq : F_hw9 = mkFun hw9 := by decide +kernel
theorem F_hw9_small : (mkFun hw9).Small := by decide +kernel
private def trhw9_0 : Tree := eval% search F_hw9 40 ⟨7099963, 2, 1000000, 3852135, 2, 1000000, 1222000⟩
private theorem okhw9_0 : verifyF F_hw9 (nat_lit 2) (nat_lit 2) trhw9_0 (nat_lit 7099963) (nat_lit 1000000) (nat_lit 3852135)
    (nat_lit 1000000) (nat_lit 1222000) = true := by decide +kernel
theorem pos_hw9_0 {X Y : ℝ} (hm : Box.Mem ⟨7099963, 2, 1000000, 3852135, 2, 1000000, 1222000⟩ X Y) : 0 < evS hw9 X Y (Y + 1.222) := by
  have := sound F_hw9_eq F_hw9_small (by decide) okhw9_0 hm
  norm_num at this ⊢; exact this

/-- γ_τ − 8 in region 2 -/
def hw10 : List SM := cst (-8) 1 :: dY (o2 ++ t2)
def F_hw10 : Fun := eval% mkFun hw10
theorem F_hw10_eq : F_hw10 = mkFun hw10 := by decide +kernel
theorem F_hw10_small : (mkFun hw10).Small := by decide +kernel
private def trhw10_0 : Tree := eval% search F_hw10 40 ⟨16529164, 2, 1000000, 366565, 2, 1000000, 500000⟩
private theorem okhw10_0 : verifyF F_hw10 (nat_lit 2) (nat_lit 2) trhw10_0 (nat_lit 16529164) (nat_lit 1000000) (nat_lit 366565)
    (nat_lit 1000000) (nat_lit 500000) = true := by decide +kernel
theorem pos_hw10_0 {X Y : ℝ} (hm : Box.Mem ⟨16529164, 2, 1000000, 366565, 2, 1000000, 500000⟩ X Y) : 0 < evS hw10 X Y (Y + 0.5) := by
  have := sound F_hw10_eq F_hw10_small (by decide) okhw10_0 hm
  norm_num at this ⊢; exact this

/-- p/22 − 0.7594 on the boundary of region 3 -/
def hw11 : List SM := cst (-7594) 10000 :: flipX h2p
def F_hw11 : Fun := eval% mkFun hw11
theorem F_hw11_eq : F_hw11 = mkFun hw11 := by decide +kernel
theorem F_hw11_small : (mkFun hw11).Small := by decide +kernel
private def trhw11_0 : Tree := eval% search F_hw11 40 ⟨373846, 2, 1000000, 38154, 2, 1000000, 0⟩
private theorem okhw11_0 : verifyF F_hw11 (nat_lit 2) (nat_lit 2) trhw11_0 (nat_lit 373846) (nat_lit 1000000) (nat_lit 38154)
    (nat_lit 1000000) (nat_lit 0) = true := by decide +kernel
theorem pos_hw11_0 {X Y : ℝ} (hm : Box.Mem ⟨373846, 2, 1000000, 38154, 2, 1000000, 0⟩ X Y) : 0 < evS hw11 X Y (Y + 0) := by
  have := sound F_hw11_eq F_hw11_small (by decide) okhw11_0 hm
  norm_num at this ⊢; exact this

/-- 0.7635 − p/22 on the boundary of region 3 -/
def hw12 : List SM := cst 7635 10000 :: ng (flipX h2p)
def F_hw12 : Fun := eval% mkFun hw12
theorem F_hw12_eq : F_hw12 = mkFun hw12 := by decide +kernel
theorem F_hw12_small : (mkFun hw12).Small := by decide +kernel
private def trhw12_0 : Tree := eval% search F_hw12 40 ⟨373846, 2, 1000000, 38154, 2, 1000000, 0⟩
private theorem okhw12_0 : verifyF F_hw12 (nat_lit 2) (nat_lit 2) trhw12_0 (nat_lit 373846) (nat_lit 1000000) (nat_lit 38154)
    (nat_lit 1000000) (nat_lit 0) = true := by decide +kernel
theorem pos_hw12_0 {X Y : ℝ} (hm : Box.Mem ⟨373846, 2, 1000000, 38154, 2, 1000000, 0⟩ X Y) : 0 < evS hw12 X Y (Y + 0) := by
  have := sound F_hw12_eq F_hw12_small (by decide) okhw12_0 hm
  norm_num at this ⊢; exact this

/-- h_3a/1700 − 0.9883 -/
def hw7 : List SM := cst (-9883) 10000 :: flipX h3a
def F_hw7 : Fun := eval% mkFun hw7
theorem F_hw7_eq : F_hw7 = mkFun hw7 := by decide +kernel
theorem F_hw7_small : (mkFun hw7).Small := by decide +kernel
private def trhw7_0 : Tree := eval% search F_hw7 40 ⟨91856, 2, 1000000, 998181, 2, 1000000, 0⟩
private theorem okhw7_0 : verifyF F_hw7 (nat_lit 2) (nat_lit 2) trhw7_0 (nat_lit 91856) (nat_lit 1000000) (nat_lit 998181)
    (nat_lit 1000000) (nat_lit 0) = true := by decide +kernel
theorem pos_hw7_0 {X Y : ℝ} (hm : Box.Mem ⟨91856, 2, 1000000, 998181, 2, 1000000, 0⟩ X Y) : 0 < evS hw7 X Y (Y + 0) := by
  have := sound F_hw7_eq F_hw7_small (by decide) okhw7_0 hm
  norm_num at this ⊢; exact this

end If97.Iv
