import Verif.Lemmas.Tm.Tree4
import Verif.Lemmas.Tm.Comp.Region2

/-! The region 2 tables of the code in the form the Taylor models use. -/

namespace If97.Tm
set_option maxRecDepth 100000

theorem P19_ok : P19.Ok where
  b2 := by decide
  n2 := by decide
  w := by decide
  B1 := by decide +kernel
  H := by decide +kernel
  mask := by decide +kernel
  vl := by decide +kernel
  vlH := by decide +kernel
  one := by decide +kernel
  tU := by decide +kernel
  tV := by decide +kernel
  oneH := by decide +kernel

theorem P64_ok : P64.Ok where
  b2 := by decide
  n2 := by decide
  w := by decide
  B1 := by decide +kernel
  H := by decide +kernel
  mask := by decide +kernel
  vl := by decide +kernel
  vlH := by decide +kernel
  one := by decide +kernel
  tU := by decide +kernel
  tV := by decide +kernel
  oneH := by decide +kernel

theorem P80_ok : P80.Ok where
  b2 := by decide
  n2 := by decide
  w := by decide
  B1 := by decide +kernel
  H := by decide +kernel
  mask := by decide +kernel
  vl := by decide +kernel
  vlH := by decide +kernel
  one := by decide +kernel
  tU := by decide +kernel
  tV := by decide +kernel
  oneH := by decide +kernel

/-- the table of a derivative in the second variable; terms without that variable may keep any power -/
def SameK (a : Int × Int × Co) (e : Int × Int × ℝ) : Prop :=
  a.1 = e.1 ∧ (a.2.1 = e.2.1 - 1 ∨ e.2.1 = 0) ∧ a.2.2.val = e.2.2 * e.2.1

theorem sumT_eqK {l : List (Int × Int × Co)} {T : List (Int × Int × ℝ)} (h : List.Forall₂ SameK l T) (x y : ℝ) :
    sumT x y l = (T.map fun e => e.2.2 * x ^ e.1 * (e.2.1 : ℝ) * y ^ (e.2.1 - 1)).sum := by
  induction h with
  | nil => simp [sumT]
  | cons h1 _ ih =>
    simp only [sumT, List.map_cons, List.sum_cons] at ih ⊢
    rw [ih, h1.1, h1.2.2]
    congr 1
    rcases h1.2.1 with e | e
    · rw [e]; ring
    · rw [e]; simp

/-! ### the Gibbs function: addition chains for π, τ - 0.5 and τ -/

def ex2 : List Int := [24, 23, 22, 21, 20, 18, 16, 10, 9, 8, 7, 6, 5, 4, 3, 2, 1, 0]
def ey2 : List Int := [58, 57, 56, 53, 52, 50, 49, 48, 47, 40, 39, 38, 36, 35, 34, 29, 28, 26, 25, 24, 21, 20, 19, 16, 15, 14, 13, 12, 11, 10, 9, 8, 7, 6, 5, 4, 3, 2, 1, 0]
def et2 : List Int := [-6, -5, -4, -3, -2, 3, 2, -1, 1, 0]
theorem ex2_eq : powE chx2 [1, 0] = ex2 := by decide +kernel
theorem ey2_eq : powE chy2 [1, 0] = ey2 := by decide +kernel
theorem et2_eq : powE cht2 [-1, 1, 0] = et2 := by decide +kernel

def flg2 : List (Int × Int × Co) := [(1, 0, ⟨false, 0, 1⟩), (1, 0, ⟨true, 8917431146179, 500000000000000⟩), (1, 1, ⟨true, 9199202739273, 100000000000000⟩), (1, 2, ⟨true, 21592972156287, 125000000000000⟩), (1, 5, ⟨true, 15097583618379, 50000000000000⟩), (2, 0, ⟨true, 33032641670203, 1000000000000000000⟩), (2, 1, ⟨true, 3789797503263, 10000000000000000⟩), (2, 3, ⟨true, 7878555448671, 500000000000000⟩), (2, 6, ⟨true, 306581069554011, 1000000000000000⟩), (2, 35, ⟨true, 240070931226783, 250000000000000000⟩), (3, 0, ⟨false, 0, 1⟩), (3, 0, ⟨false, 8774133456887, 20000000000000000000⟩), (3, 2, ⟨true, 9683303171571, 100000000000000000⟩), (3, 5, ⟨true, 11275443406611, 1250000000000000⟩), (3, 34, ⟨true, 284677774938543, 200000000000000⟩), (4, 0, ⟨true, 78847309559367, 100000000000000000000000⟩), (4, 1, ⟨false, 2558143570457, 100000000000000000000⟩), (4, 2, ⟨false, 144676118155521, 100000000000000000000⟩), (5, 6, ⟨false, 160454534363627, 10000000000000000000⟩), (6, 2, ⟨true, 50144299353183, 1000000000000000000000000⟩), (6, 15, ⟨true, 4234294464271, 125000000000000⟩), (6, 34, ⟨true, 20908774192341, 25000000000⟩), (7, 0, ⟨false, 0, 1⟩), (7, 10, ⟨true, 138839897890111, 10000000000000000000⟩), (7, 24, ⟨true, 38946842435739, 40000000000000⟩), (8, 7, ⟨false, 11256211360459, 125000000000000000000000⟩), (8, 35, ⟨true, 370401034040991, 1250000000000⟩), (9, 12, ⟨false, 32190783303393, 125000000000000000000⟩), (10, 3, ⟨false, 5203482605087, 12500000000000000000000000000000⟩), (10, 9, ⟨true, 10234747095929, 10000000000000000000000000⟩), (10, 13, ⟨true, 70127255656577, 5000000000000000000000⟩), (16, 28, ⟨true, 469120870152513, 200000000000000000000000⟩), (16, 49, ⟨false, 10693031879409, 2000000000000⟩), (18, 56, ⟨true, 1918748282727747, 100000000000000⟩), (20, 19, ⟨false, 89185845355421, 5000000000000000000000000000000000000⟩), (20, 34, ⟨false, 26800652266703, 2500000000000000000000000⟩), (20, 47, ⟨true, 3937731346707, 19531250000000000⟩), (21, 20, ⟨true, 1240176623398419, 1000000000000000000000000000000000000000⟩), (22, 52, ⟨false, 2004828223513221, 10000000000000000000⟩), (23, 38, ⟨true, 497975748452559, 10000000000000000000000000000⟩), (24, 25, ⟨false, 950138937735793, 500000000000000000000000000000000000000000⟩), (24, 39, ⟨false, 27707357675389, 12500000000000000000000000000⟩), (24, 57, ⟨true, 273672150999509, 5000000000000000000⟩)]
theorem flg2_eq : flat ex2 ey2 tg2 = flg2 := by decide +kernel
theorem tg2_ok : tbOk tg2 ex2.length ey2.length = true := by decide +kernel
theorem g2_same : List.Forall₂ SameK flg2 (r2_IJn : List (Int × Int × ℝ)) := by
  unfold flg2 r2_IJn
  repeat' first | exact .nil | refine .cons ⟨by norm_num, by norm_num, by norm_num [Co.val]⟩ ?_
def fl02 : List (Int × Int × Co) := [(1, 0, ⟨true, 17731742473213, 10000000000000000⟩), (1, 1, ⟨true, 8917431146179, 500000000000000⟩), (1, 2, ⟨true, 9199202739273, 200000000000000⟩), (1, 3, ⟨true, 7197657385429, 125000000000000⟩), (1, 6, ⟨true, 5032527872793, 100000000000000⟩), (2, 1, ⟨true, 33032641670203, 1000000000000000000⟩), (2, 2, ⟨true, 3789797503263, 20000000000000000⟩), (2, 4, ⟨true, 7878555448671, 2000000000000000⟩), (2, 7, ⟨true, 43797295650573, 1000000000000000⟩), (2, 36, ⟨true, 26674547914087, 1000000000000000000⟩), (3, 0, ⟨false, 20481737692309, 1000000000000000000000⟩), (3, 1, ⟨false, 8774133456887, 20000000000000000000⟩), (3, 3, ⟨true, 3227767723857, 100000000000000000⟩), (3, 6, ⟨true, 3758481135537, 2500000000000000⟩), (3, 35, ⟨true, 40668253562649, 1000000000000000⟩), (4, 1, ⟨true, 78847309559367, 100000000000000000000000⟩), (4, 2, ⟨false, 2558143570457, 200000000000000000000⟩), (4, 3, ⟨false, 48225372718507, 100000000000000000000⟩), (5, 7, ⟨false, 22922076337661, 10000000000000000000⟩), (6, 3, ⟨true, 16714766451061, 1000000000000000000000000⟩), (6, 16, ⟨true, 4234294464271, 2000000000000000⟩), (6, 35, ⟨true, 2986967741763, 125000000000⟩), (7, 0, ⟨true, 5905956432427, 1000000000000000000000000000000⟩), (7, 11, ⟨true, 12621808899101, 10000000000000000000⟩), (7, 25, ⟨true, 38946842435739, 1000000000000000⟩), (8, 8, ⟨false, 11256211360459, 1000000000000000000000000⟩), (8, 36, ⟨true, 41155670448999, 5000000000000⟩), (9, 13, ⟨false, 2476214100261, 125000000000000000000⟩), (10, 4, ⟨false, 5203482605087, 50000000000000000000000000000000⟩), (10, 10, ⟨true, 10234747095929, 100000000000000000000000000⟩), (10, 14, ⟨true, 10018179379511, 10000000000000000000000⟩), (16, 29, ⟨true, 16176581729397, 200000000000000000000000⟩), (16, 50, ⟨false, 10693031879409, 100000000000000⟩), (18, 57, ⟨true, 33662250574171, 100000000000000⟩), (20, 20, ⟨false, 89185845355421, 100000000000000000000000000000000000000⟩), (20, 35, ⟨false, 3828664609529, 12500000000000000000000000⟩), (20, 48, ⟨true, 1312577115569, 312500000000000000⟩), (21, 21, ⟨true, 59056029685639, 1000000000000000000000000000000000000000⟩), (22, 53, ⟨false, 37826947613457, 10000000000000000000⟩), (23, 39, ⟨true, 12768608934681, 10000000000000000000000000000⟩), (24, 26, ⟨false, 73087610595061, 1000000000000000000000000000000000000000000⟩), (24, 40, ⟨false, 27707357675389, 500000000000000000000000000000⟩), (24, 58, ⟨true, 9436970724121, 10000000000000000000⟩)]
theorem fl02_eq : flat ex2 ey2 t02 = fl02 := by decide +kernel
theorem t02_ok : tbOk t02 ex2.length ey2.length = true := by decide +kernel
theorem z2_same : List.Forall₂ SameT fl02 (r2_IJn : List (Int × Int × ℝ)) := by
  unfold fl02 r2_IJn
  repeat' first | exact .nil | refine .cons ⟨by norm_num, by norm_num, by norm_num [Co.val]⟩ ?_

/-! ### T(p, h) in 2a -/

def exPh2a : List Int := [7, 6, 5, 4, 3, 2, 1, 0]
def eyPh2a : List Int := [44, 42, 40, 38, 36, 34, 32, 28, 24, 20, 18, 12, 11, 9, 7, 4, 3, 2, 1, 0]
theorem exPh2a_eq : powE chxPh2a [1, 0] = exPh2a := by decide +kernel
theorem eyPh2a_eq : powE chyPh2a [1, 0] = eyPh2a := by decide +kernel
def flPh2a : List (Int × Int × Co) := [(0, 0, ⟨false, 681184519893, 625000000⟩), (0, 1, ⟨false, 16990330899107, 20000000000⟩), (0, 2, ⟨true, 5390874045913, 50000000000⟩), (0, 3, ⟨false, 33153654801263, 1000000000000⟩), (0, 7, ⟨true, 9279002098781, 1250000000000⟩), (0, 20, ⟨false, 2941262181089, 250000000000⟩), (1, 0, ⟨false, 1844574935579, 1000000000000⟩), (1, 1, ⟨true, 5224087568703, 1250000000000⟩), (1, 2, ⟨false, 15619549233953, 2500000000000⟩), (1, 3, ⟨true, 8672281554057, 500000000000⟩), (1, 7, ⟨true, 1253636053881, 6250000000⟩), (1, 9, ⟨false, 6799016368449, 25000000000⟩), (1, 11, ⟨true, 22755659142909, 50000000000⟩), (1, 18, ⟨false, 6183937720951, 2000000000⟩), (1, 44, ⟨false, 1576665022367, 6250000⟩), (2, 0, ⟨true, 61707422868339, 10000000000000000⟩), (2, 2, ⟨true, 31078046629583, 100000000000000⟩), (2, 7, ⟨false, 11670873077107, 1000000000000⟩), (2, 36, ⟨false, 6406399202023, 50000⟩), (2, 38, ⟨true, 24638727405819, 25000⟩), (2, 40, ⟨false, 14112273486501, 5000⟩), (2, 42, ⟨true, 35948971410703, 10000⟩), (2, 44, ⟨false, 17227349913197, 10000⟩), (3, 24, ⟨true, 542053369631, 40000000⟩), (3, 44, ⟨false, 256974693293, 20000⟩), (4, 12, ⟨false, 6932862141613, 5000000000000⟩), (4, 32, ⟨false, 11799416278257, 50000000⟩), (4, 44, ⟨true, 6552618272527, 500000⟩), (5, 32, ⟨false, 36999917737383, 5000000000⟩), (5, 36, ⟨true, 2759834851503, 5000000⟩), (5, 42, ⟨false, 37154085996233, 10000000⟩), (6, 34, ⟨false, 956386461983, 50000000⟩), (6, 44, ⟨true, 20767582417817, 50000000⟩), (7, 28, ⟨true, 62459855192507, 1000000000000⟩)]
theorem flPh2a_eq : flat exPh2a eyPh2a tbPh2a = flPh2a := by decide +kernel
theorem tbPh2a_ok : tbOk tbPh2a exPh2a.length eyPh2a.length = true := by decide +kernel
theorem Ph2a_same : List.Forall₂ SameT flPh2a (ph2T_reg2a_IJn : List (Int × Int × ℝ)) := by
  unfold flPh2a ph2T_reg2a_IJn
  repeat' first | exact .nil | refine .cons ⟨by norm_num, by norm_num, by norm_num [Co.val]⟩ ?_

/-! ### T(p, h) in 2b -/

def exPh2b : List Int := [9, 7, 6, 5, 4, 3, 2, 1, 0]
def eyPh2b : List Int := [40, 28, 4, 24, 18, 12, 8, 6, 3, 2, 1, 0]
theorem exPh2b_eq : powE chxPh2b [1, 0] = exPh2b := by decide +kernel
theorem eyPh2b_eq : powE chyPh2b [1, 0] = eyPh2b := by decide +kernel
def flPh2b : List (Int × Int × Co) := [(0, 0, ⟨false, 3723760269879, 2500000000⟩), (0, 1, ⟨false, 37153899157017, 50000000000⟩), (0, 2, ⟨true, 97708318797837, 1000000000000⟩), (0, 12, ⟨false, 12371232352837, 5000000000000⟩), (0, 18, ⟨true, 31640660008013, 50000000000000⟩), (0, 24, ⟨false, 5692976064829, 5000000000000⟩), (0, 28, ⟨true, 382494909189, 800000000000⟩), (0, 40, ⟨false, 10651015428943, 1250000000000000⟩), (1, 0, ⟨false, 23436786844483, 25000000000000⟩), (1, 2, ⟨false, 8398279651229, 2500000000000⟩), (1, 6, ⟨false, 16904677800727, 5000000000000⟩), (1, 12, ⟨false, 526391864747, 3125000000000⟩), (1, 18, ⟨false, 14775149047339, 20000000000000⟩), (1, 24, ⟨true, 23564368718093, 50000000000000⟩), (1, 28, ⟨false, 15020273139707, 100000000000000⟩), (1, 40, ⟨true, 87056456879, 40000000000000⟩), (2, 2, ⟨true, 21810755324761, 1000000000000000⟩), (2, 8, ⟨true, 10829784403677, 100000000000000⟩), (2, 18, ⟨true, 11583331158953, 250000000000000⟩), (2, 40, ⟨false, 71280351959551, 1000000000000000000⟩), (3, 1, ⟨false, 11032831789999, 100000000000000000⟩), (3, 2, ⟨false, 9477624193951, 50000000000000000⟩), (3, 12, ⟨false, 30891541160537, 10000000000000000⟩), (3, 24, ⟨false, 13555504554949, 10000000000000000⟩), (4, 2, ⟨false, 1790014842341, 6250000000000000000⟩), (4, 12, ⟨true, 1347482169689, 125000000000000000⟩), (4, 18, ⟨true, 38231356227407, 500000000000000000⟩), (4, 24, ⟨false, 3513098204579, 250000000000000000⟩), (4, 28, ⟨true, 15541907165717, 500000000000000000⟩), (4, 40, ⟨true, 10302738212103, 10000000000000000000⟩), (5, 18, ⟨false, 176358010219, 625000000000000000⟩), (5, 24, ⟨false, 2540980454389, 2000000000000000000⟩), (5, 40, ⟨false, 18450838367073, 250000000000000000000⟩), (6, 28, ⟨true, 11030139238909, 1000000000000000000000⟩), (7, 2, ⟨true, 81456365207833, 1000000000000000000000000000⟩), (7, 28, ⟨true, 12590272841481, 500000000000000000000000⟩), (9, 1, ⟨true, 17565233969407, 10000000000000000000000000000000⟩), (9, 40, ⟨false, 86934156344163, 10000000000000000000000000000⟩)]
theorem flPh2b_eq : flat exPh2b eyPh2b tbPh2b = flPh2b := by decide +kernel
theorem tbPh2b_ok : tbOk tbPh2b exPh2b.length eyPh2b.length = true := by decide +kernel
theorem Ph2b_same : List.Forall₂ SameT flPh2b (ph2T_reg2b_IJn : List (Int × Int × ℝ)) := by
  unfold flPh2b ph2T_reg2b_IJn
  repeat' first | exact .nil | refine .cons ⟨by norm_num, by norm_num, by norm_num [Co.val]⟩ ?_

/-! ### T(p, h) in 2c -/

def exPh2c : List Int := [-7, -6, -5, -3, -2, 6, 3, 2, -1, 1, 0]
def eyPh2c : List Int := [22, 20, 16, 12, 10, 8, 4, 2, 1, 0]
theorem exPh2c_eq : powE chxPh2c [-1, 1, 0] = exPh2c := by decide +kernel
theorem eyPh2c_eq : powE chyPh2c [1, 0] = eyPh2c := by decide +kernel
def flPh2c : List (Int × Int × Co) := [(-7, 0, ⟨true, 16184199277621, 5⟩), (-7, 4, ⟨false, 73263350902181, 10⟩), (-6, 0, ⟨false, 35825089945447, 100⟩), (-6, 2, ⟨true, 5834013185159, 10⟩), (-5, 0, ⟨true, 1078306821747, 100⟩), (-5, 2, ⟨false, 20825544563171, 1000⟩), (-2, 0, ⟨false, 15268695891129, 25000000⟩), (-2, 1, ⟨false, 4298886126779, 5000000⟩), (-1, 0, ⟨true, 2574572360417, 100000000⟩), (-1, 2, ⟨false, 15540544211357, 500000000⟩), (0, 0, ⟨false, 755144741621, 625000000⟩), (0, 1, ⟨false, 9643951021851, 20000000000⟩), (1, 4, ⟨false, 18983000636243, 5000000000000⟩), (1, 8, ⟨true, 10842984880077, 1000000000000⟩), (2, 4, ⟨true, 2268208633833, 50000000000000⟩), (6, 0, ⟨false, 7279557829349, 50000000000000000000000000⟩), (6, 1, ⟨false, 1126159740723, 1000000000000000000000000⟩), (6, 4, ⟨true, 8902491120343, 500000000000000000000000⟩), (6, 10, ⟨false, 770286230677, 6250000000000000000⟩), (6, 12, ⟨true, 1450865141373, 1250000000000000000⟩), (6, 16, ⟨false, 13923183544277, 500000000000000000⟩), (6, 20, ⟨true, 926094351159, 1562500000000000⟩), (6, 22, ⟨false, 6459291495939, 5000000000000000⟩)]
theorem flPh2c_eq : flat exPh2c eyPh2c tbPh2c = flPh2c := by decide +kernel
theorem tbPh2c_ok : tbOk tbPh2c exPh2c.length eyPh2c.length = true := by decide +kernel
theorem Ph2c_same : List.Forall₂ SameT flPh2c (ph2T_reg2c_IJn : List (Int × Int × ℝ)) := by
  unfold flPh2c ph2T_reg2c_IJn
  repeat' first | exact .nil | refine .cons ⟨by norm_num, by norm_num, by norm_num [Co.val]⟩ ?_

end If97.Tm
