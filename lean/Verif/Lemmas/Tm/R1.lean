import Verif.Lemmas.Taylor
import Verif.Lemmas.Gibbs
import Verif.Lemmas.PolyReal
import Verif.Lemmas.Tm.Comp.Region1

/-! The region 1 tables of the code in the form the Taylor models use. -/

namespace If97.Tm
set_option maxRecDepth 100000

/-! ### the Gibbs function: addition chains for (7.1 - π) and (τ - 1.222) -/

def ex1 : List Int := [32, 31, 30, 29, 23, 21, 11, 10, 8, 5, 4, 3, 2, 1, 0]
def ey1 : List Int := [-42, -41, -40, -39, -38, -32, -31, -30, -29, -15, -14, -12, -11, -10, -9, -8, -7, -6, -5, -4, -3, -2, 17, 16, 10, 9, 6, 5, 4, 3, 2, -1, 1, 0]
theorem ex1_eq : powE chx1 [1, 0] = ex1 := by decide +kernel
theorem ey1_eq : powE chy1 [-1, 1, 0] = ey1 := by decide +kernel

def flg1 : List (Int × Int × Co) := [(0, -3, ⟨true, 14632971213167, 50000000000000⟩), (0, -2, ⟨false, 42274093584557, 50000000000000⟩), (0, -1, ⟨false, 0, 1⟩), (0, 0, ⟨false, 6771033833677, 2000000000000⟩), (0, 1, ⟨true, 2993498855871, 1562500000000⟩), (0, 2, ⟨false, 11829028884921, 25000000000000⟩), (0, 3, ⟨true, 16616417199501, 250000000000000⟩), (0, 4, ⟨false, 5075914373973, 1250000000000000⟩), (1, -10, ⟨true, 63717930278559, 25000000000000000⟩), (1, -8, ⟨false, 212472055480559, 50000000000000000⟩), (1, -2, ⟨false, 18990068218419, 1000000000000000⟩), (1, -1, ⟨false, 0, 1⟩), (1, 0, ⟨true, 10920858587707, 500000000000000⟩), (1, 2, ⟨true, 15851507390979, 100000000000000000⟩), (2, -4, ⟨false, 141552963219801, 100000000000000000⟩), (2, -1, ⟨false, 0, 1⟩), (2, 0, ⟨false, 47661393906987, 1000000000000000000⟩), (2, 2, ⟨true, 66212767996269, 5000000000000000000⟩), (2, 16, ⟨true, 617907468529549, 50000000000000000000000000000⟩), (3, -5, ⟨false, 15839822422527, 125000000000000000⟩), (3, -1, ⟨false, 0, 1⟩), (3, 5, ⟨true, 255615384360309, 50000000000000000000000⟩), (4, -6, ⟨false, 5606320477, 500000000000000⟩), (4, -3, ⟨false, 65171222895601, 50000000000000000000⟩), (4, 9, ⟨true, 3585432484481, 2500000000000000000000000⟩), (5, -9, ⟨false, 40516996860117, 12500000000000000000⟩), (8, -12, ⟨false, 140077319158051, 10000000000000000000000⟩), (8, -7, ⟨false, 26137306845951, 25000000000000000000000⟩), (21, -30, ⟨false, 1994101807570399, 100000000000000000000000000000000⟩), (23, -32, ⟨true, 448827542684151, 1000000000000000000000000000000000⟩), (29, -39, ⟨true, 100075970318621, 100000000000000000000000000000000000⟩), (30, -40, ⟨false, 465957282962769, 1000000000000000000000000000000000000⟩), (31, -41, ⟨true, 4557023645351, 62500000000000000000000000000000000⟩), (32, -42, ⟨false, 1917510289495389, 500000000000000000000000000000000000000⟩)]
theorem flg1_eq : flat ex1 ey1 tg1 = flg1 := by decide +kernel
theorem tg1_ok : tbOk tg1 ex1.length ey1.length = true := by decide +kernel
theorem g1_same : List.Forall₂ SameJ flg1 (r1_IJn : List (Int × Int × ℝ)) := by
  unfold flg1 r1_IJn
  repeat' first | exact .nil | refine .cons ⟨by norm_num, by norm_num, by norm_num [Co.val]⟩ ?_
def fl01 : List (Int × Int × Co) := [(0, -2, ⟨false, 14632971213167, 100000000000000⟩), (0, -1, ⟨true, 42274093584557, 50000000000000⟩), (0, 0, ⟨true, 939090091801, 250000000000⟩), (0, 1, ⟨false, 6771033833677, 2000000000000⟩), (0, 2, ⟨true, 2993498855871, 3125000000000⟩), (0, 3, ⟨false, 3943009628307, 25000000000000⟩), (0, 4, ⟨true, 16616417199501, 1000000000000000⟩), (0, 5, ⟨false, 5075914373973, 6250000000000000⟩), (1, -9, ⟨false, 7079770030951, 25000000000000000⟩), (1, -7, ⟨true, 30353150782937, 50000000000000000⟩), (1, -1, ⟨true, 18990068218419, 1000000000000000⟩), (1, 0, ⟨true, 6505949754101, 200000000000000⟩), (1, 1, ⟨true, 10920858587707, 500000000000000⟩), (1, 3, ⟨true, 5283835796993, 100000000000000000⟩), (2, -3, ⟨true, 47184321073267, 100000000000000000⟩), (2, 0, ⟨true, 15000890396513, 50000000000000000⟩), (2, 1, ⟨false, 47661393906987, 1000000000000000000⟩), (2, 3, ⟨true, 22070922665423, 5000000000000000000⟩), (2, 17, ⟨true, 36347498148797, 50000000000000000000000000000⟩), (3, -4, ⟨true, 15839822422527, 500000000000000000⟩), (3, 0, ⟨true, 883462437041, 312500000000000000⟩), (3, 6, ⟨true, 85205128120103, 100000000000000000000000⟩), (4, -5, ⟨true, 5606320477, 2500000000000000⟩), (4, -2, ⟨true, 65171222895601, 100000000000000000000⟩), (4, 10, ⟨true, 3585432484481, 25000000000000000000000000⟩), (5, -8, ⟨true, 40516996860117, 100000000000000000000⟩), (8, -11, ⟨true, 12734301741641, 10000000000000000000000⟩), (8, -6, ⟨true, 8712435615317, 50000000000000000000000⟩), (21, -29, ⟨true, 68762131295531, 100000000000000000000000000000000⟩), (23, -31, ⟨false, 14478307828521, 1000000000000000000000000000000000⟩), (29, -38, ⟨false, 5267156332559, 200000000000000000000000000000000000⟩), (30, -39, ⟨true, 11947622640071, 1000000000000000000000000000000000000⟩), (31, -40, ⟨false, 4557023645351, 2500000000000000000000000000000000000⟩), (32, -41, ⟨true, 46768543646229, 500000000000000000000000000000000000000⟩)]
theorem fl01_eq : flat ex1 ey1 t01 = fl01 := by decide +kernel
theorem t01_ok : tbOk t01 ex1.length ey1.length = true := by decide +kernel
theorem z1_same : List.Forall₂ SameT fl01 (r1_IJn : List (Int × Int × ℝ)) := by
  unfold fl01 r1_IJn
  repeat' first | exact .nil | refine .cons ⟨by norm_num, by norm_num, by norm_num [Co.val]⟩ ?_

/-! ### T(p, h): powers of p and of h/2500 + 1 -/

def exPh1 : List Int := [6, 5, 4, 3, 2, 1, 0]
def eyPh1 : List Int := [32, 22, 11, 10, 6, 4, 3, 2, 1, 0]
theorem exPh1_eq : powE chxPh1 [1, 0] = exPh1 := by decide +kernel
theorem eyPh1_eq : powE chyPh1 [1, 0] = eyPh1 := by decide +kernel
def flPh1 : List (Int × Int × Co) := [(0, 0, ⟨true, 23872489924521, 100000000000⟩), (0, 1, ⟨false, 8084237727589, 20000000000⟩), (0, 2, ⟨false, 5674873440859, 50000000000⟩), (0, 6, ⟨true, 58457616048039, 10000000000000⟩), (0, 22, ⟨true, 764274120657, 5000000000000000⟩), (0, 32, ⟨true, 10866707695377, 10000000000000000000⟩), (1, 0, ⟨true, 6695872436301, 500000000000⟩), (1, 1, ⟨false, 43211039183559, 1000000000000⟩), (1, 2, ⟨true, 27005033585253, 500000000000⟩), (1, 3, ⟨false, 7633973050979, 250000000000⟩), (1, 4, ⟨true, 32982374711819, 5000000000000⟩), (1, 10, ⟨false, 93965400878363, 10000000000000000⟩), (1, 32, ⟨false, 578682375267, 5000000000000000000⟩), (2, 10, ⟨true, 25858641282073, 1000000000000000000⟩), (2, 32, ⟨true, 40644363084799, 10000000000000000000000⟩), (3, 10, ⟨false, 13291237238327, 200000000000000000000⟩), (3, 32, ⟨false, 80670734103027, 1000000000000000000000000⟩), (4, 32, ⟨true, 93477771213947, 100000000000000000000000000⟩), (5, 32, ⟨false, 58265442020601, 10000000000000000000000000000⟩), (6, 32, ⟨true, 15020185953503, 1000000000000000000000000000000⟩)]
theorem flPh1_eq : flat exPh1 eyPh1 tbPh1 = flPh1 := by decide +kernel
theorem tbPh1_ok : tbOk tbPh1 exPh1.length eyPh1.length = true := by decide +kernel
theorem Ph1_same : List.Forall₂ SameT flPh1 (ph2T_reg1_IJn : List (Int × Int × ℝ)) := by
  unfold flPh1 ph2T_reg1_IJn
  repeat' first | exact .nil | refine .cons ⟨by norm_num, by norm_num, by norm_num [Co.val]⟩ ?_

/-! ### T(p, s): powers of p and of s + 2 -/

def exPs1 : List Int := [4, 3, 2, 1, 0]
def eyPs1 : List Int := [32, 31, 16, 15, 12, 11, 10, 9, 5, 4, 3, 2, 1, 0]
theorem exPs1_eq : powE chxPs1 [1, 0] = exPs1 := by decide +kernel
theorem eyPs1_eq : powE chyPs1 [1, 0] = eyPs1 := by decide +kernel
def flPs1 : List (Int × Int × Co) := [(0, 0, ⟨false, 17478268058307, 100000000000⟩), (0, 1, ⟨false, 34806930892873, 1000000000000⟩), (0, 2, ⟨false, 13058516995691, 2000000000000⟩), (0, 3, ⟨false, 33039981775489, 100000000000000⟩), (0, 11, ⟨true, 4820345730799, 25000000000000000000⟩), (0, 31, ⟨true, 24909197244573, 1000000000000000000000000000000000000⟩), (1, 0, ⟨true, 6526909122333, 25000000000000⟩), (1, 1, ⟨false, 11296482990793, 50000000000000⟩), (1, 2, ⟨true, 32128231697613, 500000000000000⟩), (1, 3, ⟨false, 39438144635263, 5000000000000000⟩), (1, 12, ⟨false, 17836055303683, 50000000000000000000000⟩), (1, 31, ⟨false, 3466499398979, 2000000000000000000000000000000000000⟩), (2, 0, ⟨false, 56608900654837, 100000000000000000⟩), (2, 1, ⟨true, 32635483139717, 100000000000000000⟩), (2, 2, ⟨false, 5597285836329, 125000000000000000⟩), (2, 9, ⟨true, 51322156908507, 100000000000000000000000⟩), (2, 31, ⟨true, 42522657042207, 1000000000000000000000000000000000000000⟩), (3, 10, ⟨false, 26400441360689, 100000000000000000000000000⟩), (3, 32, ⟨false, 78124600459723, 1000000000000000000000000000000000000000000⟩), (4, 32, ⟨true, 7683049975917, 25000000000000000000000000000000000000000000⟩)]
theorem flPs1_eq : flat exPs1 eyPs1 tbPs1 = flPs1 := by decide +kernel
theorem tbPs1_ok : tbOk tbPs1 exPs1.length eyPs1.length = true := by decide +kernel
theorem Ps1_same : List.Forall₂ SameT flPs1 (ps2T_reg1_IJn : List (Int × Int × ℝ)) := by
  unfold flPs1 ps2T_reg1_IJn
  repeat' first | exact .nil | refine .cons ⟨by norm_num, by norm_num, by norm_num [Co.val]⟩ ?_

/-! ### p(h, s): powers of h/3400 + 0.05 and of s/7.6 + 0.05 -/

def exHs1 : List Int := [5, 4, 3, 2, 1, 0]
def eyHs1 : List Int := [14, 10, 8, 6, 5, 4, 2, 1, 0]
theorem exHs1_eq : powE chxHs1 [1, 0] = exHs1 := by decide +kernel
theorem eyHs1_eq : powE chyHs1 [1, 0] = eyHs1 := by decide +kernel
def flHs1 : List (Int × Int × Co) := [(0, 0, ⟨true, 345998507330291, 500000000000000⟩), (0, 1, ⟨true, 4590313719689, 250000000000⟩), (0, 2, ⟨true, 185666481859467, 20000000000000⟩), (0, 4, ⟨false, 329819784954953, 5000000000000⟩), (0, 5, ⟨true, 20257548614003, 1250000000000⟩), (0, 6, ⟨false, 450620017338667, 1000000000000⟩), (0, 8, ⟨false, 85468067822417, 100000000000⟩), (0, 14, ⟨false, 303761607000581, 50000000000⟩), (1, 0, ⟨false, 10202740081933, 312500000000⟩), (1, 1, ⟨true, 269408844582931, 10000000000000⟩), (1, 4, ⟨true, 3199478483343, 10000000000⟩), (1, 6, ⟨true, 23208857676083, 25000000000⟩), (2, 0, ⟨false, 303634537455249, 10000000000000⟩), (2, 1, ⟨true, 325270211222073, 5000000000000⟩), (2, 10, ⟨true, 43099131651613, 10000000000⟩), (3, 4, ⟨true, 186878081024017, 250000000000⟩), (4, 1, ⟨false, 146000069105849, 200000000000⟩), (4, 4, ⟨false, 114284032569021, 100000000000⟩), (5, 0, ⟨true, 436407041874559, 1000000000000⟩)]
theorem flHs1_eq : flat exHs1 eyHs1 tbHs1 = flHs1 := by decide +kernel
theorem tbHs1_ok : tbOk tbHs1 exHs1.length eyHs1.length = true := by decide +kernel
theorem Hs1_same : List.Forall₂ SameT flHs1 (hs2p_reg1_IJn : List (Int × Int × ℝ)) := by
  unfold flHs1 hs2p_reg1_IJn
  repeat' first | exact .nil | refine .cons ⟨by norm_num, by norm_num, by norm_num [Co.val]⟩ ?_

end If97.Tm
