import Verif.Lemmas.Tm.R2
import Verif.Lemmas.Tm.Comp.Det

/-! The tables of the derivatives of the Gibbs functions of regions 1, 2, 5 in the form the Taylor models use. -/

namespace If97.Tm
set_option maxRecDepth 100000

/-- the table of a derivative: coefficients times a weight, exponents lowered; a term of weight 0 may keep any power -/
def SameW (w : Int → Int → Int) (dx dy : Int) (a : Int × Int × Co) (e : Int × Int × ℝ) : Prop :=
  (a.1 = e.1 - dx ∧ a.2.1 = e.2.1 - dy ∨ w e.1 e.2.1 = 0) ∧ a.2.2.val = e.2.2 * w e.1 e.2.1

theorem sumT_eqW {w : Int → Int → Int} {dx dy : Int} {l : List (Int × Int × Co)} {T : List (Int × Int × ℝ)}
    (h : List.Forall₂ (SameW w dx dy) l T) (x y : ℝ) :
    sumT x y l = (T.map fun e => e.2.2 * (w e.1 e.2.1 : ℝ) * x ^ (e.1 - dx) * y ^ (e.2.1 - dy)).sum := by
  induction h with
  | nil => simp [sumT]
  | cons h1 _ ih =>
    simp only [sumT, List.map_cons, List.sum_cons] at ih ⊢
    rw [ih, h1.2]
    congr 1
    rcases h1.1 with e | e
    · rw [e.1, e.2]
    · rw [e]; simp

def wI (I _ : Int) : Int := I
def wII (I _ : Int) : Int := I * (I - 1)
def wIJ (I J : Int) : Int := I * J
def wJJ (_ J : Int) : Int := J * (J - 1)

/-! ### region 1 -/

def ex1d : List Int := [32, 31, 30, 29, 28, 27, 23, 22, 21, 20, 19, 10, 9, 8, 7, 6, 5, 4, 3, 2, 1, 0]
def ey1d : List Int := [-43, -42, -41, -40, -39, -38, -33, -32, -31, -30, -29, -15, -14, -13, -12, -11, -10, -9, -8, -7, -6, -5, -4, -3, -2, 17, 16, 15, 10, 9, 8, 6, 5, 4, 3, 2, -1, 1, 0]
theorem ex1d_eq : powE chx1d [1, 0] = ex1d := by decide +kernel
theorem ey1d_eq : powE chy1d [-1, 1, 0] = ey1d := by decide +kernel
def fli1d : List (Int × Int × Co) := [(0, -2, ⟨false, 0, 1⟩), (0, -1, ⟨false, 0, 1⟩), (0, 0, ⟨false, 0, 1⟩), (0, 1, ⟨false, 0, 1⟩), (0, 2, ⟨false, 0, 1⟩), (0, 3, ⟨false, 0, 1⟩), (0, 4, ⟨false, 0, 1⟩), (0, 5, ⟨false, 0, 1⟩), (0, -9, ⟨false, 7079770030951, 25000000000000000⟩), (0, -7, ⟨true, 30353150782937, 50000000000000000⟩), (0, -1, ⟨true, 18990068218419, 1000000000000000⟩), (0, 0, ⟨true, 6505949754101, 200000000000000⟩), (0, 1, ⟨true, 10920858587707, 500000000000000⟩), (0, 3, ⟨true, 5283835796993, 100000000000000000⟩), (1, -3, ⟨true, 47184321073267, 50000000000000000⟩), (1, 0, ⟨true, 15000890396513, 25000000000000000⟩), (1, 1, ⟨false, 47661393906987, 500000000000000000⟩), (1, 3, ⟨true, 22070922665423, 2500000000000000000⟩), (1, 17, ⟨true, 36347498148797, 25000000000000000000000000000⟩), (2, -4, ⟨true, 47519467267581, 500000000000000000⟩), (2, 0, ⟨true, 2650387311123, 312500000000000000⟩), (2, 6, ⟨true, 255615384360309, 100000000000000000000000⟩), (3, -5, ⟨true, 5606320477, 625000000000000⟩), (3, -2, ⟨true, 65171222895601, 25000000000000000000⟩), (3, 10, ⟨true, 3585432484481, 6250000000000000000000000⟩), (4, -8, ⟨true, 40516996860117, 20000000000000000000⟩), (7, -11, ⟨true, 12734301741641, 1250000000000000000000⟩), (7, -6, ⟨true, 8712435615317, 6250000000000000000000⟩), (20, -29, ⟨true, 1444004757206151, 100000000000000000000000000000000⟩), (22, -31, ⟨false, 333001080055983, 1000000000000000000000000000000000⟩), (28, -38, ⟨false, 152747533644211, 200000000000000000000000000000000000⟩), (29, -39, ⟨true, 35842867920213, 100000000000000000000000000000000000⟩), (30, -40, ⟨false, 141267733005881, 2500000000000000000000000000000000000⟩), (31, -41, ⟨true, 46768543646229, 15625000000000000000000000000000000000⟩)]
theorem fli1d_eq : flat ex1d ey1d ti1d = fli1d := by decide +kernel
theorem ti1d_ok : tbOk ti1d ex1d.length ey1d.length = true := by decide +kernel
theorem same_i1d : List.Forall₂ (SameW wI 1 0) fli1d (r1_IJn : List (Int × Int × ℝ)) := by
  unfold fli1d r1_IJn
  repeat' first | exact .nil | refine .cons ⟨by decide, by norm_num [Co.val, wI]⟩ ?_
def flii1d : List (Int × Int × Co) := [(0, -2, ⟨false, 0, 1⟩), (0, -1, ⟨false, 0, 1⟩), (0, 0, ⟨false, 0, 1⟩), (0, 1, ⟨false, 0, 1⟩), (0, 2, ⟨false, 0, 1⟩), (0, 3, ⟨false, 0, 1⟩), (0, 4, ⟨false, 0, 1⟩), (0, 5, ⟨false, 0, 1⟩), (0, -9, ⟨false, 0, 1⟩), (0, -7, ⟨false, 0, 1⟩), (0, -1, ⟨false, 0, 1⟩), (0, 0, ⟨false, 0, 1⟩), (0, 1, ⟨false, 0, 1⟩), (0, 3, ⟨false, 0, 1⟩), (0, -3, ⟨true, 47184321073267, 50000000000000000⟩), (0, 0, ⟨true, 15000890396513, 25000000000000000⟩), (0, 1, ⟨false, 47661393906987, 500000000000000000⟩), (0, 3, ⟨true, 22070922665423, 2500000000000000000⟩), (0, 17, ⟨true, 36347498148797, 25000000000000000000000000000⟩), (1, -4, ⟨true, 47519467267581, 250000000000000000⟩), (1, 0, ⟨true, 2650387311123, 156250000000000000⟩), (1, 6, ⟨true, 255615384360309, 50000000000000000000000⟩), (2, -5, ⟨true, 16818961431, 625000000000000⟩), (2, -2, ⟨true, 195513668686803, 25000000000000000000⟩), (2, 10, ⟨true, 10756297453443, 6250000000000000000000000⟩), (3, -8, ⟨true, 40516996860117, 5000000000000000000⟩), (6, -11, ⟨true, 89140112191487, 1250000000000000000000⟩), (6, -6, ⟨true, 60987049307219, 6250000000000000000000⟩), (19, -29, ⟨true, 1444004757206151, 5000000000000000000000000000000⟩), (21, -31, ⟨false, 3663011880615813, 500000000000000000000000000000000⟩), (27, -38, ⟨false, 1069232735509477, 50000000000000000000000000000000000⟩), (28, -39, ⟨true, 1039443169686177, 100000000000000000000000000000000000⟩), (29, -40, ⟨false, 423803199017643, 250000000000000000000000000000000000⟩), (30, -41, ⟨true, 1449824853033099, 15625000000000000000000000000000000000⟩)]
theorem flii1d_eq : flat ex1d ey1d tii1d = flii1d := by decide +kernel
theorem tii1d_ok : tbOk tii1d ex1d.length ey1d.length = true := by decide +kernel
theorem same_ii1d : List.Forall₂ (SameW wII 2 0) flii1d (r1_IJn : List (Int × Int × ℝ)) := by
  unfold flii1d r1_IJn
  repeat' first | exact .nil | refine .cons ⟨by decide, by norm_num [Co.val, wII]⟩ ?_
def flij1d : List (Int × Int × Co) := [(0, -3, ⟨false, 0, 1⟩), (0, -2, ⟨false, 0, 1⟩), (0, -1, ⟨false, 0, 1⟩), (0, 0, ⟨false, 0, 1⟩), (0, 1, ⟨false, 0, 1⟩), (0, 2, ⟨false, 0, 1⟩), (0, 3, ⟨false, 0, 1⟩), (0, 4, ⟨false, 0, 1⟩), (0, -10, ⟨true, 63717930278559, 25000000000000000⟩), (0, -8, ⟨false, 212472055480559, 50000000000000000⟩), (0, -2, ⟨false, 18990068218419, 1000000000000000⟩), (0, -1, ⟨false, 0, 1⟩), (0, 0, ⟨true, 10920858587707, 500000000000000⟩), (0, 2, ⟨true, 15851507390979, 100000000000000000⟩), (1, -4, ⟨false, 141552963219801, 50000000000000000⟩), (1, -1, ⟨false, 0, 1⟩), (1, 0, ⟨false, 47661393906987, 500000000000000000⟩), (1, 2, ⟨true, 66212767996269, 2500000000000000000⟩), (1, 16, ⟨true, 617907468529549, 25000000000000000000000000000⟩), (2, -5, ⟨false, 47519467267581, 125000000000000000⟩), (2, -1, ⟨false, 0, 1⟩), (2, 5, ⟨true, 766846153080927, 50000000000000000000000⟩), (3, -6, ⟨false, 5606320477, 125000000000000⟩), (3, -3, ⟨false, 65171222895601, 12500000000000000000⟩), (3, 9, ⟨true, 3585432484481, 625000000000000000000000⟩), (4, -9, ⟨false, 40516996860117, 2500000000000000000⟩), (7, -12, ⟨false, 140077319158051, 1250000000000000000000⟩), (7, -7, ⟨false, 26137306845951, 3125000000000000000000⟩), (20, -30, ⟨false, 41876137958978379, 100000000000000000000000000000000⟩), (22, -32, ⟨true, 10323033481735473, 1000000000000000000000000000000000⟩), (28, -39, ⟨true, 2902203139240009, 100000000000000000000000000000000000⟩), (29, -40, ⟨false, 1397871848888307, 100000000000000000000000000000000000⟩), (30, -41, ⟨true, 141267733005881, 62500000000000000000000000000000000⟩), (31, -42, ⟨false, 1917510289495389, 15625000000000000000000000000000000000⟩)]
theorem flij1d_eq : flat ex1d ey1d tij1d = flij1d := by decide +kernel
theorem tij1d_ok : tbOk tij1d ex1d.length ey1d.length = true := by decide +kernel
theorem same_ij1d : List.Forall₂ (SameW wIJ 1 1) flij1d (r1_IJn : List (Int × Int × ℝ)) := by
  unfold flij1d r1_IJn
  repeat' first | exact .nil | refine .cons ⟨by decide, by norm_num [Co.val, wIJ]⟩ ?_
def fljj1d : List (Int × Int × Co) := [(0, -4, ⟨false, 43898913639501, 50000000000000⟩), (0, -3, ⟨true, 42274093584557, 25000000000000⟩), (0, -2, ⟨false, 0, 1⟩), (0, -1, ⟨false, 0, 1⟩), (0, 0, ⟨true, 2993498855871, 1562500000000⟩), (0, 1, ⟨false, 11829028884921, 12500000000000⟩), (0, 2, ⟨true, 49849251598503, 250000000000000⟩), (0, 3, ⟨false, 5075914373973, 312500000000000⟩), (1, -11, ⟨false, 63717930278559, 2500000000000000⟩), (1, -9, ⟨true, 212472055480559, 6250000000000000⟩), (1, -3, ⟨true, 18990068218419, 500000000000000⟩), (1, -2, ⟨false, 0, 1⟩), (1, -1, ⟨false, 0, 1⟩), (1, 1, ⟨true, 15851507390979, 50000000000000000⟩), (2, -5, ⟨true, 141552963219801, 25000000000000000⟩), (2, -2, ⟨false, 0, 1⟩), (2, -1, ⟨false, 0, 1⟩), (2, 1, ⟨true, 66212767996269, 2500000000000000000⟩), (2, 15, ⟨true, 617907468529549, 3125000000000000000000000000⟩), (3, -6, ⟨true, 15839822422527, 25000000000000000⟩), (3, -2, ⟨false, 0, 1⟩), (3, 4, ⟨true, 255615384360309, 10000000000000000000000⟩), (4, -7, ⟨true, 16818961431, 250000000000000⟩), (4, -4, ⟨true, 195513668686803, 50000000000000000000⟩), (4, 8, ⟨true, 32268892360329, 2500000000000000000000000⟩), (5, -10, ⟨true, 364652971741053, 12500000000000000000⟩), (8, -13, ⟨true, 420231957474153, 2500000000000000000000⟩), (8, -8, ⟨true, 182961147921657, 25000000000000000000000⟩), (21, -31, ⟨true, 5982305422711197, 10000000000000000000000000000000⟩), (23, -33, ⟨false, 448827542684151, 31250000000000000000000000000000⟩), (29, -40, ⟨false, 3902962842426219, 100000000000000000000000000000000000⟩), (30, -41, ⟨true, 465957282962769, 25000000000000000000000000000000000⟩), (31, -42, ⟨false, 186837969459391, 62500000000000000000000000000000000⟩), (32, -43, ⟨true, 40267716079403169, 250000000000000000000000000000000000000⟩)]
theorem fljj1d_eq : flat ex1d ey1d tjj1d = fljj1d := by decide +kernel
theorem tjj1d_ok : tbOk tjj1d ex1d.length ey1d.length = true := by decide +kernel
theorem same_jj1d : List.Forall₂ (SameW wJJ 0 2) fljj1d (r1_IJn : List (Int × Int × ℝ)) := by
  unfold fljj1d r1_IJn
  repeat' first | exact .nil | refine .cons ⟨by decide, by norm_num [Co.val, wJJ]⟩ ?_

/-! ### region 2 -/

def ex2d : List Int := [24, 23, 22, 21, 20, 18, 16, 10, 9, 8, 7, 6, 5, 4, 3, 2, 1, 0]
def ey2d : List Int := [58, 57, 56, 55, 53, 52, 51, 50, 49, 48, 47, 46, 40, 39, 38, 37, 36, 35, 34, 33, 29, 28, 27, 26, 25, 24, 23, 21, 20, 19, 18, 16, 15, 14, 13, 12, 11, 10, 9, 8, 7, 6, 5, 4, 3, 2, 1, 0]
theorem ex2d_eq : powE chx2d [1, 0] = ex2d := by decide +kernel
theorem ey2d_eq : powE chy2d [1, 0] = ey2d := by decide +kernel
def fli2d : List (Int × Int × Co) := [(1, 0, ⟨true, 17731742473213, 10000000000000000⟩), (1, 1, ⟨true, 8917431146179, 500000000000000⟩), (1, 2, ⟨true, 9199202739273, 200000000000000⟩), (1, 3, ⟨true, 7197657385429, 125000000000000⟩), (1, 6, ⟨true, 5032527872793, 100000000000000⟩), (2, 1, ⟨true, 33032641670203, 500000000000000000⟩), (2, 2, ⟨true, 3789797503263, 10000000000000000⟩), (2, 4, ⟨true, 7878555448671, 1000000000000000⟩), (2, 7, ⟨true, 43797295650573, 500000000000000⟩), (2, 36, ⟨true, 26674547914087, 500000000000000000⟩), (3, 0, ⟨false, 61445213076927, 1000000000000000000000⟩), (3, 1, ⟨false, 26322400370661, 20000000000000000000⟩), (3, 3, ⟨true, 9683303171571, 100000000000000000⟩), (3, 6, ⟨true, 11275443406611, 2500000000000000⟩), (3, 35, ⟨true, 122004760687947, 1000000000000000⟩), (4, 1, ⟨true, 78847309559367, 25000000000000000000000⟩), (4, 2, ⟨false, 2558143570457, 50000000000000000000⟩), (4, 3, ⟨false, 48225372718507, 25000000000000000000⟩), (5, 7, ⟨false, 22922076337661, 2000000000000000000⟩), (6, 3, ⟨true, 50144299353183, 500000000000000000000000⟩), (6, 16, ⟨true, 12702883392813, 1000000000000000⟩), (6, 35, ⟨true, 8960903225289, 62500000000⟩), (7, 0, ⟨true, 41341695026989, 1000000000000000000000000000000⟩), (7, 11, ⟨true, 88352662293707, 10000000000000000000⟩), (7, 25, ⟨true, 272627897050173, 1000000000000000⟩), (8, 8, ⟨false, 11256211360459, 125000000000000000000000⟩), (8, 36, ⟨true, 41155670448999, 625000000000⟩), (9, 13, ⟨false, 22285926902349, 125000000000000000000⟩), (10, 4, ⟨false, 5203482605087, 5000000000000000000000000000000⟩), (10, 10, ⟨true, 10234747095929, 10000000000000000000000000⟩), (10, 14, ⟨true, 10018179379511, 1000000000000000000000⟩), (16, 29, ⟨true, 16176581729397, 12500000000000000000000⟩), (16, 50, ⟨false, 10693031879409, 6250000000000⟩), (18, 57, ⟨true, 302960255167539, 50000000000000⟩), (20, 20, ⟨false, 89185845355421, 5000000000000000000000000000000000000⟩), (20, 35, ⟨false, 3828664609529, 625000000000000000000000⟩), (20, 48, ⟨true, 1312577115569, 15625000000000000⟩), (21, 21, ⟨true, 1240176623398419, 1000000000000000000000000000000000000000⟩), (22, 53, ⟨false, 416096423748027, 5000000000000000000⟩), (23, 39, ⟨true, 293678005497663, 10000000000000000000000000000⟩), (24, 26, ⟨false, 219262831785183, 125000000000000000000000000000000000000000⟩), (24, 40, ⟨false, 83122073026167, 62500000000000000000000000000⟩), (24, 58, ⟨true, 28310912172363, 1250000000000000000⟩)]
theorem fli2d_eq : flat ex2d ey2d ti2d = fli2d := by decide +kernel
theorem ti2d_ok : tbOk ti2d ex2d.length ey2d.length = true := by decide +kernel
theorem same_i2d : List.Forall₂ (SameW wI 0 0) fli2d (r2_IJn : List (Int × Int × ℝ)) := by
  unfold fli2d r2_IJn
  repeat' first | exact .nil | refine .cons ⟨by decide, by norm_num [Co.val, wI]⟩ ?_
def flii2d : List (Int × Int × Co) := [(1, 0, ⟨false, 0, 1⟩), (1, 1, ⟨false, 0, 1⟩), (1, 2, ⟨false, 0, 1⟩), (1, 3, ⟨false, 0, 1⟩), (1, 6, ⟨false, 0, 1⟩), (2, 1, ⟨true, 33032641670203, 500000000000000000⟩), (2, 2, ⟨true, 3789797503263, 10000000000000000⟩), (2, 4, ⟨true, 7878555448671, 1000000000000000⟩), (2, 7, ⟨true, 43797295650573, 500000000000000⟩), (2, 36, ⟨true, 26674547914087, 500000000000000000⟩), (3, 0, ⟨false, 61445213076927, 500000000000000000000⟩), (3, 1, ⟨false, 26322400370661, 10000000000000000000⟩), (3, 3, ⟨true, 9683303171571, 50000000000000000⟩), (3, 6, ⟨true, 11275443406611, 1250000000000000⟩), (3, 35, ⟨true, 122004760687947, 500000000000000⟩), (4, 1, ⟨true, 236541928678101, 25000000000000000000000⟩), (4, 2, ⟨false, 7674430711371, 50000000000000000000⟩), (4, 3, ⟨false, 144676118155521, 25000000000000000000⟩), (5, 7, ⟨false, 22922076337661, 500000000000000000⟩), (6, 3, ⟨true, 50144299353183, 100000000000000000000000⟩), (6, 16, ⟨true, 12702883392813, 200000000000000⟩), (6, 35, ⟨true, 8960903225289, 12500000000⟩), (7, 0, ⟨true, 124025085080967, 500000000000000000000000000000⟩), (7, 11, ⟨true, 265057986881121, 5000000000000000000⟩), (7, 25, ⟨true, 817883691150519, 500000000000000⟩), (8, 8, ⟨false, 78793479523213, 125000000000000000000000⟩), (8, 36, ⟨true, 288089693142993, 625000000000⟩), (9, 13, ⟨false, 22285926902349, 15625000000000000000⟩), (10, 4, ⟨false, 46831343445783, 5000000000000000000000000000000⟩), (10, 10, ⟨true, 92112723863361, 10000000000000000000000000⟩), (10, 14, ⟨true, 90163614415599, 1000000000000000000000⟩), (16, 29, ⟨true, 48529745188191, 2500000000000000000000⟩), (16, 50, ⟨false, 32079095638227, 1250000000000⟩), (18, 57, ⟨true, 5150324337848163, 50000000000000⟩), (20, 20, ⟨false, 1694531061752999, 5000000000000000000000000000000000000⟩), (20, 35, ⟨false, 72744627581051, 625000000000000000000000⟩), (20, 48, ⟨true, 24938965195811, 15625000000000000⟩), (21, 21, ⟨true, 1240176623398419, 50000000000000000000000000000000000000⟩), (22, 53, ⟨false, 8738024898708567, 5000000000000000000⟩), (23, 39, ⟨true, 3230458060474293, 5000000000000000000000000000⟩), (24, 26, ⟨false, 5043045131059209, 125000000000000000000000000000000000000000⟩), (24, 40, ⟨false, 1911807679601841, 62500000000000000000000000000⟩), (24, 58, ⟨true, 651150979964349, 1250000000000000000⟩)]
theorem flii2d_eq : flat ex2d ey2d tii2d = flii2d := by decide +kernel
theorem tii2d_ok : tbOk tii2d ex2d.length ey2d.length = true := by decide +kernel
theorem same_ii2d : List.Forall₂ (SameW wII 0 0) flii2d (r2_IJn : List (Int × Int × ℝ)) := by
  unfold flii2d r2_IJn
  repeat' first | exact .nil | refine .cons ⟨by decide, by norm_num [Co.val, wII]⟩ ?_
def flij2d : List (Int × Int × Co) := [(1, 0, ⟨false, 0, 1⟩), (1, 0, ⟨true, 8917431146179, 500000000000000⟩), (1, 1, ⟨true, 9199202739273, 100000000000000⟩), (1, 2, ⟨true, 21592972156287, 125000000000000⟩), (1, 5, ⟨true, 15097583618379, 50000000000000⟩), (2, 0, ⟨true, 33032641670203, 500000000000000000⟩), (2, 1, ⟨true, 3789797503263, 5000000000000000⟩), (2, 3, ⟨true, 7878555448671, 250000000000000⟩), (2, 6, ⟨true, 306581069554011, 500000000000000⟩), (2, 35, ⟨true, 240070931226783, 125000000000000000⟩), (3, 0, ⟨false, 0, 1⟩), (3, 0, ⟨false, 26322400370661, 20000000000000000000⟩), (3, 2, ⟨true, 29049909514713, 100000000000000000⟩), (3, 5, ⟨true, 33826330219833, 1250000000000000⟩), (3, 34, ⟨true, 854033324815629, 200000000000000⟩), (4, 0, ⟨true, 78847309559367, 25000000000000000000000⟩), (4, 1, ⟨false, 2558143570457, 25000000000000000000⟩), (4, 2, ⟨false, 144676118155521, 25000000000000000000⟩), (5, 6, ⟨false, 160454534363627, 2000000000000000000⟩), (6, 2, ⟨true, 150432898059549, 500000000000000000000000⟩), (6, 15, ⟨true, 12702883392813, 62500000000000⟩), (6, 34, ⟨true, 62726322577023, 12500000000⟩), (7, 0, ⟨false, 0, 1⟩), (7, 10, ⟨true, 971879285230777, 10000000000000000000⟩), (7, 24, ⟨true, 272627897050173, 40000000000000⟩), (8, 7, ⟨false, 11256211360459, 15625000000000000000000⟩), (8, 35, ⟨true, 370401034040991, 156250000000⟩), (9, 12, ⟨false, 289717049730537, 125000000000000000000⟩), (10, 3, ⟨false, 5203482605087, 1250000000000000000000000000000⟩), (10, 9, ⟨true, 10234747095929, 1000000000000000000000000⟩), (10, 13, ⟨true, 70127255656577, 500000000000000000000⟩), (16, 28, ⟨true, 469120870152513, 12500000000000000000000⟩), (16, 49, ⟨false, 10693031879409, 125000000000⟩), (18, 56, ⟨true, 17268734544549723, 50000000000000⟩), (20, 19, ⟨false, 89185845355421, 250000000000000000000000000000000000⟩), (20, 34, ⟨false, 26800652266703, 125000000000000000000000⟩), (20, 47, ⟨true, 3937731346707, 976562500000000⟩), (21, 20, ⟨true, 26043709091366799, 1000000000000000000000000000000000000000⟩), (22, 52, ⟨false, 22053110458645431, 5000000000000000000⟩), (23, 38, ⟨true, 11453442214408857, 10000000000000000000000000000⟩), (24, 25, ⟨false, 2850416813207379, 62500000000000000000000000000000000000000⟩), (24, 39, ⟨false, 83122073026167, 1562500000000000000000000000⟩), (24, 57, ⟨true, 821016452998527, 625000000000000000⟩)]
theorem flij2d_eq : flat ex2d ey2d tij2d = flij2d := by decide +kernel
theorem tij2d_ok : tbOk tij2d ex2d.length ey2d.length = true := by decide +kernel
theorem same_ij2d : List.Forall₂ (SameW wIJ 0 1) flij2d (r2_IJn : List (Int × Int × ℝ)) := by
  unfold flij2d r2_IJn
  repeat' first | exact .nil | refine .cons ⟨by decide, by norm_num [Co.val, wIJ]⟩ ?_
def fljj2d : List (Int × Int × Co) := [(1, 0, ⟨false, 0, 1⟩), (1, 0, ⟨false, 0, 1⟩), (1, 0, ⟨true, 9199202739273, 100000000000000⟩), (1, 1, ⟨true, 21592972156287, 62500000000000⟩), (1, 4, ⟨true, 15097583618379, 10000000000000⟩), (2, 0, ⟨false, 0, 1⟩), (2, 0, ⟨true, 3789797503263, 10000000000000000⟩), (2, 2, ⟨true, 23635666346013, 500000000000000⟩), (2, 5, ⟨true, 919743208662033, 500000000000000⟩), (2, 34, ⟨true, 1680496518587481, 50000000000000000⟩), (3, 0, ⟨false, 0, 1⟩), (3, 0, ⟨false, 0, 1⟩), (3, 1, ⟨true, 9683303171571, 50000000000000000⟩), (3, 4, ⟨true, 11275443406611, 250000000000000⟩), (3, 33, ⟨true, 4839522173955231, 100000000000000⟩), (4, 0, ⟨false, 0, 1⟩), (4, 0, ⟨false, 2558143570457, 100000000000000000000⟩), (4, 1, ⟨false, 144676118155521, 50000000000000000000⟩), (5, 5, ⟨false, 481363603090881, 5000000000000000000⟩), (6, 1, ⟨true, 50144299353183, 500000000000000000000000⟩), (6, 14, ⟨true, 12702883392813, 25000000000000⟩), (6, 33, ⟨true, 355449161269797, 12500000000⟩), (7, 0, ⟨false, 0, 1⟩), (7, 9, ⟨true, 138839897890111, 1000000000000000000⟩), (7, 23, ⟨true, 116840527307217, 5000000000000⟩), (8, 6, ⟨false, 78793479523213, 125000000000000000000000⟩), (8, 34, ⟨true, 2592807238286937, 250000000000⟩), (9, 11, ⟨false, 96572349910179, 31250000000000000000⟩), (10, 2, ⟨false, 15610447815261, 12500000000000000000000000000000⟩), (10, 8, ⟨true, 92112723863361, 10000000000000000000000000⟩), (10, 12, ⟨true, 911654323535501, 5000000000000000000000⟩), (16, 27, ⟨true, 3283846091067591, 50000000000000000000000⟩), (16, 48, ⟨false, 523958562091041, 2000000000000⟩), (18, 55, ⟨true, 13431237979094229, 12500000000000⟩), (20, 18, ⟨false, 1694531061752999, 5000000000000000000000000000000000000⟩), (20, 33, ⟨false, 455611088533951, 1250000000000000000000000⟩), (20, 46, ⟨true, 185073373295229, 19531250000000000⟩), (21, 19, ⟨true, 1240176623398419, 50000000000000000000000000000000000000⟩), (22, 51, ⟨false, 26062766905671873, 2500000000000000000⟩), (23, 37, ⟨true, 9461539220598621, 5000000000000000000000000000⟩), (24, 24, ⟨false, 950138937735793, 20000000000000000000000000000000000000000⟩), (24, 38, ⟨false, 1080586949340171, 12500000000000000000000000000⟩), (24, 56, ⟨true, 15599312606972013, 5000000000000000000⟩)]
theorem fljj2d_eq : flat ex2d ey2d tjj2d = fljj2d := by decide +kernel
theorem tjj2d_ok : tbOk tjj2d ex2d.length ey2d.length = true := by decide +kernel
theorem same_jj2d : List.Forall₂ (SameW wJJ 0 2) fljj2d (r2_IJn : List (Int × Int × ℝ)) := by
  unfold fljj2d r2_IJn
  repeat' first | exact .nil | refine .cons ⟨by decide, by norm_num [Co.val, wJJ]⟩ ?_

/-! ### region 5 -/

def ex5d : List Int := [3, 2, 1, 0]
def ey5d : List Int := [9, 8, 7, 6, 5, 3, 2, 1, 0]
theorem ex5d_eq : powE chx5d [1, 0] = ex5d := by decide +kernel
theorem ey5d_eq : powE chy5d [1, 0] = ey5d := by decide +kernel
def fli5d : List (Int × Int × Co) := [(1, 1, ⟨false, 15736404855259, 10000000000000000⟩), (1, 2, ⟨false, 11269220209243, 12500000000000000⟩), (1, 3, ⟨true, 3141879854853, 625000000000000⟩), (2, 3, ⟨false, 4488007481897, 1000000000000000000⟩), (2, 9, ⟨true, 41163275453471, 5000000000000000000⟩), (3, 7, ⟨false, 22751672893773, 200000000000000000000⟩)]
theorem fli5d_eq : flat ex5d ey5d ti5d = fli5d := by decide +kernel
theorem ti5d_ok : tbOk ti5d ex5d.length ey5d.length = true := by decide +kernel
theorem same_i5d : List.Forall₂ (SameW wI 0 0) fli5d (r5_IJn : List (Int × Int × ℝ)) := by
  unfold fli5d r5_IJn
  repeat' first | exact .nil | refine .cons ⟨by decide, by norm_num [Co.val, wI]⟩ ?_
def flii5d : List (Int × Int × Co) := [(1, 1, ⟨false, 0, 1⟩), (1, 2, ⟨false, 0, 1⟩), (1, 3, ⟨false, 0, 1⟩), (2, 3, ⟨false, 4488007481897, 1000000000000000000⟩), (2, 9, ⟨true, 41163275453471, 5000000000000000000⟩), (3, 7, ⟨false, 22751672893773, 100000000000000000000⟩)]
theorem flii5d_eq : flat ex5d ey5d tii5d = flii5d := by decide +kernel
theorem tii5d_ok : tbOk tii5d ex5d.length ey5d.length = true := by decide +kernel
theorem same_ii5d : List.Forall₂ (SameW wII 0 0) flii5d (r5_IJn : List (Int × Int × ℝ)) := by
  unfold flii5d r5_IJn
  repeat' first | exact .nil | refine .cons ⟨by decide, by norm_num [Co.val, wII]⟩ ?_
def flij5d : List (Int × Int × Co) := [(1, 0, ⟨false, 15736404855259, 10000000000000000⟩), (1, 1, ⟨false, 11269220209243, 6250000000000000⟩), (1, 2, ⟨true, 9425639564559, 625000000000000⟩), (2, 2, ⟨false, 13464022445691, 1000000000000000000⟩), (2, 8, ⟨true, 370469479081239, 5000000000000000000⟩), (3, 6, ⟨false, 159261710256411, 200000000000000000000⟩)]
theorem flij5d_eq : flat ex5d ey5d tij5d = flij5d := by decide +kernel
theorem tij5d_ok : tbOk tij5d ex5d.length ey5d.length = true := by decide +kernel
theorem same_ij5d : List.Forall₂ (SameW wIJ 0 1) flij5d (r5_IJn : List (Int × Int × ℝ)) := by
  unfold flij5d r5_IJn
  repeat' first | exact .nil | refine .cons ⟨by decide, by norm_num [Co.val, wIJ]⟩ ?_
def fljj5d : List (Int × Int × Co) := [(1, 0, ⟨false, 0, 1⟩), (1, 0, ⟨false, 11269220209243, 6250000000000000⟩), (1, 1, ⟨true, 9425639564559, 312500000000000⟩), (2, 1, ⟨false, 13464022445691, 1000000000000000000⟩), (2, 7, ⟨true, 370469479081239, 1250000000000000000⟩), (3, 5, ⟨false, 159261710256411, 100000000000000000000⟩)]
theorem fljj5d_eq : flat ex5d ey5d tjj5d = fljj5d := by decide +kernel
theorem tjj5d_ok : tbOk tjj5d ex5d.length ey5d.length = true := by decide +kernel
theorem same_jj5d : List.Forall₂ (SameW wJJ 0 2) fljj5d (r5_IJn : List (Int × Int × ℝ)) := by
  unfold fljj5d r5_IJn
  repeat' first | exact .nil | refine .cons ⟨by decide, by norm_num [Co.val, wJJ]⟩ ?_

def et2d : List Int := [-7, -6, -5, -4, -3, -2, -1, 1, 0]
theorem et2d_eq : powE cht2d [-1, 1, 0] = et2d := by decide +kernel
def et5d : List Int := [-5, -4, -3, -2, -1, 1, 0]
theorem et5d_eq : powE cht5d [-1, 1, 0] = et5d := by decide +kernel
end If97.Tm
