import Verif.Lemmas.Tm.Rd
import Verif.Lemmas.Tm.Comp.Region3

/-! Tables of region 3 in the form the Taylor models use. -/

namespace If97.Tm
set_option maxRecDepth 100000

def wO (_ _ : Int) : Int := 1
def wJ (_ J : Int) : Int := J

/-! ### v(p, T) in 3c -/

def chxV3c : List (Nat × Nat) := [(1, 1), (2, 0), (3, 0), (0, 0), (4, 4), (5, 0), (6, 0), (7, 0), (8, 0), (4, 0), (5, 0), (6, 0)]
def chyV3c : List (Nat × Nat) := [(0, 0), (1, 0), (2, 0), (3, 0), (4, 0), (5, 0), (6, 0), (6, 0)]
def exV3c : List Int := [-12, -10, -8, -6, -5, -4, -3, -2, 8, 4, 3, 2, -1, 1, 0]
def eyV3c : List Int := [10, 8, 7, 6, 5, 4, 3, 2, 1, 0]
theorem exV3c_eq : powE chxV3c [-1, 1, 0] = exV3c := by decide +kernel
theorem eyV3c_eq : powE chyV3c [1, 0] = eyV3c := by decide +kernel
def tbV3c : List (Nat × List (Nat × Co)) :=
  [(0, [(3, ⟨false, 31196778876303, 10000000000000⟩), (1, ⟨false, 69178364711891, 2500000000⟩), (0, ⟨false, 322583103403269, 10000000⟩)]),
  (1, [(3, ⟨true, 342416065095363, 1000000000000⟩), (1, ⟨true, 899732529907377, 1000000000⟩), (0, ⟨true, 793892049821251, 10000000⟩)]),
  (2, [(4, ⟨false, 238298250804347, 2500000000000⟩), (3, ⟨false, 14361546396567, 6250000000⟩), (2, ⟨false, 175336675322499, 1000000000⟩)]),
  (3, [(1, ⟨false, 98901795652849, 12500000⟩)]),
  (4, [(8, ⟨false, 319933345844209, 10000000000000000000⟩), (5, ⟨true, 659508863555767, 10000000000000⟩), (2, ⟨true, 833426563212851, 1000000000⟩)]),
  (5, [(7, ⟨false, 161433670145823, 2500000000000000⟩), (1, ⟨true, 382031020570813, 100000000⟩)]),
  (6, [(9, ⟨false, 406398848470079, 10000000000000000000⟩), (6, ⟨false, 38790937311501, 1250000000000⟩)]),
  (7, [(9, ⟨true, 223249179620931, 250000000000000000⟩), (5, ⟨false, 3665701431119, 15625000000⟩), (4, ⟨false, 377515668966951, 100000000000⟩)]),
  (12, [(9, ⟨false, 158646812591361, 10000000000000000⟩), (8, ⟨false, 707906336241843, 1000000000000000⟩), (7, ⟨false, 12601622514657, 1000000000000⟩)]),
  (14, [(9, ⟨false, 92017956971519, 125000000000000⟩), (8, ⟨false, 676544268999101, 1000000000000000⟩), (7, ⟨true, 178100588189137, 10000000000000⟩)]),
  (13, [(9, ⟨true, 156531975531713, 1000000000000000⟩), (7, ⟨false, 58853715024079, 5000000000000⟩)]),
  (11, [(9, ⟨false, 840143653860447, 10000000000000000⟩), (8, ⟨true, 186442467471949, 1000000000000000⟩), (6, ⟨true, 88034040789929, 2000000000000⟩), (2, ⟨false, 61645211751247, 50000000⟩)]),
  (10, [(9, ⟨true, 48130007946169, 2000000000000000⟩), (2, ⟨true, 107077716660869, 100000000⟩)]),
  (8, [(8, ⟨false, 17532794342659, 400000000000000⟩)])]
def flV3c : List (Int × Int × Co) := [(-12, 6, ⟨false, 31196778876303, 10000000000000⟩), (-12, 8, ⟨false, 69178364711891, 2500000000⟩), (-12, 10, ⟨false, 322583103403269, 10000000⟩), (-10, 6, ⟨true, 342416065095363, 1000000000000⟩), (-10, 8, ⟨true, 899732529907377, 1000000000⟩), (-10, 10, ⟨true, 793892049821251, 10000000⟩), (-8, 5, ⟨false, 238298250804347, 2500000000000⟩), (-8, 6, ⟨false, 14361546396567, 6250000000⟩), (-8, 7, ⟨false, 175336675322499, 1000000000⟩), (-6, 8, ⟨false, 98901795652849, 12500000⟩), (-5, 1, ⟨false, 319933345844209, 10000000000000000000⟩), (-5, 4, ⟨true, 659508863555767, 10000000000000⟩), (-5, 7, ⟨true, 833426563212851, 1000000000⟩), (-4, 2, ⟨false, 161433670145823, 2500000000000000⟩), (-4, 8, ⟨true, 382031020570813, 100000000⟩), (-3, 0, ⟨false, 406398848470079, 10000000000000000000⟩), (-3, 3, ⟨false, 38790937311501, 1250000000000⟩), (-2, 0, ⟨true, 223249179620931, 250000000000000000⟩), (-2, 4, ⟨false, 3665701431119, 15625000000⟩), (-2, 5, ⟨false, 377515668966951, 100000000000⟩), (-1, 0, ⟨false, 158646812591361, 10000000000000000⟩), (-1, 1, ⟨false, 707906336241843, 1000000000000000⟩), (-1, 2, ⟨false, 12601622514657, 1000000000000⟩), (0, 0, ⟨false, 92017956971519, 125000000000000⟩), (0, 1, ⟨false, 676544268999101, 1000000000000000⟩), (0, 2, ⟨true, 178100588189137, 10000000000000⟩), (1, 0, ⟨true, 156531975531713, 1000000000000000⟩), (1, 2, ⟨false, 58853715024079, 5000000000000⟩), (2, 0, ⟨false, 840143653860447, 10000000000000000⟩), (2, 1, ⟨true, 186442467471949, 1000000000000000⟩), (2, 3, ⟨true, 88034040789929, 2000000000000⟩), (2, 7, ⟨false, 61645211751247, 50000000⟩), (3, 0, ⟨true, 48130007946169, 2000000000000000⟩), (3, 7, ⟨true, 107077716660869, 100000000⟩), (8, 1, ⟨false, 17532794342659, 400000000000000⟩)]
theorem flV3c_eq : flat exV3c eyV3c tbV3c = flV3c := by decide +kernel
theorem tbV3c_ok : tbOk tbV3c exV3c.length eyV3c.length = true := by decide +kernel
theorem V3c_same : List.Forall₂ SameT flV3c (pT2v_3c_IJn : List (Int × Int × ℝ)) := by
  unfold flV3c pT2v_3c_IJn
  repeat' first | exact .nil | refine .cons ⟨by norm_num, by norm_num, by norm_num [Co.val]⟩ ?_

/-! ### v(p, T) in 3t -/

def chxV3t : List (Nat × Nat) := [(0, 0), (1, 0), (2, 0), (1, 0), (2, 0), (5, 1), (1, 0), (6, 0), (7, 0), (8, 0), (7, 0), (8, 0), (9, 0)]
def chyV3t : List (Nat × Nat) := [(0, 0), (1, 0), (2, 0), (2, 0), (4, 0), (5, 0), (5, 0), (6, 0), (7, 0), (8, 0), (9, 0), (10, 0), (11, 0), (12, 0), (11, 0), (12, 0), (13, 0)]
def exV3t : List Int := [36, 32, 28, 24, 22, 20, 18, 8, 10, 7, 4, 3, 2, 1, 0]
def eyV3t : List Int := [36, 32, 28, 24, 22, 20, 18, 16, 14, 12, 10, 8, 7, 6, 4, 3, 2, 1, 0]
theorem exV3t_eq : powE chxV3t [1, 0] = exV3t := by decide +kernel
theorem eyV3t_eq : powE chyV3t [1, 0] = eyV3t := by decide +kernel
def tbV3t : List (Nat × List (Nat × Co)) :=
  [(14, [(18, ⟨false, 38821812396567, 25000000000000⟩), (17, ⟨false, 664235115009031, 100000000000000⟩), (14, ⟨true, 28936623672721, 10000000000⟩), (9, ⟨true, 96480800577462, 25⟩)]),
  (13, [(18, ⟨true, 291002915783761, 100000000000000⟩), (10, ⟨true, 829088246858083, 1000⟩)]),
  (12, [(18, ⟨false, 88407449837609, 50000000000000⟩), (13, ⟨true, 534686695713469, 1000000⟩), (8, ⟨false, 160464608687834000, 1⟩)]),
  (11, [(15, ⟨false, 98217683280093, 500000000⟩), (11, ⟨false, 156637427541729, 100⟩)]),
  (10, [(18, ⟨true, 89077280130003, 50000000000000⟩), (10, ⟨true, 2297462376236920, 1⟩)]),
  (9, [(15, ⟨false, 192829500824003, 5000000⟩), (14, ⟨false, 110554446790543, 100000⟩), (12, ⟨true, 677073830687349, 10⟩), (5, ⟨true, 3279105920865230000000000000000, 1⟩), (0, ⟨true, 341552040860644000000000000000000000000000000000000, 1⟩)]),
  (8, [(10, ⟨true, 527251339709047000000, 1⟩), (9, ⟨false, 245375640937055000000000, 1⟩), (8, ⟨true, 168776617209269000000000000, 1⟩), (7, ⟨false, 35895895586757800000000000000, 1⟩), (4, ⟨true, 656475280339411000000000000000000000, 1⟩)]),
  (6, [(6, ⟨false, 355286045512301000000000000000000000000, 1⟩)]),
  (5, [(1, ⟨false, 5690214544132700000000000000000000000000000000000000000000, 1⟩)]),
  (4, [(4, ⟨true, 700584546433113000000000000000000000000000000000, 1⟩), (0, ⟨true, 70577262332637400000000000000000000000000000000000000000000000000, 1⟩)]),
  (3, [(3, ⟨false, 16686117620014800000000000000000000000000000000000000, 1⟩)]),
  (2, [(2, ⟨true, 3004751296804860000000000000000000000000000000000000000000000, 1⟩)]),
  (1, [(4, ⟨true, 668481295196808000000000000000000000000000000000000, 1⟩), (1, ⟨false, 428432338620678000000000000000000000000000000000000000000000000000000, 1⟩), (0, ⟨true, 444227367758304000000000000000000000000000000000000000000000000000000000, 1⟩)]),
  (0, [(0, ⟨true, 28139601356274500000000000000000000000000000000000000000000000000000000000000, 1⟩)])]
def flV3t : List (Int × Int × Co) := [(0, 0, ⟨false, 38821812396567, 25000000000000⟩), (0, 1, ⟨false, 664235115009031, 100000000000000⟩), (0, 4, ⟨true, 28936623672721, 10000000000⟩), (0, 12, ⟨true, 96480800577462, 25⟩), (1, 0, ⟨true, 291002915783761, 100000000000000⟩), (1, 10, ⟨true, 829088246858083, 1000⟩), (2, 0, ⟨false, 88407449837609, 50000000000000⟩), (2, 6, ⟨true, 534686695713469, 1000000⟩), (2, 14, ⟨false, 160464608687834000, 1⟩), (3, 3, ⟨false, 98217683280093, 500000000⟩), (3, 8, ⟨false, 156637427541729, 100⟩), (4, 0, ⟨true, 89077280130003, 50000000000000⟩), (4, 10, ⟨true, 2297462376236920, 1⟩), (7, 3, ⟨false, 192829500824003, 5000000⟩), (7, 4, ⟨false, 110554446790543, 100000⟩), (7, 7, ⟨true, 677073830687349, 10⟩), (7, 20, ⟨true, 3279105920865230000000000000000, 1⟩), (7, 36, ⟨true, 341552040860644000000000000000000000000000000000000, 1⟩), (10, 10, ⟨true, 527251339709047000000, 1⟩), (10, 12, ⟨false, 245375640937055000000000, 1⟩), (10, 14, ⟨true, 168776617209269000000000000, 1⟩), (10, 16, ⟨false, 35895895586757800000000000000, 1⟩), (10, 22, ⟨true, 656475280339411000000000000000000000, 1⟩), (18, 18, ⟨false, 355286045512301000000000000000000000000, 1⟩), (20, 32, ⟨false, 5690214544132700000000000000000000000000000000000000000000, 1⟩), (22, 22, ⟨true, 700584546433113000000000000000000000000000000000, 1⟩), (22, 36, ⟨true, 70577262332637400000000000000000000000000000000000000000000000000, 1⟩), (24, 24, ⟨false, 16686117620014800000000000000000000000000000000000000, 1⟩), (28, 28, ⟨true, 3004751296804860000000000000000000000000000000000000000000000, 1⟩), (32, 22, ⟨true, 668481295196808000000000000000000000000000000000000, 1⟩), (32, 32, ⟨false, 428432338620678000000000000000000000000000000000000000000000000000000, 1⟩), (32, 36, ⟨true, 444227367758304000000000000000000000000000000000000000000000000000000000, 1⟩), (36, 36, ⟨true, 28139601356274500000000000000000000000000000000000000000000000000000000000000, 1⟩)]
theorem flV3t_eq : flat exV3t eyV3t tbV3t = flV3t := by decide +kernel
theorem tbV3t_ok : tbOk tbV3t exV3t.length eyV3t.length = true := by decide +kernel
theorem V3t_same : List.Forall₂ SameT flV3t (pT2v_3t_IJn : List (Int × Int × ℝ)) := by
  unfold flV3t pT2v_3t_IJn
  repeat' first | exact .nil | refine .cons ⟨by norm_num, by norm_num, by norm_num [Co.val]⟩ ?_

/-! ### v(p, h) in 3a -/

def exV3a : List Int := [-12, -10, -8, -6, -4, -3, -2, 8, 5, 4, 3, 2, -1, 1, 0]
def eyV3a : List Int := [22, 18, 16, 12, 10, 8, 7, 6, 5, 4, 3, 2, 1, 0]
theorem exV3a_eq : powE chxV3a [-1, 1, 0] = exV3a := by decide +kernel
theorem eyV3a_eq : powE chyV3a [1, 0] = eyV3a := by decide +kernel
def flV3a : List (Int × Int × Co) := [(-12, 6, ⟨false, 132486015741507, 25000000000000000⟩), (-12, 8, ⟨true, 170099690234461, 1000000000000000⟩), (-12, 12, ⟨false, 111323814312927, 10000000000000⟩), (-12, 18, ⟨true, 1743184985161, 800000000⟩), (-10, 4, ⟨true, 4048494623847, 8000000000000000⟩), (-10, 7, ⟨false, 139123809921331, 250000000000000⟩), (-10, 10, ⟨true, 14744886345219, 1562500000000⟩), (-8, 5, ⟨true, 297856807561527, 1000000000000000⟩), (-8, 12, ⟨false, 469676971858593, 5000000000000⟩), (-6, 3, ⟨false, 192944939465981, 10000000000000000⟩), (-6, 4, ⟨false, 421740664704763, 1000000000000000⟩), (-6, 22, ⟨true, 36891412628233, 10000000⟩), (-4, 2, ⟨true, 737566847600639, 100000000000000000⟩), (-4, 3, ⟨true, 177376621212183, 500000000000000⟩), (-3, 7, ⟨true, 199768169338727, 100000000000000⟩), (-2, 3, ⟨false, 115456297059049, 100000000000000⟩), (-2, 16, ⟨false, 14209171895399, 2500000000⟩), (-1, 0, ⟨false, 202042385031167, 25000000000000000⟩), (-1, 1, ⟨false, 172416341519307, 1000000000000000⟩), (-1, 2, ⟨false, 104270175292927, 100000000000000⟩), (-1, 3, ⟨true, 297691372792847, 1000000000000000⟩), (0, 0, ⟨false, 560394465163593, 1000000000000000⟩), (0, 1, ⟨false, 137617330588457, 500000000000000⟩), (1, 0, ⟨true, 37086973716503, 250000000000000⟩), (1, 1, ⟨true, 130228502695703, 2000000000000000⟩), (1, 2, ⟨true, 146234357693151, 50000000000000⟩), (2, 0, ⟨false, 132975219390533, 2000000000000000⟩), (2, 2, ⟨false, 88083753565961, 25000000000000⟩), (3, 0, ⟨true, 36585198078333, 2500000000000000⟩), (4, 2, ⟨true, 28062935833523, 12500000000000⟩), (5, 2, ⟨false, 55266732353071, 50000000000000⟩), (8, 2, ⟨true, 102189336123903, 2500000000000000⟩)]
theorem flV3a_eq : flat exV3a eyV3a tbV3a = flV3a := by decide +kernel
theorem tbV3a_ok : tbOk tbV3a exV3a.length eyV3a.length = true := by decide +kernel
theorem V3a_same : List.Forall₂ SameT flV3a (ph2v_3a_reg3_IJn : List (Int × Int × ℝ)) := by
  unfold flV3a ph2v_3a_reg3_IJn
  repeat' first | exact .nil | refine .cons ⟨by norm_num, by norm_num, by norm_num [Co.val]⟩ ?_

/-! ### v(p, h) in 3b -/

def exV3b : List Int := [-12, -8, -6, -4, -3, -2, 2, -1, 1, 0]
def eyV3b : List Int := [10, 8, 7, 6, 5, 4, 3, 2, 1, 0]
theorem exV3b_eq : powE chxV3b [-1, 1, 0] = exV3b := by decide +kernel
theorem eyV3b_eq : powE chyV3b [1, 0] = eyV3b := by decide +kernel
def flV3b : List (Int × Int × Co) := [(-12, 0, ⟨true, 112598467168159, 50000000000000000000000⟩), (-12, 1, ⟨false, 70337181656743, 5000000000000000000000⟩), (-8, 0, ⟨false, 2922301066007, 1250000000000000000⟩), (-8, 1, ⟨true, 331833715229001, 10000000000000000000⟩), (-8, 3, ⟨false, 53978389257159, 50000000000000000⟩), (-8, 6, ⟨true, 271382067378863, 1000000000000000⟩), (-8, 7, ⟨false, 107202262490333, 100000000000000⟩), (-8, 8, ⟨true, 426910664537691, 500000000000000⟩), (-6, 0, ⟨true, 107607097170263, 5000000000000000000⟩), (-6, 1, ⟨false, 76965608822273, 100000000000000000⟩), (-6, 2, ⟨true, 53892072554233, 12500000000000000⟩), (-6, 5, ⟨false, 453342167309331, 1000000000000000⟩), (-6, 6, ⟨true, 126937383968413, 250000000000000⟩), (-6, 10, ⟨true, 100475154528389, 1000000000000⟩), (-4, 3, ⟨true, 219201924648793, 1000000000000000⟩), (-4, 6, ⟨true, 321087965668917, 100000000000000⟩), (-4, 10, ⟨false, 607567815637771, 1000000000000⟩), (-3, 0, ⟨false, 139421612671483, 250000000000000000⟩), (-3, 2, ⟨false, 3749980800591, 20000000000000⟩), (-2, 1, ⟨false, 905368030448107, 100000000000000000⟩), (-2, 2, ⟨false, 57083434609737, 200000000000000⟩), (-1, 0, ⟨false, 164962015498049, 5000000000000000⟩), (-1, 1, ⟨false, 239897419685483, 1000000000000000⟩), (-1, 4, ⟨false, 241377497975697, 50000000000000⟩), (-1, 5, ⟨true, 118035753702231, 10000000000000⟩), (0, 0, ⟨false, 169490044091791, 1000000000000000⟩), (1, 0, ⟨true, 179967222507787, 10000000000000000⟩), (1, 1, ⟨false, 185905058166337, 5000000000000000⟩), (2, 2, ⟨true, 67036041883137, 1250000000000000⟩), (2, 6, ⟨false, 4017427527313, 2500000000000⟩)]
theorem flV3b_eq : flat exV3b eyV3b tbV3b = flV3b := by decide +kernel
theorem tbV3b_ok : tbOk tbV3b exV3b.length eyV3b.length = true := by decide +kernel
theorem V3b_same : List.Forall₂ SameT flV3b (ph2v_3b_reg3_IJn : List (Int × Int × ℝ)) := by
  unfold flV3b ph2v_3b_reg3_IJn
  repeat' first | exact .nil | refine .cons ⟨by norm_num, by norm_num, by norm_num [Co.val]⟩ ?_

/-! ### φ, δ φ_δ, φ_τ without the logarithm -/

def ex3 : List Int := [11, 10, 9, 8, 7, 6, 5, 4, 3, 2, 1, 0]
def ey3 : List Int := [26, 25, 23, 22, 21, 17, 16, 15, 14, 12, 11, 10, 9, 7, 6, 5, 4, 3, 2, 1, 0]
theorem ex3_eq : powE chx3 [1, 0] = ex3 := by decide +kernel
theorem ey3_eq : powE chy3 [1, 0] = ey3 := by decide +kernel
def flz3 : List (Int × Int × Co) := [(0, 0, ⟨true, 15732845290239, 1000000000000⟩), (0, 1, ⟨false, 20944396974307, 1000000000000⟩), (0, 2, ⟨true, 19216926969679, 2500000000000⟩), (0, 7, ⟨false, 13092973893977, 5000000000000⟩), (0, 10, ⟨true, 1404039057431, 500000000000⟩), (0, 12, ⟨false, 12053369696517, 10000000000000⟩), (0, 23, ⟨true, 42283406406251, 5000000000000000⟩), (1, 2, ⟨true, 6327157738857, 5000000000000⟩), (1, 6, ⟨true, 11524407806681, 10000000000000⟩), (1, 15, ⟨false, 44260521992159, 50000000000000⟩), (1, 17, ⟨true, 64207765181607, 100000000000000⟩), (2, 0, ⟨false, 38493460186671, 100000000000000⟩), (2, 2, ⟨true, 42607354412103, 50000000000000⟩), (2, 6, ⟨false, 48972281541877, 10000000000000⟩), (2, 7, ⟨true, 6100523451393, 2000000000000⟩), (2, 22, ⟨false, 19710268439577, 500000000000000⟩), (2, 26, ⟨false, 3139602106077, 25000000000000⟩), (3, 0, ⟨true, 2799932969871, 10000000000000⟩), (3, 2, ⟨false, 694989978473, 500000000000⟩), (3, 4, ⟨true, 2018991502357, 1000000000000⟩), (3, 16, ⟨true, 82147637173963, 10000000000000000⟩), (3, 26, ⟨true, 47596035734923, 100000000000000⟩), (4, 0, ⟨false, 87968148947, 2000000000000⟩), (4, 2, ⟨true, 44476435428739, 100000000000000⟩), (4, 4, ⟨false, 90572070719733, 100000000000000⟩), (4, 26, ⟨false, 70522450087967, 100000000000000⟩), (5, 1, ⟨false, 2692628156583, 25000000000000⟩), (5, 3, ⟨true, 16456811629477, 50000000000000⟩), (5, 26, ⟨true, 25435531020579, 50000000000000⟩), (6, 0, ⟨true, 2771925109137, 125000000000000⟩), (6, 2, ⟨false, 23565187916273, 250000000000000⟩), (6, 26, ⟨false, 16436278447961, 100000000000000⟩), (7, 2, ⟨true, 3375843060337, 250000000000000⟩), (8, 26, ⟨true, 1854293169059, 125000000000000⟩), (9, 2, ⟨false, 14480738407021, 25000000000000000⟩), (9, 26, ⟨false, 32308904703711, 10000000000000000⟩), (10, 0, ⟨false, 16192960599243, 200000000000000000⟩), (10, 1, ⟨true, 16557679795037, 100000000000000000⟩), (11, 26, ⟨true, 8984779812363, 200000000000000000⟩)]
theorem flz3_eq : flat ex3 ey3 tz3 = flz3 := by decide +kernel
theorem tz3_ok : tbOk tz3 ex3.length ey3.length = true := by decide +kernel
theorem same_z3 : List.Forall₂ (SameW wO 0 0) flz3 (r3_IJn : List (Int × Int × ℝ)) := by
  unfold flz3 r3_IJn
  repeat' first | exact .nil | refine .cons ⟨by decide, by norm_num [Co.val, wO]⟩ ?_
def fli3 : List (Int × Int × Co) := [(0, 0, ⟨false, 0, 1⟩), (0, 1, ⟨false, 0, 1⟩), (0, 2, ⟨false, 0, 1⟩), (0, 7, ⟨false, 0, 1⟩), (0, 10, ⟨false, 0, 1⟩), (0, 12, ⟨false, 0, 1⟩), (0, 23, ⟨false, 0, 1⟩), (1, 2, ⟨true, 6327157738857, 5000000000000⟩), (1, 6, ⟨true, 11524407806681, 10000000000000⟩), (1, 15, ⟨false, 44260521992159, 50000000000000⟩), (1, 17, ⟨true, 64207765181607, 100000000000000⟩), (2, 0, ⟨false, 38493460186671, 50000000000000⟩), (2, 2, ⟨true, 42607354412103, 25000000000000⟩), (2, 6, ⟨false, 48972281541877, 5000000000000⟩), (2, 7, ⟨true, 6100523451393, 1000000000000⟩), (2, 22, ⟨false, 19710268439577, 250000000000000⟩), (2, 26, ⟨false, 3139602106077, 12500000000000⟩), (3, 0, ⟨true, 8399798909613, 10000000000000⟩), (3, 2, ⟨false, 2084969935419, 500000000000⟩), (3, 4, ⟨true, 6056974507071, 1000000000000⟩), (3, 16, ⟨true, 246442911521889, 10000000000000000⟩), (3, 26, ⟨true, 142788107204769, 100000000000000⟩), (4, 0, ⟨false, 87968148947, 500000000000⟩), (4, 2, ⟨true, 44476435428739, 25000000000000⟩), (4, 4, ⟨false, 90572070719733, 25000000000000⟩), (4, 26, ⟨false, 70522450087967, 25000000000000⟩), (5, 1, ⟨false, 2692628156583, 5000000000000⟩), (5, 3, ⟨true, 16456811629477, 10000000000000⟩), (5, 26, ⟨true, 25435531020579, 10000000000000⟩), (6, 0, ⟨true, 8315775327411, 62500000000000⟩), (6, 2, ⟨false, 70695563748819, 125000000000000⟩), (6, 26, ⟨false, 49308835343883, 50000000000000⟩), (7, 2, ⟨true, 23630901422359, 250000000000000⟩), (8, 26, ⟨true, 1854293169059, 15625000000000⟩), (9, 2, ⟨false, 130326645663189, 25000000000000000⟩), (9, 26, ⟨false, 290780142333399, 10000000000000000⟩), (10, 0, ⟨false, 16192960599243, 20000000000000000⟩), (10, 1, ⟨true, 16557679795037, 10000000000000000⟩), (11, 26, ⟨true, 98832577935993, 200000000000000000⟩)]
theorem fli3_eq : flat ex3 ey3 ti3 = fli3 := by decide +kernel
theorem ti3_ok : tbOk ti3 ex3.length ey3.length = true := by decide +kernel
theorem same_i3 : List.Forall₂ (SameW wI 0 0) fli3 (r3_IJn : List (Int × Int × ℝ)) := by
  unfold fli3 r3_IJn
  repeat' first | exact .nil | refine .cons ⟨by decide, by norm_num [Co.val, wI]⟩ ?_
def flj3 : List (Int × Int × Co) := [(0, 0, ⟨false, 0, 1⟩), (0, 0, ⟨false, 20944396974307, 1000000000000⟩), (0, 1, ⟨true, 19216926969679, 1250000000000⟩), (0, 6, ⟨false, 91650817257839, 5000000000000⟩), (0, 9, ⟨true, 1404039057431, 50000000000⟩), (0, 11, ⟨false, 36160109089551, 2500000000000⟩), (0, 22, ⟨true, 972518347343773, 5000000000000000⟩), (1, 1, ⟨true, 6327157738857, 2500000000000⟩), (1, 5, ⟨true, 34573223420043, 5000000000000⟩), (1, 14, ⟨false, 132781565976477, 10000000000000⟩), (1, 16, ⟨true, 1091532008087319, 100000000000000⟩), (2, 0, ⟨false, 0, 1⟩), (2, 1, ⟨true, 42607354412103, 25000000000000⟩), (2, 5, ⟨false, 146916844625631, 5000000000000⟩), (2, 6, ⟨true, 42703664159751, 2000000000000⟩), (2, 21, ⟨false, 216812952835347, 250000000000000⟩), (2, 25, ⟨false, 40814827379001, 12500000000000⟩), (3, 0, ⟨false, 0, 1⟩), (3, 1, ⟨false, 694989978473, 250000000000⟩), (3, 3, ⟨true, 2018991502357, 250000000000⟩), (3, 15, ⟨true, 82147637173963, 625000000000000⟩), (3, 25, ⟨true, 618748464553999, 50000000000000⟩), (4, 0, ⟨false, 0, 1⟩), (4, 1, ⟨true, 44476435428739, 50000000000000⟩), (4, 3, ⟨false, 90572070719733, 25000000000000⟩), (4, 25, ⟨false, 916791851143571, 50000000000000⟩), (5, 0, ⟨false, 2692628156583, 25000000000000⟩), (5, 2, ⟨true, 49370434888431, 50000000000000⟩), (5, 25, ⟨true, 330661903267527, 25000000000000⟩), (6, 0, ⟨false, 0, 1⟩), (6, 1, ⟨false, 23565187916273, 125000000000000⟩), (6, 25, ⟨false, 213671619823493, 50000000000000⟩), (7, 1, ⟨true, 3375843060337, 125000000000000⟩), (8, 25, ⟨true, 24105811197767, 62500000000000⟩), (9, 1, ⟨false, 14480738407021, 12500000000000000⟩), (9, 25, ⟨false, 420015761148243, 5000000000000000⟩), (10, 0, ⟨false, 0, 1⟩), (10, 0, ⟨true, 16557679795037, 100000000000000000⟩), (11, 25, ⟨true, 116802137560719, 100000000000000000⟩)]
theorem flj3_eq : flat ex3 ey3 tj3 = flj3 := by decide +kernel
theorem tj3_ok : tbOk tj3 ex3.length ey3.length = true := by decide +kernel
theorem same_j3 : List.Forall₂ (SameW wJ 0 1) flj3 (r3_IJn : List (Int × Int × ℝ)) := by
  unfold flj3 r3_IJn
  repeat' first | exact .nil | refine .cons ⟨by decide, by norm_num [Co.val, wJ]⟩ ?_

end If97.Tm
