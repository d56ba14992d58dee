import Verif.Lemmas.Tm.Comp.Det

/-! The determinant of the second derivatives, region 1, part 0 (generated subdivisions, checked in the kernel) -/

namespace If97.Tm
set_option maxRecDepth 100000

def det1_t0 : Tr4 := .a
theorem det1_c0 : chk 49999695 89602 50000305 1000000 4984534 1000000 (verify4 (leafB P12 (bDet1 false P12) 49999695 89602) never never never 49999695 89602 det1_t0) = true := by decide +kernel
def det1_t0e : Tr4 := .a
theorem det1_c0e : chk 49999695 44000 50000305 1000000 4938930 1000000 (verify4 (leafB P12 (bDet1 true P12) 49999695 44000) never never never 49999695 44000 det1_t0e) = true := by decide +kernel
def det1_t1 : Tr4 := .a
theorem det1_c1 : chk 49999387 83490 50000613 1000000 4811444 1000000 (verify4 (leafB P12 (bDet1 true P12) 49999387 83490) never never never 49999387 83490 det1_t1) = true := by decide +kernel
def det1_t2 : Tr4 := .a
theorem det1_c2 : chk 49998831 150981 50001169 1000000 4576974 1000000 (verify4 (leafB P12 (bDet1 true P12) 49998831 150981) never never never 49998831 150981 det1_t2) = true := by decide +kernel
def det1_t3 : Tr4 := .a
theorem det1_c3 : chk 49996309 132853 50003691 1000000 4293141 1000000 (verify4 (leafB P12 (bDet1 true P12) 49996309 132853) never never never 49996309 132853 det1_t3) = true := by decide +kernel
def det1_t4 : Tr4 := .a
theorem det1_c4 : chk 49990029 117806 50009971 1000000 4042483 1000000 (verify4 (leafB P12 (bDet1 true P12) 49990029 117806) never never never 49990029 117806 det1_t4) = true := by decide +kernel
def det1_t5 : Tr4 := .a
theorem det1_c5 : chk 49976296 105178 50023704 1000000 3819501 1000000 (verify4 (leafB P12 (bDet1 true P12) 49976296 105178) never never never 49976296 105178 det1_t5) = true := by decide +kernel
def det1_t6 : Tr4 := .a
theorem det1_c6 : chk 49949297 94477 50050703 1000000 3619848 1000000 (verify4 (leafB P12 (bDet1 true P12) 49949297 94477) never never never 49949297 94477 det1_t6) = true := by decide +kernel
def det1_t7 : Tr4 := .a
theorem det1_c7 : chk 49900678 85330 50099322 1000000 3440043 1000000 (verify4 (leafB P12 (bDet1 true P12) 49900678 85330) never never never 49900678 85330 det1_t7) = true := by decide +kernel
def det1_t8 : Tr4 := .a
theorem det1_c8 : chk 49819268 77450 50180732 1000000 3277265 1000000 (verify4 (leafB P12 (bDet1 true P12) 49819268 77450) never never never 49819268 77450 det1_t8) = true := by decide +kernel
def det1_t9 : Tr4 := .a
theorem det1_c9 : chk 49690962 70614 50309038 1000000 3129203 1000000 (verify4 (leafB P12 (bDet1 true P12) 49690962 70614) never never never 49690962 70614 det1_t9) = true := by decide +kernel
def det1_t10 : Tr4 := .a
theorem det1_c10 : chk 49498733 64644 50501267 1000000 2993947 1000000 (verify4 (leafB P12 (bDet1 true P12) 49498733 64644) never never never 49498733 64644 det1_t10) = true := by decide +kernel
def det1_t11 : Tr4 := .a
theorem det1_c11 : chk 49222742 59401 50777258 1000000 2869904 1000000 (verify4 (leafB P12 (bDet1 true P12) 49222742 59401) never never never 49222742 59401 det1_t11) = true := by decide +kernel
def det1_t12 : Tr4 := .x .a .a
theorem det1_c12 : chk 48840473 54770 51159527 1000000 2755734 1000000 (verify4 (leafB P12 (bDet1 true P12) 48840473 54770) never never never 48840473 54770 det1_t12) = true := by decide +kernel
def det1_t13 : Tr4 := .x (.x .a .a) .a
theorem det1_c13 : chk 48326842 50661 51673158 1000000 2650304 1000000 (verify4 (leafB P12 (bDet1 true P12) 48326842 50661) never never never 48326842 50661 det1_t13) = true := by decide +kernel
def det1_t14 : Tr4 := .x (.x .a .a) .a
theorem det1_c14 : chk 47654200 23932 52345800 1000000 2575713 1000000 (verify4 (leafB P12 (bDet1 true P12) 47654200 23932) never never never 47654200 23932 det1_t14) = true := by decide +kernel
def det1_t15 : Tr4 := .x (.x (.x .a .a) .a) .a
theorem det1_c15 : chk 47248856 23067 52751144 1000000 2528716 1000000 (verify4 (leafB P12 (bDet1 true P12) 47248856 23067) never never never 47248856 23067 det1_t15) = true := by decide +kernel
def det1_t16 : Tr4 := .x (.x (.x .a .a) .a) .a
theorem det1_c16 : chk 46792092 22248 53207908 1000000 2483403 1000000 (verify4 (leafB P12 (bDet1 true P12) 46792092 22248) never never never 46792092 22248 det1_t16) = true := by decide +kernel
def det1_t17 : Tr4 := .x (.x (.x .a .a) .a) .a
theorem det1_c17 : chk 46279551 10831 53720449 1000000 2450327 1000000 (verify4 (leafB P12 (bDet1 true P12) 46279551 10831) never never never 46279551 10831 det1_t17) = true := by decide +kernel
def det1_t18 : Tr4 := .x (.x (.x .a .a) .a) .a
theorem det1_c18 : chk 46000923 10641 53999077 1000000 2428856 1000000 (verify4 (leafB P12 (bDet1 true P12) 46000923 10641) never never never 46000923 10641 det1_t18) = true := by decide +kernel
def det1_t19 : Tr4 := .x (.x (.x .a .a) .a) .a
theorem det1_c19 : chk 45706576 10458 54293424 1000000 2407759 1000000 (verify4 (leafB P12 (bDet1 true P12) 45706576 10458) never never never 45706576 10458 det1_t19) = true := by decide +kernel
def det1_t20 : Tr4 := .x (.x (.x .a .a) .a) .a
theorem det1_c20 : chk 45395867 10278 54604133 1000000 2387024 1000000 (verify4 (leafB P12 (bDet1 true P12) 45395867 10278) never never never 45395867 10278 det1_t20) = true := by decide +kernel
def det1_t21 : Tr4 := .x (.x (.x .a .a) .a) .a
theorem det1_c21 : chk 45068121 5073 54931879 1000000 2371674 1000000 (verify4 (leafB P12 (bDet1 true P12) 45068121 5073) never never never 45068121 5073 det1_t21) = true := by decide +kernel
def det1_t22 : Tr4 := .x (.x (.x .a .a) .a) .a
theorem det1_c22 : chk 44897639 5031 55102361 1000000 2361572 1000000 (verify4 (leafB P12 (bDet1 true P12) 44897639 5031) never never never 44897639 5031 det1_t22) = true := by decide +kernel
def det1_t23 : Tr4 := .x (.x (.x .a .a) .a) .a
theorem det1_c23 : chk 44722629 4988 55277371 1000000 2351555 1000000 (verify4 (leafB P12 (bDet1 true P12) 44722629 4988) never never never 44722629 4988 det1_t23) = true := by decide +kernel
def det1_t24 : Tr4 := .x (.x (.x .a .a) .a) .a
theorem det1_c24 : chk 44542994 4946 55457006 1000000 2341623 1000000 (verify4 (leafB P12 (bDet1 true P12) 44542994 4946) never never never 44542994 4946 det1_t24) = true := by decide +kernel
def det1_t25 : Tr4 := .x (.x (.x .a .a) .a) .a
theorem det1_c25 : chk 44358637 2948 55641363 1000000 2333730 1000000 (verify4 (leafB P12 (bDet1 true P12) 44358637 2948) never never never 44358637 2948 det1_t25) = true := by decide +kernel
def det1_t26 : Tr4 := .x (.x (.x .a .a) .a) .a
theorem det1_c26 : chk 44245713 2933 55754287 1000000 2327851 1000000 (verify4 (leafB P12 (bDet1 true P12) 44245713 2933) never never never 44245713 2933 det1_t26) = true := by decide +kernel
def det1_t27 : Tr4 := .x (.x (.x .a .a) .a) .a
theorem det1_c27 : chk 44131030 5821 55868970 1000000 2319098 1000000 (verify4 (leafB P12 (bDet1 true P12) 44131030 5821) never never never 44131030 5821 det1_t27) = true := by decide +kernel
def det1_t28 : Tr4 := .x (.x (.x .a .a) .a) .a
theorem det1_c28 : chk 43896292 5763 56103708 1000000 2307515 1000000 (verify4 (leafB P12 (bDet1 true P12) 43896292 5763) never never never 43896292 5763 det1_t28) = true := by decide +kernel
def det1_t29 : Tr4 := .x (.x (.x .a .a) .a) .a
theorem det1_c29 : chk 43654231 3811 56345769 1000000 2297943 1000000 (verify4 (leafB P12 (bDet1 true P12) 43654231 3811) never never never 43654231 3811 det1_t29) = true := by decide +kernel

end If97.Tm
