import Verif.Lemmas.Tm.Comp.Det

/-! The determinant of the second derivatives, region 1, part 2 (generated subdivisions, checked in the kernel) -/

namespace If97.Tm
set_option maxRecDepth 100000

def det1_t40 : Tr4 := .x (.x (.x (.x .a .a) .a) (.x .a .a)) .a
theorem det1_c40 : chk 42230704 1812 57769296 1000000 2240364 1000000 (verify4 (leafB P12 (bDet1 true P12) 42230704 1812) never never never 42230704 1812 det1_t40) = true := by decide +kernel
def det1_t41 : Tr4 := .x (.x (.x (.x .a .a) .a) (.x .a .a)) .a
theorem det1_c41 : chk 42133817 904 57866183 1000000 2237650 1000000 (verify4 (leafB P12 (bDet1 true P12) 42133817 904) never never never 42133817 904 det1_t41) = true := by decide +kernel
def det1_t42 : Tr4 := .x (.x (.x (.x .a .a) .a) (.x .a .a)) .a
theorem det1_c42 : chk 42085003 902 57914997 1000000 2235845 1000000 (verify4 (leafB P12 (bDet1 true P12) 42085003 902) never never never 42085003 902 det1_t42) = true := by decide +kernel
def det1_t43 : Tr4 := .x (.x (.x (.x .a .a) .a) (.x .a .a)) .a
theorem det1_c43 : chk 42035939 901 57964061 1000000 2234043 1000000 (verify4 (leafB P12 (bDet1 true P12) 42035939 901) never never never 42035939 901 det1_t43) = true := by decide +kernel
def det1_t44 : Tr4 := .x (.x (.x (.x .a .a) .a) (.x .a .a)) .a
theorem det1_c44 : chk 41986625 899 58013375 1000000 2232244 1000000 (verify4 (leafB P12 (bDet1 true P12) 41986625 899) never never never 41986625 899 det1_t44) = true := by decide +kernel
def det1_t45 : Tr4 := .x (.x (.x (.x .a .a) .a) (.x .a .a)) .a
theorem det1_c45 : chk 41937059 898 58062941 1000000 2230448 1000000 (verify4 (leafB P12 (bDet1 true P12) 41937059 898) never never never 41937059 898 det1_t45) = true := by decide +kernel
def det1_t46 : Tr4 := .x (.x (.x (.x .a .a) .a) (.x .a .a)) .a
theorem det1_c46 : chk 41887239 897 58112761 1000000 2228655 1000000 (verify4 (leafB P12 (bDet1 true P12) 41887239 897) never never never 41887239 897 det1_t46) = true := by decide +kernel
def det1_t47 : Tr4 := .x (.x (.x (.x .a .a) .a) (.x .a .a)) .a
theorem det1_c47 : chk 41837165 895 58162835 1000000 2226864 1000000 (verify4 (leafB P12 (bDet1 true P12) 41837165 895) never never never 41837165 895 det1_t47) = true := by decide +kernel
def det1_t48 : Tr4 := .x (.x (.x (.x .a .a) .a) (.x .a .a)) .a
theorem det1_c48 : chk 41786834 447 58213166 1000000 2225523 1000000 (verify4 (leafB P12 (bDet1 true P12) 41786834 447) never never never 41786834 447 det1_t48) = true := by decide +kernel
def det1_t49 : Tr4 := .x (.x (.x (.x .a .a) .a) (.x .a .a)) .a
theorem det1_c49 : chk 41761572 447 58238428 1000000 2224630 1000000 (verify4 (leafB P12 (bDet1 true P12) 41761572 447) never never never 41761572 447 det1_t49) = true := by decide +kernel

end If97.Tm
