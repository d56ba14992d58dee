import Verif.Lemmas.Tm.Comp.Det

/-! The determinant of the second derivatives, region 1, part 1 (generated subdivisions, checked in the kernel) -/

namespace If97.Tm
set_option maxRecDepth 100000

def det1_t30 : Tr4 := .x (.x (.x (.x .a .a) .a) .a) .a
theorem det1_c30 : chk 43488690 3786 56511310 1000000 2290348 1000000 (verify4 (leafB P12 (bDet1 true P12) 43488690 3786) never never never 43488690 3786 det1_t30) = true := by decide +kernel
def det1_t31 : Tr4 := .x (.x (.x (.x .a .a) .a) (.x .a .a)) .a
theorem det1_c31 : chk 43319742 3761 56680258 1000000 2282803 1000000 (verify4 (leafB P12 (bDet1 true P12) 43319742 3761) never never never 43319742 3761 det1_t31) = true := by decide +kernel
def det1_t32 : Tr4 := .x (.x (.x (.x .a .a) .a) (.x .a .a)) .a
theorem det1_c32 : chk 43147323 3736 56852677 1000000 2275308 1000000 (verify4 (leafB P12 (bDet1 true P12) 43147323 3736) never never never 43147323 3736 det1_t32) = true := by decide +kernel
def det1_t33 : Tr4 := .x (.x (.x (.x .a .a) .a) (.x .a .a)) .a
theorem det1_c33 : chk 42971365 3712 57028635 1000000 2267862 1000000 (verify4 (leafB P12 (bDet1 true P12) 42971365 3712) never never never 42971365 3712 det1_t33) = true := by decide +kernel
def det1_t34 : Tr4 := .x (.x (.x (.x .a .a) .a) (.x .a .a)) .a
theorem det1_c34 : chk 42791799 1847 57208201 1000000 2262305 1000000 (verify4 (leafB P12 (bDet1 true P12) 42791799 1847) never never never 42791799 1847 det1_t34) = true := by decide +kernel
def det1_t35 : Tr4 := .x (.x (.x (.x .a .a) .a) (.x .a .a)) .a
theorem det1_c35 : chk 42700640 1841 57299360 1000000 2258618 1000000 (verify4 (leafB P12 (bDet1 true P12) 42700640 1841) never never never 42700640 1841 det1_t35) = true := by decide +kernel
def det1_t36 : Tr4 := .x (.x (.x (.x .a .a) .a) (.x .a .a)) .a
theorem det1_c36 : chk 42608551 1835 57391449 1000000 2254943 1000000 (verify4 (leafB P12 (bDet1 true P12) 42608551 1835) never never never 42608551 1835 det1_t36) = true := by decide +kernel
def det1_t37 : Tr4 := .x (.x (.x (.x .a .a) .a) (.x .a .a)) .a
theorem det1_c37 : chk 42515524 1829 57484476 1000000 2251281 1000000 (verify4 (leafB P12 (bDet1 true P12) 42515524 1829) never never never 42515524 1829 det1_t37) = true := by decide +kernel
def det1_t38 : Tr4 := .x (.x (.x (.x .a .a) .a) (.x .a .a)) .a
theorem det1_c38 : chk 42421546 1823 57578454 1000000 2247630 1000000 (verify4 (leafB P12 (bDet1 true P12) 42421546 1823) never never never 42421546 1823 det1_t38) = true := by decide +kernel
def det1_t39 : Tr4 := .x (.x (.x (.x .a .a) .a) (.x .a .a)) .a
theorem det1_c39 : chk 42326610 1817 57673390 1000000 2243991 1000000 (verify4 (leafB P12 (bDet1 true P12) 42326610 1817) never never never 42326610 1817 det1_t39) = true := by decide +kernel

end If97.Tm
