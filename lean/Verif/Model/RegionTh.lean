import Verif.Model.Region
set_option linter.unusedVariables false

/-!
# src/common/region.rs: th_sub_region (hand written: it has an uncounted loop)
-/

namespace If97
open Flt
variable {F : Type} [Add F] [Sub F] [Mul F] [Div F] [Neg F] [OfScientific F] [Flt F]

/-- `src/common/region.rs:609-617` the `while !HminFounded` loop of `th_sub_region`;
result: the final `Hmin` -/
def th_Hmin_loop (T : F) (p11 Hmin : F) : Option F :=
  let p11 := p11 + 0.1
  let Hmid := pT2h_reg1 p11 T
  if Hmid <. Hmin then th_Hmin_loop T p11 Hmid
  else some Hmin
partial_fixpoint

/-- `src/common/region.rs:558-655` th_sub_region -/
def th_sub_region (t h : F) : Option Int :=
  let T : F := t + 273.15
  if T <. 273.15 || T >. 2273.15 then some INVALID_VALUE
  else
  let hpmax2 : F := if T >=. T_MIN2 && T <=. T_MAX2 then pT2h_reg2 P_MIN2 T else 0.0
  let (hpm50, hpmax5) : F × F :=
    if T >. T_MIN5 && T <=. T_MAX5 then (pT2h_reg5 P_MAX5 T, pT2h_reg5 P_MIN5 T) else (0.0, 0.0)
  let hp100 : F :=
    if T >=. T_MIN1 && T <=. T_MAX1 then pT2h_reg1 100.0 T
    else if T >. T_MIN3 && T <=. T_MAX3 then pt_reg3 100.0 (T - 273.15) OH
    else 0.0
  -- (hsw, hss, p1, hB23)
  let (hsw, hss, p1, hB23) : F × F × F × F :=
    if T >=. T_MIN1 && T <=. T_MAX1 then
      (T2sat_water T OH, T2sat_steam T OH, 0.0, 0.0)
    else if T >. T_MIN3 && T <=. T_MAX3 then
      let p1 := B23_T2p T
      let hB23 := pT2h_reg2 p1 T
      if T <=. TC_WATER then
        let p1 := p_saturation T
        let v := pT2v_sat_reg3 p1 T 0.0
        let hsw := Td2h_reg3 T (1.0 / v)
        let v := pT2v_sat_reg3 p1 T 1.0
        let hss := Td2h_reg3 T (1.0 / v)
        (hsw, hss, p1, hB23)
      else (0.0, 0.0, p1, hB23)
    else (0.0, 0.0, 0.0, 0.0)
  if T >=. T_MIN1 && T <. 250.0 + T_MIN1 && h >. hsw && h <=. hp100 then some 1
  else
  if T >=. 250.0 + 273.15 && T <=. T_MAX1 && h <. hsw && h <=. hp100 then
    let Hmin : F := hsw
    let p11 : F := p1 + 0.1
    let Hmid : F := pT2h_reg1 p11 T
    if Hmid <. Hmin then do
      let Hmin ← th_Hmin_loop T p11 Hmin
      if h >=. Hmin then return 1 else return INVALID_VALUE
    else some INVALID_VALUE
  else
  if T >=. T_MIN2 && T <=. T_MAX1 && h >. hss && h <. hpmax2 then some 2
  else
  if T >. T_MAX1 && T <=. T_MAX3 && h >=. hB23 && h <. hpmax2 then some 2
  else
  if T >. T_MIN3 && T <=. TC_WATER && (h >. hss && h <. hB23 || h >=. hp100 && h <. hsw)
      || T >. TC_WATER && T <=. T_MAX3 && h >=. hp100 && h <. hB23 then some 3
  else
  if T >=. T_MIN1 && T <=. TC_WATER && h >=. hsw && h <=. hss then some 4
  else
  if T >. T_MIN5 && T <=. T_MAX5 && h >=. hpm50 && h <=. hpmax5 then some 5
  else some INVALID_VALUE

end If97
