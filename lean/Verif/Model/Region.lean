/-
Generated by tools/rs2lean.py from the Rust sources cited below.
Number type `F` is abstract; see Verif/Model/Num.lean for the conventions.
-/
import Verif.Model.Reg4
import Verif.Model.Reg5
set_option linter.unusedVariables false

namespace If97
open Flt
variable {F : Type} [Add F] [Sub F] [Mul F] [Div F] [Neg F] [OfScientific F] [Flt F]

/-! ### src/common/region.rs -/

/-- `src/common/region.rs`:28 -/
def REGION_NONE : Int := 10

/-- `src/common/region.rs`:47 -/
def pT_sub_region_psatTol : F := 1.0e-6

/-- `src/common/region.rs:32-86` pT_sub_region -/
def pT_sub_region (p : F) (T : F) : Int :=
  if p <. P_MIN || p >. 100.0 then
    INVALID_P
  else
  if T <. 273.15 || T >. 2273.15 then
    INVALID_T
  else
  if T >. 1073.15 && T <=. 2273.15 && p >. 50.0 then
    INVALID_P
  else
  Option.getD (if T >=. 273.15 && T <. TC_WATER then
      let ps : F := p_saturation T
      if fabs (p - ps) / ps <. pT_sub_region_psatTol then
        some 4
      else
        none
    else
      none) <|
  if T ==. TC_WATER && p ==. PC_WATER then
    3
  else
  Option.getD (if T >=. 273.15 && T <=. 623.15 then
      if p >=. p_saturation T && p <=. 100.0 then
        some 1
      else
      if p <. p_saturation T && p >. P_MIN then
        some 2
      else
        none
    else
      none) <|
  Option.getD (if T >. 623.15 && T <=. 863.15 then
      if p >=. P_MIN && p <=. B23_T2p T then
        some 2
      else
      if p >. B23_T2p T && p <=. 100.0 then
        some 3
      else
        none
    else
      none) <|
  if T >. 863.15 && T <=. 1073.15 && p >=. P_MIN && p <=. 100.0 then
    2
  else
  if 1073.15 <. T && T <=. 2273.15 && P_MIN <=. p && p <=. 50.0 then
    5
  else
  INVALID_VALUE

/-- `src/common/region.rs:90-158` ph_sub_region -/
def ph_sub_region (p : F) (h : F) : Int :=
  let hmin : F := pT2h_reg1 p 273.15
  let hmax : F := pT2h_reg5 p 2273.15
  Option.getD (if P_MIN <=. p && p <=. Ps_623 then
      let T_sat : F := T_saturation p
      let h14 : F := pT2h_reg1 p T_sat
      let h24 : F := pT2h_reg2 p T_sat
      let h25 : F := pT2h_reg2 p 1073.15
      if hmin <=. h && h <=. h14 then
        some 1
      else if h14 <. h && h <. h24 then
        some 4
      else if h24 <=. h && h <=. h25 then
        some 2
      else if h25 <. h && h <=. hmax then
        some 5
      else
        none
    else
      none) <|
  Option.getD (if Ps_623 <. p && p <. PC_WATER then
      let h13 : F := pT2h_reg1 p 623.15
      let h32 : F := pT2h_reg2 p (B23_p2T p)
      let h25 : F := pT2h_reg2 p 1073.15
      if hmin <=. h && h <=. h13 then
        some 1
      else
      if h13 <. h && h <. h32 then
        let p34 : F := h2p_sat_reg3 h
        if p <. p34 then
          some 4
        else
          some 3
      else
      if h32 <=. h && h <=. h25 then
        some 2
      else
      if h25 <. h && h <=. hmax then
        some 5
      else
        none
    else
      none) <|
  if PC_WATER <=. p && p <=. 100.0 then
    let h13 : F := pT2h_reg1 p 623.15
    let h32 : F := pT2h_reg2 p (B23_p2T p)
    let h25 : F := pT2h_reg2 p 1073.15
    if hmin <=. h && h <=. h13 then
      1
    else
    if h13 <. h && h <. h32 then
      3
    else
    if h32 <=. h && h <=. h25 then
      2
    else
    if p <=. 50.0 && (h25 <=. h && h <=. hmax) then
      5
    else
    INVALID_VALUE
  else
    INVALID_VALUE

/-- `src/common/region.rs:162-231` ps_sub_region -/
def ps_sub_region (p : F) (s : F) : Int :=
  let smin : F := pT2s_reg1 p 273.15
  let smax : F := pT2s_reg5 p 2273.15
  Option.getD (if P_MIN <=. p && p <=. Ps_623 then
      let Tsat : F := T_saturation p
      let s14 : F := pT2s_reg1 p Tsat
      let s24 : F := pT2s_reg2 p Tsat
      let s25 : F := pT2s_reg2 p 1073.15
      if smin <=. s && s <=. s14 then
        some 1
      else
      if s14 <. s && s <. s24 then
        some 4
      else
      if s24 <=. s && s <=. s25 then
        some 2
      else
      if s25 <. s && s <=. smax then
        some 5
      else
        none
    else
      none) <|
  Option.getD (if Ps_623 <. p && p <. PC_WATER then
      let s13 : F := pT2s_reg1 p 623.15
      let s32 : F := pT2s_reg2 p (B23_p2T p)
      let s25 : F := pT2s_reg2 p 1073.15
      if smin <=. s && s <=. s13 then
        some 1
      else
      if s13 <. s && s <. s32 then
        let p34 : F := s2p_sat_reg3 s
        if p <. p34 then
          some 4
        else
          some 3
      else
      if s32 <=. s && s <=. s25 then
        some 2
      else
      if s25 <. s && s <=. smax then
        some 5
      else
        none
    else
      none) <|
  if PC_WATER <=. p && p <=. 100.0 then
    let s13 : F := pT2s_reg1 p 623.15
    let s32 : F := pT2s_reg2 p (B23_p2T p)
    let s25 : F := pT2s_reg2 p 1073.15
    if smin <=. s && s <=. s13 then
      1
    else
    if s13 <. s && s <. s32 then
      3
    else
    if s32 <=. s && s <=. s25 then
      2
    else
    if p <=. 50.0 && s25 <=. s && s <=. smax then
      5
    else
    INVALID_VALUE
  else
    INVALID_VALUE

/-- `src/common/region.rs:234-423` hs_sub_region -/
def hs_sub_region (h : F) (s : F) : Int :=
  let s13 : F := pT2s_reg1 100.0 623.15
  let s13s : F := pT2s_reg1 Ps_623 623.15
  let sTPmax : F := pT2s_reg2 100.0 1073.15
  let s2ab : F := pT2s_reg2 4.0 1073.15
  let smin : F := pT2s_reg1 100.0 273.15
  let smax : F := pT2s_reg2 P_MIN 1073.15
  let h4l : F := pT2h_reg1 P_MIN 273.15
  let s4l : F := pT2s_reg1 P_MIN 273.15
  let h4v : F := pT2h_reg2 P_MIN 273.15
  let s4v : F := pT2s_reg2 P_MIN 273.15
  Option.getD (if pT2s_reg5 50.0 1073.15 <. s && s <=. pT2s_reg5 P_MIN 2273.15 && pT2h_reg5 50.0 1073.15 <. h && h <=. pT2h_reg5 P_MIN 2273.15 then
      let p := hs2p_reg5 h s
      let T := ph2T_reg5 p h
      if 1073.15 <. T && T <=. 2273.15 && P_MIN <=. p && p <=. 50.0 then
        some 5
      else
        none
    else
      none) <|
  Option.getD (if smin <=. s && s <=. s13 then
      let hmin := h4l + (s - s4l) / (s4v - s4l) * (h4v - h4l)
      let hs := hs_region_h1_s s
      let T := ps2T_reg1 100.0 s - 0.0218
      let hmax := pT2h_reg1 100.0 T
      if hmin <=. h && h <. hs then
        some 4
      else
      if hs <=. h && h <=. hmax then
        some 1
      else
        none
    else
      none) <|
  Option.getD (if s13 <. s && s <=. s13s then
      let hmin := h4l + (s - s4l) / (s4v - s4l) * (h4v - h4l)
      let hs := hs_region_h1_s s
      let h13 : F := hs_region_h13_s s
      let v := ps2v_reg3 100.0 s * (1.0 + 9.6e-5)
      let T := ps2T_reg3 100.0 s - 0.0248
      let hmax := Td2h_reg3 T (1.0 / v)
      if hmin <=. h && h <. hs then
        some 4
      else
      if hs <=. h && h <. h13 then
        some 1
      else
      if h13 <=. h && h <=. hmax then
        some 3
      else
        none
    else
      none) <|
  Option.getD (if s13s <. s && s <=. SC_WATER then
      let hmin := h4l + (s - s4l) / (s4v - s4l) * (h4v - h4l)
      let hs := hs_region_h3a_s s
      let v := ps2v_reg3 100.0 s * (1.0 + 9.6e-5)
      let T := ps2T_reg3 100.0 s - 0.0248
      let hmax := Td2h_reg3 T (1.0 / v)
      if hmin <=. h && h <. hs then
        some 4
      else
      if hs <=. h && h <=. hmax then
        some 3
      else
        none
    else
      none) <|
  Option.getD (if SC_WATER <. s && s <. 5.049096828 then
      let hmin := h4l + (s - s4l) / (s4v - s4l) * (h4v - h4l)
      let hs := hs_region_h2c3b_s s
      let v := ps2v_reg3 100.0 s * (1.0 + 9.6e-5)
      let T := ps2T_reg3 100.0 s - 0.0248
      let hmax := Td2h_reg3 T (1.0 / v)
      if hmin <=. h && h <. hs then
        some 4
      else
      if hs <=. h && h <=. hmax then
        some 3
      else
        none
    else
      none) <|
  Option.getD (if 5.049096828 <=. s && s <. 5.260578707 then
      let hmin := h4l + (s - s4l) / (s4v - s4l) * (h4v - h4l)
      let hs := hs_region_h2c3b_s s
      let h23max : F := pT2h_reg2 100.0 863.15
      let h23min : F := pT2h_reg2 Ps_623 623.15
      let T := ps2T_reg2 100.0 s - 0.019
      let hmax := pT2h_reg2 100.0 T
      if hmin <=. h && h <. hs then
        some 4
      else
      if hs <=. h && h <. h23min then
        some 3
      else
      if h23min <=. h && h <. h23max then
        if hs2p_reg2c h s <=. B23_T2p (hs_region_t_hs h s) then
          some 2
        else
          some 3
      else
      if h23max <=. h && h <=. hmax then
        some 2
      else
        none
    else
      none) <|
  Option.getD (if 5.260578707 <=. s && s <. 5.85 then
      let hmin := h4l + (s - s4l) / (s4v - s4l) * (h4v - h4l)
      let hs := hs_region_h2c3b_s s
      let T := ps2T_reg2 100.0 s - 0.019
      let hmax := pT2h_reg2 100.0 T
      if hmin <=. h && h <. hs then
        some 4
      else
      if hs <=. h && h <=. hmax then
        some 2
      else
        none
    else
      none) <|
  Option.getD (if 5.85 <=. s && s <. sTPmax then
      let hmin := h4l + (s - s4l) / (s4v - s4l) * (h4v - h4l)
      let hs := hs_region_h2ab_s s
      let T := ps2T_reg2 100.0 s - 0.019
      let hmax := pT2h_reg2 100.0 T
      if hmin <=. h && h <. hs then
        some 4
      else
      if hs <=. h && h <=. hmax then
        some 2
      else
        none
    else
      none) <|
  Option.getD (if sTPmax <=. s && s <. s2ab then
      let hmin := h4l + (s - s4l) / (s4v - s4l) * (h4v - h4l)
      let hs := hs_region_h2ab_s s
      let p := hs2p_reg2 h s
      let hmax := pT2h_reg2 p 1073.15
      if hmin <=. h && h <. hs then
        some 4
      else
      if hs <=. h && h <=. hmax then
        some 2
      else
        none
    else
      none) <|
  Option.getD (if s2ab <=. s && s <. s4v then
      let hmin := h4l + (s - s4l) / (s4v - s4l) * (h4v - h4l)
      let hs := hs_region_h2ab_s s
      let p := hs2p_reg2 h s
      let hmax := pT2h_reg2 p 1073.15
      if hmin <=. h && h <. hs then
        some 4
      else
      if hs <=. h && h <=. hmax then
        some 2
      else
        none
    else
      none) <|
  if s4v <=. s && s <=. smax then
    let hmin := pT2h_reg2 P_MIN 273.15
    let p := hs2p_reg2a h s
    let hmax := pT2h_reg2 p 1073.15
    if P_MIN <=. p && p <=. 100.0 && hmin <=. h && h <=. hmax then
      2
    else
    INVALID_VALUE
  else
    INVALID_VALUE

/-- `src/common/region.rs:427-481` pv_sub_region -/
def pv_sub_region (p : F) (v : F) : Int :=
  if p <. P_MIN2 || p >. P_MAX2 then
    INVALID_VALUE
  else
  let vt273 : F := pT2v_reg1 p 273.15
  let vt1073 : F := pT2v_reg2 p 1073.15
  let vt2273 : F := 0.0
  let vt2273 :=
    if p >=. P_MIN5 && p <=. P_MAX5 then
      pT2v_reg5 p 2273.15
    else
      vt2273
  let vsw : F := 0.0
  let vss : F := 0.0
  let vt623 : F := 0.0
  let vB23 : F := 0.0
  let (vsw, vss, vt623, vB23) :=
    if p >. 0.000611213 && p <=. P_MIN3 then
      let T1 := T_saturation p
      let vsw := pT2v_reg1 p T1
      let vss := pT2v_reg2 p T1
      (vsw, vss, vt623, vB23)
    else if p >. P_MIN3 && p <=. P_MAX3 then
      let vt623 := pT2v_reg1 p 623.15
      let T1 := B23_p2T p
      let vB23 := pT2v_reg2 p T1
      if p <=. PC_WATER then
        let T1 := T_saturation p
        let vsw := pT2v_sat_reg3 p T1 0.0
        let vss := pT2v_sat_reg3 p T1 1.0
        (vsw, vss, vt623, vB23)
      else
        (vsw, vss, vt623, vB23)
    else
      (vsw, vss, vt623, vB23)
  if p >=. P_MIN1 && p <=. P_MIN3 && (v >=. vt273 && v <=. vsw) || p >. P_MIN3 && p <=. P_MAX1 && (v >=. vt273 && v <=. vt623) then
    1
  else
  if p >=. P_MIN2 && p <=. P_MIN3 && v >. vss && v <=. vt1073 || p >. P_MIN3 && p <=. P_MAX2 && v >=. vB23 && v <=. vt1073 then
    2
  else
  if p >. P_MIN3 && p <=. PC_WATER && (v >. vt623 && v <. vsw || v >. vss && v <. vB23) || p >. PC_WATER && p <=. P_MAX3 && v >. vt623 && v <. vB23 then
    3
  else
  if p >. P_MIN && p <=. PC_WATER && v >=. vsw && v <=. vss then
    4
  else
  if p >. P_MIN5 && p <=. P_MAX5 && v >. vt1073 && v <=. vt2273 then
    5
  else
  INVALID_VALUE

/-- `src/common/region.rs:484-556` tv_sub_region -/
def tv_sub_region (t : F) (v : F) : Int :=
  let T : F := t + 273.15
  if T <. 273.15 || T >. 2273.15 then
    INVALID_VALUE
  else
  let vpmax2 : F := 0.0
  let vpmax2 :=
    if T >=. T_MIN2 && T <=. T_MAX2 then
      pT2v_reg2 P_MIN2 T
    else
      vpmax2
  let vpmax5 : F := 0.0
  let vp50 : F := 0.0
  let (vpmax5, vp50) :=
    if T >=. T_MIN5 && T <=. T_MAX5 then
      let vpmax5 := pT2v_reg5 P_MIN5 T
      let vp50 := pT2v_reg5 50.0 T
      (vpmax5, vp50)
    else
      (vpmax5, vp50)
  let vp100 : F := 0.0
  let vp100 :=
    if T >=. T_MIN1 && T <=. T_MAX1 then
      pT2v_reg1 100.0 T
    else
      vp100
  let vp100 :=
    if T >. T_MIN3 && T <=. T_MAX3 then
      pT2v_reg3 100.0 T
    else
      vp100
  let vp100 :=
    if T >. T_MAX3 && T <=. T_MAX2 then
      pT2v_reg2 100.0 T
    else
      vp100
  let vsw : F := 0.0
  let vss : F := 0.0
  let vB23 : F := 0.0
  let (vsw, vss, vB23) :=
    if T >=. T_MIN1 && T <=. T_MAX1 then
      let vsw := T2sat_water T OV
      let vss := T2sat_steam T OV
      (vsw, vss, vB23)
    else if T >. T_MIN3 && T <=. T_MAX3 then
      let p1 := B23_T2p T
      let vB23 := pT2v_reg2 p1 T
      if T <=. TC_WATER then
        let p1 := p_saturation T
        let vsw := pT2v_sat_reg3 p1 T 0.0
        let vss := pT2v_sat_reg3 p1 T 1.0
        (vsw, vss, vB23)
      else
        (vsw, vss, vB23)
    else
      (vsw, vss, vB23)
  if T >=. T_MIN1 && T <=. T_MAX1 && v <. vsw && v >. vp100 then
    1
  else
  if T >=. T_MIN2 && T <=. T_MAX1 && v >. vss && v <. vpmax2 || T >. T_MAX1 && T <=. T_MAX3 && v >=. vB23 && v <. vpmax2 then
    2
  else
  if T >. T_MIN3 && T <=. TC_WATER && (v >. vss && v <. vB23 || v >=. vp100 && v <. vsw) || T >. TC_WATER && T <=. T_MAX3 && v >=. vp100 && v <. vB23 then
    3
  else
  if T >=. T_MIN1 && T <=. TC_WATER && v >=. vsw && v <=. vss then
    4
  else
  if T >. T_MIN5 && T <=. T_MAX5 && v >=. vp50 && v <=. vpmax5 then
    5
  else
  INVALID_VALUE

/-- `src/common/region.rs:658-733` ts_sub_region -/
def ts_sub_region (t : F) (s : F) : Int :=
  let T : F := t + 273.15
  if T <. 273.15 || T >. 2273.15 then
    INVALID_T
  else
  if s >. S_MAX || s <. S_MIN then
    INVALID_S
  else
  let spmax2 : F := 0.0
  let spmax2 :=
    if T >=. T_MIN2 && T <=. T_MAX2 then
      pT2s_reg2 P_MIN2 T
    else
      spmax2
  let spmax5 : F := 0.0
  let sp50 : F := 0.0
  let (spmax5, sp50) :=
    if T >=. T_MIN5 && T <=. T_MAX5 then
      let spmax5 := pT2s_reg5 P_MIN5 T
      let sp50 := pT2s_reg5 50.0 T
      (spmax5, sp50)
    else
      (spmax5, sp50)
  let sp100 : F := 0.0
  let sp100 :=
    if T >=. T_MIN1 && T <=. T_MAX1 then
      pT2s_reg1 100.0 T
    else
      sp100
  let sp100 :=
    if T >. T_MIN3 && T <=. T_MAX3 then
      pT_reg3 100.0 T OS
    else
      sp100
  let sp100 :=
    if T >. T_MAX3 && T <=. T_MAX2 then
      pT2s_reg2 100.0 T
    else
      sp100
  let ssw : F := 0.0
  let sss : F := 0.0
  let sB23 : F := 0.0
  let (ssw, sss, sB23) :=
    if T >=. T_MIN1 && T <=. T_MAX1 then
      let p1 := p_saturation T
      let ssw := pT2s_reg1 p1 T
      let sss := pT2s_reg2 p1 T
      (ssw, sss, sB23)
    else if T >. T_MIN3 && T <=. T_MAX3 then
      let p1 := B23_T2p T
      let sB23 := pT2s_reg2 p1 T
      if T <=. TC_WATER then
        let p1 := p_saturation T
        let v : F := pT2v_sat_reg3 p1 T 0.0
        let ssw := Td2s_reg3 T (1.0 / v)
        let v := pT2v_sat_reg3 p1 T 1.0
        let sss := Td2s_reg3 T (1.0 / v)
        (ssw, sss, sB23)
      else
        (ssw, sss, sB23)
    else
      (ssw, sss, sB23)
  if T >=. T_MIN1 && T <=. T_MAX1 && s <. ssw && s >. sp100 then
    1
  else
  if T >=. T_MIN2 && T <=. T_MAX1 && s >. sss && s <. spmax2 || T >. T_MAX1 && T <=. T_MAX3 && s >=. sB23 && s <. spmax2 then
    2
  else
  if T >. T_MIN3 && T <=. TC_WATER && (s >. sss && s <. sB23 || s >=. sp100 && s <. ssw) || T >. TC_WATER && T <=. T_MAX3 && s >=. sp100 && s <. sB23 then
    3
  else
  if T >=. T_MIN1 && T <=. TC_WATER && s >=. ssw && s <=. sss then
    4
  else
  if T >. T_MIN5 && T <=. T_MAX5 && s >=. sp50 && s <=. spmax5 then
    5
  else
  INVALID_VALUE

end If97
