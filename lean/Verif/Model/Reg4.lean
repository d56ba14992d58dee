/-
Generated by tools/rs2lean.py from the Rust sources cited below.
Number type `F` is abstract; see Verif/Model/Num.lean for the conventions.
-/
import Verif.Model.Reg1
import Verif.Model.Reg2
import Verif.Model.Reg3
set_option linter.unusedVariables false

namespace If97
open Flt
variable {F : Type} [Add F] [Sub F] [Mul F] [Div F] [Neg F] [OfScientific F] [Flt F]

/-! ### src/r4/region4_pTx.rs -/

/-- `src/r4/region4_pTx.rs:17-48` p2sat_water -/
def p2sat_water (p : F) (o_id : Int) : F :=
  if o_id == OP then
    p
  else
  let T : F := T_saturation p
  if o_id == OT then
    T - 273.15
  else
  if p >=. P_MIN && p <=. Ps_623 then
    pT_reg1 p T o_id
  else
    let v :=
      if fabs (p - PC_WATER) <. FLOAT_ERROR then
        1.0 / 322.0
      else
        pT2v_sat_reg3 p T 0.0
    if o_id == OV then
      v
    else
    let d : F := 1.0 / v
    if o_id == OD then
      d
    else
    Td_reg3 T d o_id

/-- `src/r4/region4_pTx.rs:51-81` p2sat_steam -/
def p2sat_steam (p : F) (o_id : Int) : F :=
  if o_id == OP then
    p
  else
  let T : F := T_saturation p
  if o_id == OT then
    T - 273.15
  else
  if p >=. P_MIN && p <=. Ps_623 then
    pT_reg2 p T o_id
  else
    let v :=
      if fabs (p - PC_WATER) <. FLOAT_ERROR then
        1.0 / 322.0
      else
        pT2v_sat_reg3 p T 1.0
    if o_id == OV then
      v
    else
    let d : F := 1.0 / v
    if o_id == OD then
      d
    else
    Td_reg3 T d o_id

/-- `src/r4/region4_pTx.rs:83-124` T2sat_water -/
def T2sat_water (T : F) (o_id : Int) : F :=
  if o_id == OT then
    T
  else
  let p :=
    if fabs (T - TC_WATER) <. FLOAT_ERROR then
      PC_WATER
    else
      p_saturation T
  if o_id == OP then
    p
  else
  if T <=. 623.15 then
    pT_reg1 p T o_id
  else
    let rest := fun (v : F) =>
      if o_id == OV then
        v
      else
      let d : F := 1.0 / v
      if o_id == OD then
        d
      else
      Td_reg3 T d o_id
    if fabs (T - TC_WATER) <. FLOAT_ERROR then
      if o_id == OS then
        SC_WATER
      else
      if o_id == OH then
        HC_WATER
      else
      let v := 1.0 / 322.0
      rest v
    else
      let v := pT2v_sat_reg3 p T 0.0
      rest v

/-- `src/r4/region4_pTx.rs:126-166` T2sat_steam -/
def T2sat_steam (T : F) (o_id : Int) : F :=
  if o_id == OT then
    T
  else
  let p :=
    if fabs (T - TC_WATER) <. FLOAT_ERROR then
      PC_WATER
    else
      p_saturation T
  if o_id == OP then
    p
  else
  if T <=. 623.15 then
    pT_reg2 p T o_id
  else
    let rest := fun (v : F) =>
      let d : F := 1.0 / v
      if o_id == OD then
        d
      else
      Td_reg3 T d o_id
    if fabs (T - TC_WATER) <. FLOAT_ERROR then
      if o_id == OS then
        SC_WATER
      else
      if o_id == OH then
        HC_WATER
      else
      let v := 1.0 / 322.0
      if o_id == OV then
        v
      else
        rest v
    else
      let v := pT2v_sat_reg3 p T 1.0
      rest v

/-- `src/r4/region4_pTx.rs:169-198` px_reg4 -/
def px_reg4 (p : F) (x : F) (o_id : Int) : F :=
  if x ==. 0.0 then
    p2sat_water p o_id
  else
  if x ==. 1.0 then
    p2sat_steam p o_id
  else
  let T : F := T_saturation p
  if o_id == OT then
    T - 273.15
  else if o_id == OH || o_id == OS || o_id == OV || o_id == OD || o_id == OU || o_id == OF || o_id == OG || o_id == OE then
    let (rl, rv) :=
      if T >. 623.15 then
        let dl : F := 1.0 / pT2v_sat_reg3 p T 0.0
        let rl := Td_reg3 T dl o_id
        let dv : F := 1.0 / pT2v_sat_reg3 p T 1.0
        let rv := Td_reg3 T dv o_id
        (rl, rv)
      else
        let rl := pT_reg1 p T o_id
        let rv := pT_reg2 p T o_id
        (rl, rv)
    let r := rl + x * (rv - rl)
    r
  else
    ofI32 INVALID_OUTID

/-- `src/r4/region4_pTx.rs:200-231` Tx_reg4 -/
def Tx_reg4 (T : F) (x : F) (o_id : Int) : F :=
  let p : F := p_saturation T
  if o_id == OP then
    p
  else
  if x ==. 0.0 then
    T2sat_water T o_id
  else
  if x ==. 1.0 then
    T2sat_steam T o_id
  else
  if o_id == OH || o_id == OS || o_id == OV || o_id == OD || o_id == OU || o_id == OF || o_id == OG || o_id == OE then
    let (rl, rv) :=
      if T >. 623.15 then
        let dl : F := 1.0 / pT2v_sat_reg3 p T 0.0
        let rl := Td_reg3 T dl o_id
        let dv : F := 1.0 / pT2v_sat_reg3 p T 1.0
        let rv := Td_reg3 T dv o_id
        (rl, rv)
      else
        let rl := pT_reg1 p T o_id
        let rv := pT_reg2 p T o_id
        (rl, rv)
    let r := rl + x * (rv - rl)
    r
  else
    ofI32 INVALID_OUTID

/-! ### src/r4/region4_pair_ext.rs -/

/-- `src/r4/region4_pair_ext.rs:10-14` pv2x_reg4 -/
def pv2x_reg4 (p : F) (v : F) : F :=
  let v_sat_w : F := p2sat_water p OV
  let v_sat_s : F := p2sat_steam p OV
  (v - v_sat_w) / (v_sat_s - v_sat_w)

/-- `src/r4/region4_pair_ext.rs:17-21` Tv2x_reg4 -/
def Tv2x_reg4 (T : F) (v : F) : F :=
  let v_sat_w : F := T2sat_water T OV
  let v_sat_s : F := T2sat_steam T OV
  (v - v_sat_w) / (v_sat_s - v_sat_w)

/-- `src/r4/region4_pair_ext.rs:24-28` Th2x_reg4 -/
def Th2x_reg4 (T : F) (h : F) : F :=
  let h_sat_w : F := T2sat_water T OH
  let h_sat_s : F := T2sat_steam T OH
  (h - h_sat_w) / (h_sat_s - h_sat_w)

/-- `src/r4/region4_pair_ext.rs:31-35` Ts2x_reg4 -/
def Ts2x_reg4 (T : F) (s : F) : F :=
  let s_sat_w : F := T2sat_water T OS
  let s_sat_s : F := T2sat_steam T OS
  (s - s_sat_w) / (s_sat_s - s_sat_w)

/-! ### src/r4/region4_T_hs.rs -/

/-- `src/r4/region4_T_hs.rs`:16 -/
def s4L_623 : F := 3.778281340

/-- `src/r4/region4_T_hs.rs`:17 -/
def s4V_623 : F := 5.210887825

/-- `src/r4/region4_T_hs.rs`:18 -/
def h4V_623 : F := 2.5635920043e3

/-- `src/r4/region4_T_hs.rs`:19 -/
def s4L_273 : F := -1.545495919e-4

/-- `src/r4/region4_T_hs.rs`:20 -/
def s4V_273 : F := 9.155759395

/-- `src/r4/region4_T_hs.rs`:25-62 -/
def hs2T_reg43_IJn : List (Int × Int × F) :=
  [ (0, 0, 0.179882673606601),
    (0, 3, -0.267507455199603),
    (0, 12, 0.116276722612600e1),
    (1, 0, 0.147545428713616),
    (1, 1, -0.512871635973248),
    (1, 2, 0.421333567697984),
    (1, 5, 0.563749522189870),
    (2, 0, 0.429274443819153),
    (2, 5, -0.335704552142140e1),
    (2, 8, 0.108890916499278e2),
    (3, 0, -0.248483390456012),
    (3, 2, 0.304153221906390),
    (3, 3, -0.494819763939905),
    (3, 4, 0.107551674933261e1),
    (4, 0, 0.733888415457688e-1),
    (4, 1, 0.140170545411085e-1),
    (5, 1, -0.106110975998808),
    (5, 2, 0.168324361811875e-1),
    (5, 4, 0.125028363714877e1),
    (5, 16, 0.101316840309509e4),
    (6, 6, -0.151791558000712e1),
    (6, 8, 0.524277865990866e2),
    (6, 22, 0.230495545563912e5),
    (8, 1, 0.249459806365456e-1),
    (10, 20, 0.210796467412137e7),
    (10, 36, 0.366836848613065e9),
    (12, 24, -0.144814105365163e9),
    (14, 1, -0.179276373003590e-2),
    (14, 28, 0.489955602100459e10),
    (16, 12, 0.471262212070518e3),
    (16, 32, -0.829294390198652e11),
    (18, 14, -0.171545662263191e4),
    (18, 22, 0.355777682973575e7),
    (18, 36, 0.586062760258436e12),
    (20, 24, -0.129887635078195e8),
    (28, 36, 0.317247449371057e11) ]

/-- `src/r4/region4_T_hs.rs:23-71` hs2T_reg43 -/
def hs2T_reg43 (h : F) (s : F) : F :=
  if s <. s4V_623 then
    ofI32 INVALID_S
  else
  let nu : F := h / 2800.0 - 0.119
  let sigma : F := s / 9.2 - 1.07
  let suma : F := poly_powi nu sigma hs2T_reg43_IJn
  550.0 * suma

/-! ### src/r4/region4.rs -/

/-- `src/r4/region4.rs:11-13` p_sat -/
def p_sat (t : F) : F :=
  p_saturation (t + K)

/-- `src/r4/region4.rs:15-17` t_sat -/
def t_sat (p : F) : F :=
  T_saturation p - K

/-- `src/r4/region4.rs:20-26` pT_reg4 -/
def pT_reg4 (p : F) (T : F) (o_id : Int) : F :=
  if T ==. TC_WATER && p ==. PC_WATER then
    Td_reg3 TC_WATER DC_WATER o_id
  else
    4.0

/-- `src/r4/region4.rs:28-36` ph_reg4 -/
def ph_reg4 (p : F) (h : F) (o_id : Int) : F :=
  let h1 : F := p2sat_water p OH
  let h2 : F := p2sat_steam p OH
  let x : F := (h - h1) / (h2 - h1)
  if o_id == OX then
    x
  else
  px_reg4 p x o_id

/-- `src/r4/region4.rs:38-47` ps_reg4 -/
def ps_reg4 (p : F) (s : F) (o_id : Int) : F :=
  let s1 : F := p2sat_water p OS
  let s2 : F := p2sat_steam p OS
  let x : F := (s - s1) / (s2 - s1)
  if o_id == OX then
    x
  else
  px_reg4 p x o_id

/-- `src/r4/region4.rs:81-87` pv_reg4 -/
def pv_reg4 (p : F) (v : F) (o_id : Int) : F :=
  let x : F := pv2x_reg4 p v
  if o_id == OX then
    x
  else
  px_reg4 p x o_id

/-- `src/r4/region4.rs:90-96` tv_reg4 -/
def tv_reg4 (t : F) (v : F) (o_id : Int) : F :=
  let x : F := Tv2x_reg4 (t + 273.15) v
  if o_id == OX then
    x
  else
  Tx_reg4 (t + 273.15) x o_id

/-- `src/r4/region4.rs:99-105` th_reg4 -/
def th_reg4 (t : F) (h : F) (o_id : Int) : F :=
  let x : F := Th2x_reg4 (t + 273.15) h
  if o_id == OX then
    x
  else
  Tx_reg4 (t + 273.15) x o_id

/-- `src/r4/region4.rs:108-114` ts_reg4 -/
def ts_reg4 (t : F) (s : F) (o_id : Int) : F :=
  let x : F := Ts2x_reg4 (t + 273.15) s
  if o_id == OX then
    x
  else
  Tx_reg4 (t + 273.15) x o_id

/-- `src/r4/region4.rs:117-121` Ty2x_residuals -/
def Ty2x_residuals (T : F) (x : F) (y : F) (y_id : Int) : F :=
  let sw : F := T2sat_water T y_id
  let ss : F := T2sat_steam T y_id
  (y - sw) / (ss - sw) - x

end If97
