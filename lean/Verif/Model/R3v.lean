/-
Generated by tools/rs2lean.py from the Rust sources cited below.
Number type `F` is abstract; see Verif/Model/Num.lean for the conventions.
-/
import Verif.Model.R3vSub
set_option linter.unusedVariables false

namespace If97
open Flt
variable {F : Type} [Add F] [Sub F] [Mul F] [Div F] [Neg F] [OfScientific F] [Flt F]

/-! ### src/r3/region3_v_pT.rs -/

/-- `src/r3/region3_v_pT.rs`:16 -/
def T_atRegionBoundary_I3ab : List Int :=
  [ 0,
    0,
    1,
    2,
    -1,
    -2 ]

/-- `src/r3/region3_v_pT.rs`:17 -/
def T_atRegionBoundary_I3cd : List Int :=
  [ 0,
    0,
    1,
    2,
    3 ]

/-- `src/r3/region3_v_pT.rs`:18 -/
def T_atRegionBoundary_I3gh : List Int :=
  [ 0,
    0,
    1,
    2,
    3,
    4 ]

/-- `src/r3/region3_v_pT.rs`:19 -/
def T_atRegionBoundary_I3ij : List Int :=
  [ 0,
    0,
    1,
    2,
    3,
    4 ]

/-- `src/r3/region3_v_pT.rs`:20 -/
def T_atRegionBoundary_I3jk : List Int :=
  [ 0,
    0,
    1,
    2,
    3,
    4 ]

/-- `src/r3/region3_v_pT.rs`:21 -/
def T_atRegionBoundary_I3mn : List Int :=
  [ 0,
    0,
    1,
    2,
    3 ]

/-- `src/r3/region3_v_pT.rs`:22 -/
def T_atRegionBoundary_I3op : List Int :=
  [ 0,
    0,
    1,
    2,
    -1,
    -2 ]

/-- `src/r3/region3_v_pT.rs`:23 -/
def T_atRegionBoundary_I3qu : List Int :=
  [ 0,
    0,
    1,
    2,
    3 ]

/-- `src/r3/region3_v_pT.rs`:24 -/
def T_atRegionBoundary_I3rx : List Int :=
  [ 0,
    0,
    1,
    2,
    3 ]

/-- `src/r3/region3_v_pT.rs`:25 -/
def T_atRegionBoundary_I3uv : List Int :=
  [ 0,
    0,
    1,
    2,
    3 ]

/-- `src/r3/region3_v_pT.rs`:26 -/
def T_atRegionBoundary_I3wx : List Int :=
  [ 0,
    0,
    1,
    2,
    -1,
    -2 ]

/-- `src/r3/region3_v_pT.rs`:28-35 -/
def T_atRegionBoundary_n3ab : List F :=
  [ 0.0,
    0.154793642129415e4,
    -0.187661219490113e3,
    0.213144632222113e2,
    -0.191887498864292e4,
    0.918419702359447e3 ]

/-- `src/r3/region3_v_pT.rs`:36 -/
def T_atRegionBoundary_n3cd : List F :=
  [ 0.0,
    0.585276966696349e3,
    0.278233532206915e1,
    -0.127283549295878e-1,
    0.159090746562729e-3 ]

/-- `src/r3/region3_v_pT.rs`:37-44 -/
def T_atRegionBoundary_n3gh : List F :=
  [ 0.0,
    -0.249284240900418e5,
    0.428143584791546e4,
    -0.269029173140130e3,
    0.751608051114157e1,
    -0.787105249910383e-1 ]

/-- `src/r3/region3_v_pT.rs`:45-52 -/
def T_atRegionBoundary_n3ij : List F :=
  [ 0.0,
    0.584814781649163e3,
    -0.616179320924617,
    0.260763050899562,
    -0.587071076864459e-2,
    0.515308185433082e-4 ]

/-- `src/r3/region3_v_pT.rs`:53-60 -/
def T_atRegionBoundary_n3jk : List F :=
  [ 0.0,
    0.617229772068439e3,
    -0.770600270141675e1,
    0.697072596851896,
    -0.157391839848015e-1,
    0.137897492684194e-3 ]

/-- `src/r3/region3_v_pT.rs`:61 -/
def T_atRegionBoundary_n3mn : List F :=
  [ 0.0,
    0.535339483742384e3,
    0.761978122720128e1,
    -0.158365725441648,
    0.192871054508108e-2 ]

/-- `src/r3/region3_v_pT.rs`:62-69 -/
def T_atRegionBoundary_n3op : List F :=
  [ 0.0,
    0.969461372400213e3,
    -0.332500170441278e3,
    0.642859598466067e2,
    0.773845935768222e3,
    -0.152313732937084e4 ]

/-- `src/r3/region3_v_pT.rs`:70 -/
def T_atRegionBoundary_n3qu : List F :=
  [ 0.0,
    0.565603648239126e3,
    0.529062258221222e1,
    -0.102020639611016,
    0.122240301070145e-2 ]

/-- `src/r3/region3_v_pT.rs`:71 -/
def T_atRegionBoundary_n3rx : List F :=
  [ 0.0,
    0.584561202520006e3,
    -0.102961025163669e1,
    0.243293362700452,
    -0.294905044740799e-2 ]

/-- `src/r3/region3_v_pT.rs`:72 -/
def T_atRegionBoundary_n3uv : List F :=
  [ 0.0,
    0.528199646263062e3,
    0.890579602135307e1,
    -0.222814134903755,
    0.286791682263697e-2 ]

/-- `src/r3/region3_v_pT.rs`:73-80 -/
def T_atRegionBoundary_n3wx : List F :=
  [ 0.0,
    0.728052609145380e1,
    0.973505869861952e2,
    0.147370491183191e2,
    0.329196213998375e3,
    0.873371668682417e3 ]

/-- `src/r3/region3_v_pT.rs:15-145` T_atRegionBoundary -/
def T_atRegionBoundary (p : F) (boundary : String) : F :=
  let T : F := 0.0
  let T :=
    if boundary == "3ab" then
      let T := (List.range' 1 5).foldl (fun T i =>
          T + nthF T_atRegionBoundary_n3ab i * powi (fln p) (nthI T_atRegionBoundary_I3ab i)) T
      T
    else if boundary == "3op" then
      let T := (List.range' 1 5).foldl (fun T i =>
          T + nthF T_atRegionBoundary_n3op i * powi (fln p) (nthI T_atRegionBoundary_I3op i)) T
      T
    else if boundary == "3ef" then
      3.727888004 * (p - 22.064) + 647.096
    else if boundary == "3cd" then
      let T := (List.range' 1 4).foldl (fun T i =>
          T + nthF T_atRegionBoundary_n3cd i * powi p (nthI T_atRegionBoundary_I3cd i)) T
      T
    else if boundary == "3gh" then
      let T := (List.range' 1 5).foldl (fun T i =>
          T + nthF T_atRegionBoundary_n3gh i * powi p (nthI T_atRegionBoundary_I3gh i)) T
      T
    else if boundary == "3ij" then
      let T := (List.range' 1 5).foldl (fun T i =>
          T + nthF T_atRegionBoundary_n3ij i * powi p (nthI T_atRegionBoundary_I3ij i)) T
      T
    else if boundary == "3jk" then
      let T := (List.range' 1 5).foldl (fun T i =>
          T + nthF T_atRegionBoundary_n3jk i * powi p (nthI T_atRegionBoundary_I3jk i)) T
      T
    else if boundary == "3mn" then
      let T := (List.range' 1 4).foldl (fun T i =>
          T + nthF T_atRegionBoundary_n3mn i * powi p (nthI T_atRegionBoundary_I3mn i)) T
      T
    else if boundary == "3qu" then
      let T := (List.range' 1 4).foldl (fun T i =>
          T + nthF T_atRegionBoundary_n3qu i * powi p (nthI T_atRegionBoundary_I3qu i)) T
      T
    else if boundary == "3rx" then
      let T := (List.range' 1 4).foldl (fun T i =>
          T + nthF T_atRegionBoundary_n3rx i * powi p (nthI T_atRegionBoundary_I3rx i)) T
      T
    else if boundary == "3uv" then
      let T := (List.range' 1 4).foldl (fun T i =>
          T + nthF T_atRegionBoundary_n3uv i * powi p (nthI T_atRegionBoundary_I3uv i)) T
      T
    else if boundary == "3wx" then
      let T := (List.range' 1 5).foldl (fun T i =>
          T + nthF T_atRegionBoundary_n3wx i * powi (fln p) (nthI T_atRegionBoundary_I3wx i)) T
      T
    else
      T
  T

/-- `src/r3/region3_v_pT.rs:151-185` pT2v_sat_reg3 -/
def pT2v_sat_reg3 (p : F) (T : F) (x : F) : F :=
  let subRegion :=
    if x ==. 0.0 then
      if p <. 19.0088 then
        'c'
      else if p <. 21.0434 then
        's'
      else if p <. 21.9316 then
        'u'
      else
        'y'
    else if p <. 20.5 then
      't'
    else if p <. 21.0434 then
      'r'
    else if p <. 21.9009 then
      'x'
    else
      'z'
  pT2v_3subreg p T subRegion

/-- `src/r3/region3_v_pT.rs:188-392` sub_region3_pT -/
def sub_region3_pT (p : F) (T : F) : Char :=
  if p >. 40.0 && p <=. 100.0 then
    let tB : F := T_atRegionBoundary p "3ab"
    let subRegion :=
      if T >. tB then
        'b'
      else
        'a'
    subRegion
  else if p >. 25.0 then
    let tBab : F := T_atRegionBoundary p "3ab"
    let tBcd : F := T_atRegionBoundary p "3cd"
    let tBef : F := T_atRegionBoundary p "3ef"
    let subRegion :=
      if T <=. tBcd then
        'c'
      else if T <=. tBab then
        'd'
      else if T <=. tBef then
        'e'
      else
        'f'
    subRegion
  else if p >. 23.5 then
    let tBcd : F := T_atRegionBoundary p "3cd"
    let tBef : F := T_atRegionBoundary p "3ef"
    let tBgh : F := T_atRegionBoundary p "3gh"
    let tBij : F := T_atRegionBoundary p "3ij"
    let tBjk : F := T_atRegionBoundary p "3jk"
    let subRegion :=
      if T <=. tBcd then
        'c'
      else if T <=. tBgh then
        'g'
      else if T <=. tBef then
        'h'
      else if T <=. tBij then
        'i'
      else if T <=. tBjk then
        'j'
      else
        'k'
    subRegion
  else if p >. 23.0 then
    let tBcd : F := T_atRegionBoundary p "3cd"
    let tBef : F := T_atRegionBoundary p "3ef"
    let tBgh : F := T_atRegionBoundary p "3gh"
    let tBij : F := T_atRegionBoundary p "3ij"
    let tBjk : F := T_atRegionBoundary p "3jk"
    let subRegion :=
      if T <=. tBcd then
        'c'
      else if T <=. tBgh then
        'l'
      else if T <=. tBef then
        'h'
      else if T <=. tBij then
        'i'
      else if T <=. tBjk then
        'j'
      else
        'k'
    subRegion
  else if p >. 22.5 then
    let tBcd : F := T_atRegionBoundary p "3cd"
    let tBef : F := T_atRegionBoundary p "3ef"
    let tBgh : F := T_atRegionBoundary p "3gh"
    let tBij : F := T_atRegionBoundary p "3ij"
    let tBjk : F := T_atRegionBoundary p "3jk"
    let tBmn : F := T_atRegionBoundary p "3mn"
    let tBop : F := T_atRegionBoundary p "3op"
    let subRegion :=
      if T <=. tBcd then
        'c'
      else if T <=. tBgh then
        'l'
      else if T <=. tBmn then
        'm'
      else if T <=. tBef then
        'n'
      else if T <=. tBop then
        'o'
      else if T <=. tBij then
        'p'
      else if T <=. tBjk then
        'j'
      else
        'k'
    subRegion
  else
    let p_sat : F := p_saturation 643.15
    if p >. p_sat then
      let tBcd : F := T_atRegionBoundary p "3cd"
      let tBqu : F := T_atRegionBoundary p "3qu"
      let tBrx : F := T_atRegionBoundary p "3rx"
      let tBjk : F := T_atRegionBoundary p "3jk"
      Option.getD (if T <=. tBcd then
          none
        else if T <=. tBqu then
          let subRegion := 'q'
          some subRegion
        else
          none) <|
      if T >. tBrx && T <=. tBjk then
        let subRegion := 'r'
        subRegion
      else
      let tBuv : F := T_atRegionBoundary p "3uv"
      let tBwx : F := T_atRegionBoundary p "3wx"
      let tBef : F := T_atRegionBoundary p "3ef"
      let subRegion :=
        if p >. 22.11 then
          if T <=. tBuv then
            'u'
          else if T <. tBef then
            'v'
          else if T <. tBwx then
            'w'
          else
            'x'
        else if p >. 22.064 then
          let tBwx : F := T_atRegionBoundary p "3wx"
          let tBuv : F := T_atRegionBoundary p "3uv"
          if T <=. tBuv then
            'u'
          else if T <=. tBef then
            'y'
          else if T <=. tBwx then
            'z'
          else
            'x'
        else
          let T_sat : F := T_saturation p
          if T <=. T_sat then
            if p >. 21.93161551 then
              if T <. tBuv then
                'u'
              else
                'y'
            else
              'u'
          else if p >. 21.90096265 then
            if T <. tBwx then
              'z'
            else
              'x'
          else
            'x'
      subRegion
    else
      let subRegion :=
        if p >. 20.5 then
          let tBcd : F := T_atRegionBoundary p "3cd"
          let tBjk : F := T_atRegionBoundary p "3jk"
          let T_sat : F := T_saturation p
          if T <=. tBcd then
            'c'
          else if T <=. T_sat then
            's'
          else if T <=. tBjk then
            'r'
          else
            'k'
        else if p >. 19.00881189173929 then
          let tBcd : F := T_atRegionBoundary p "3cd"
          let T_sat : F := T_saturation p
          if T <=. tBcd then
            'c'
          else if T <=. T_sat then
            's'
          else
            't'
        else
          let T_sat : F := T_saturation p
          if T <=. T_sat then
            'c'
          else
            't'
      subRegion

/-- `src/r3/region3_v_pT.rs:394-397` pT2v_reg3 -/
def pT2v_reg3 (p : F) (T : F) : F :=
  let sub_region : Char := sub_region3_pT p T
  pT2v_3subreg p T sub_region

end If97
