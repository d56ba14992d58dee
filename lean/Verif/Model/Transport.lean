/-
Generated by tools/rs2lean.py from the Rust sources cited below.
Number type `F` is abstract; see Verif/Model/Num.lean for the conventions.
-/
import Verif.Model.Poly
import Verif.Model.Const
set_option linter.unusedVariables false

namespace If97
open Flt
variable {F : Type} [Add F] [Sub F] [Mul F] [Div F] [Neg F] [OfScientific F] [Flt F]

/-! ### src/common/transport_further.rs -/

/-- `src/common/transport_further.rs:17-19` prandtl_number -/
def prandtl_number (dv : F) (cp : F) (tc : F) : F :=
  1.0e3 * dv * cp / tc

/-- `src/common/transport_further.rs:26-28` thermal_diffusivity -/
def thermal_diffusivity (tc : F) (cp : F) (d : F) : F :=
  1.0e-3 * tc / (cp * d)

/-- `src/common/transport_further.rs` -/
def viscosity_no : List F := [1.67752, 2.20462, 0.6366564, -0.241605]

/-- `src/common/transport_further.rs`:48-70 -/
def viscosity_ijH : List (Int × Int × F) :=
  [ (0, 0, 5.20094e-1),
    (1, 0, 8.50895e-2),
    (2, 0, -1.08374),
    (3, 0, -2.89555e-1),
    (0, 1, 2.22531e-1),
    (1, 1, 9.99115e-1),
    (2, 1, 1.88797),
    (3, 1, 1.26613),
    (5, 1, 1.20573e-1),
    (0, 2, -2.81378e-1),
    (1, 2, -9.06851e-1),
    (2, 2, -7.72479e-1),
    (3, 2, -4.89837e-1),
    (4, 2, -2.57040e-1),
    (0, 3, 1.61913e-1),
    (1, 3, 2.57399e-1),
    (0, 4, -3.25372e-2),
    (3, 4, 6.98452e-2),
    (4, 5, 8.72102e-3),
    (3, 6, -4.35673e-3),
    (5, 6, -5.93264e-4) ]

/-- `src/common/transport_further.rs:36-76` viscosity -/
def viscosity (rho : F) (T : F) : F :=
  let Tr : F := T / TC_WATER
  let Dr : F := rho / DC_WATER
  let suma : F := 0.0
  let suma := (List.range' 0 4).foldl (fun suma i =>
      suma + nthF viscosity_no i / powi Tr (i : Int)) suma
  let fi0 : F := 100.0 * fsqrt Tr / suma
  let suma := poly_powi (1.0 / Tr - 1.0) (Dr - 1.0) viscosity_ijH
  let fi1 : F := fexp (Dr * suma)
  let fi2 : F := 1.0
  fi0 * fi1 * fi2 * 1.0e-6

/-- `src/common/transport_further.rs`:87 -/
def thcond_no : List F :=
  [ 2.443221e-3,
    1.323095e-2,
    6.770357e-3,
    -3.454586e-3,
    4.096266e-4 ]

/-- `src/common/transport_further.rs`:95-101 -/
def thcond_nij : List (List F) :=
  [ [1.60397357, -0.646013523, 0.111443906, 0.102997357, -0.0504123634, 0.00609859258],
    [2.33771842, -2.78843778, 1.53616167, -0.463045512, 0.0832827019, -0.00719201245],
    [2.19650529, -4.54580785, 3.55777244, -1.40944978, 0.275418278, -0.0205938816],
    [-1.21051378, 1.60812989, -0.621178141, 0.0716373224, 0.0, 0.0],
    [-2.7203370, 4.57586331, -3.18369245, 1.1168348, -0.19268305, 0.012913842] ]

/-- `src/common/transport_further.rs:83-113` thcond -/
def thcond (rho : F) (T : F) : F :=
  let d : F := rho / DC_WATER
  let Tr : F := T / TC_WATER
  let suma : F := 0.0
  let suma := (List.range' 0 5).foldl (fun suma i =>
      suma + nthF thcond_no i / powi Tr (i : Int)) suma
  let L0 : F := fsqrt Tr / suma
  let suma : F := 0.0
  let suma := (List.range' 0 5).foldl (fun suma i =>
      let suma2 : F := 0.0
      let suma2 := (List.range' 0 6).foldl (fun suma2 j =>
          suma2 + nthF (nthL thcond_nij i) j * powi (d - 1.0) (j : Int)) suma2
      suma + powi (1.0 / Tr - 1.0) (i : Int) * suma2) suma
  let L1 : F := fexp (d * suma)
  let L2 : F := 0.0
  1.0e-3 * (L0 * L1 + L2)

/-- `src/common/transport_further.rs:119-126` surface_tension -/
def surface_tension (T : F) : F :=
  if 248.15 <=. T && T <=. TC_WATER then
    let Tr : F := T / TC_WATER
    1.0e-3 * (235.8 * powf (1.0 - Tr) 1.256 * (1.0 - 0.625 * (1.0 - Tr)))
  else
    ofI32 INVALID_VALUE

/-- `src/common/transport_further.rs`:144 -/
def static_dielectric_I : List Int :=
  [ 1,
    1,
    1,
    2,
    3,
    3,
    4,
    5,
    6,
    7,
    10 ]

/-- `src/common/transport_further.rs`:145 -/
def static_dielectric_J : List F :=
  [ 0.25,
    1.0,
    2.5,
    1.5,
    1.5,
    2.5,
    2.0,
    2.0,
    5.0,
    0.5,
    10.0 ]

/-- `src/common/transport_further.rs`:147-150 -/
def static_dielectric_n : List F :=
  [ 0.978224486826,
    -0.957771379375,
    0.237511794148,
    0.714692244396,
    -0.298217036956,
    -0.108863472196,
    0.949327488264e-1,
    -0.980469816509e-2,
    0.165167634970e-4,
    0.937359795772e-4,
    -0.12317921872e-9,
    0.196096504426e-2 ]

/-- `src/common/transport_further.rs:134-161` static_dielectric -/
def static_dielectric (rho : F) (T : F) : F :=
  let k : F := 1.380658e-23
  let Na : F := 6.0221367e23
  let alfa : F := 1.636e-40
  let epsilon0 : F := 8.854187817e-12
  let mu : F := 6.138e-30
  let M : F := 0.018015268
  let d : F := rho / DC_WATER
  let Tr : F := TC_WATER / T
  let g : F := 1.0 + nthF static_dielectric_n 11 * d / powf (TC_WATER / 228.0 / Tr - 1.0) 1.2
  let g := (List.range' 0 11).foldl (fun g i =>
      g + nthF static_dielectric_n i * powi d (nthI static_dielectric_I i) * powf Tr (nthF static_dielectric_J i)) g
  let A : F := Na * mu * mu * rho * g / M / epsilon0 / k / T
  let B : F := Na * alfa * rho / 3.0 / M / epsilon0
  let c : F := 9.0 + 2.0 * A + 18.0 * B + A * A + 10.0 * A * B + 9.0 * B * B
  (1.0 + A + 5.0 * B + fsqrt c) / 4.0 / (1.0 - B)

end If97
