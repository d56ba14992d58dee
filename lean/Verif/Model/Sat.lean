/-
Generated by tools/rs2lean.py from the Rust sources cited below.
Number type `F` is abstract; see Verif/Model/Num.lean for the conventions.
-/
import Verif.Model.Poly
import Verif.Model.Const
set_option linter.unusedVariables false

namespace If97
open Flt
variable {F : Type} [Add F] [Sub F] [Mul F] [Div F] [Neg F] [OfScientific F] [Flt F]

/-! ### src/r4/region4_sat_pT.rs -/

/-- `src/r4/region4_sat_pT.rs`:9-20 -/
def r4_n : List F :=
  [ 0.11670521452767e4,
    -0.72421316703206e6,
    -0.17073846940092e2,
    0.12020824702470e5,
    -0.32325550322333e7,
    0.14915108613530e2,
    -0.48232657361591e4,
    0.40511340542057e6,
    -0.23855557567849e0,
    0.65017534844798e3 ]

/-- `src/r4/region4_sat_pT.rs:23-36` p_saturation -/
def p_saturation (T : F) : F :=
  let ps :=
    if T <. 273.15 || T >. T_MAX4 then
      ofI32 INVALID_VALUE
    else
      let del : F := T + nthF r4_n 8 / (T - nthF r4_n 9)
      let aco : F := del * (del + nthF r4_n 0) + nthF r4_n 1
      let bco : F := del * (nthF r4_n 2 * del + nthF r4_n 3) + nthF r4_n 4
      let cco : F := del * (nthF r4_n 5 * del + nthF r4_n 6) + nthF r4_n 7
      let a : F := 2.0 * cco / (-bco + fsqrt (bco * bco - 4.0 * aco * cco))
      powi a 4
  ps

/-- `src/r4/region4_sat_pT.rs:39-54` T_saturation -/
def T_saturation (p : F) : F :=
  let Ts :=
    if p <. 0.000611212677 || p >. 22.064 then
      ofI32 INVALID_VALUE
    else
      let bet : F := powf p 0.25
      let eco : F := bet * (bet + nthF r4_n 2) + nthF r4_n 5
      let fco : F := bet * (nthF r4_n 0 * bet + nthF r4_n 3) + nthF r4_n 6
      let gco : F := bet * (nthF r4_n 1 * bet + nthF r4_n 4) + nthF r4_n 7
      let temp : F := fco * fco - 4.0 * eco * gco
      let dco : F := 2.0 * gco / (-fco - fsqrt temp)
      let temp : F := (nthF r4_n 9 + dco) * (nthF r4_n 9 + dco) - 4.0 * (nthF r4_n 8 + nthF r4_n 9 * dco)
      0.5 * (nthF r4_n 9 + dco - fsqrt temp)
  Ts

end If97
