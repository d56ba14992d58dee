import Verif.Model.Num
set_option linter.unusedVariables false

/-!
# src/algo/root.rs: the secant root finders

`while (|dx| > xacc) && (i < i_max) && (f != 0.0) && ((f - fl) != 0.0)` counts
`i` from 0 up to `i_max`; the model recurses on the number of iterations that
are left (`i_max - i`), which is exact: no truncation is introduced.
-/

namespace If97
open Flt
variable {F : Type} [Add F] [Sub F] [Mul F] [Div F] [Neg F] [OfScientific F] [Flt F]

/-- `src/algo/root.rs:6` -/
def ESP : F := 1.0e-8

/-- `src/algo/root.rs:7` -/
def I_MAX : Int := 100

/-- `src/algo/root.rs:35-49` the `while` loop of `rtsec1`; first argument: iterations left -/
def rtsec1_loop (f' : F → F → F) (con_var2 fr xacc : F) : Nat → (dx xl rts fl f : F) → F
  | 0, _, _, rts, _, _ => rts
  | n + 1, dx, xl, rts, fl, f =>
    if fabs dx >. xacc && f !=. 0.0 && (f - fl) !=. 0.0 then
      let dx := (xl - rts) * f / (f - fl)
      let xl := rts
      let fl := f
      let rts := rts + dx
      let rts := if rts <=. 0.0 then 0.000001 else rts
      let f := fr - f' rts con_var2
      rtsec1_loop f' con_var2 fr xacc n dx xl rts fl f
    else rts

/-- `src/algo/root.rs:15-52` rtsec1: secant method in the first variable of `f'` -/
def rtsec1 (f' : F → F → F) (con_var2 fr x1 x2 fl f xacc : F) (i_max : Int) : F :=
  let (xl, rts, fl, f) := if fabs fl <. fabs f then (x2, x1, f, fl) else (x1, x2, fl, f)
  if (f - fl) !=. 0.0 then
    let dx := (xl - rts) * f / (f - fl)
    rtsec1_loop f' con_var2 fr xacc i_max.toNat dx xl rts fl f
  else rts

/-- `src/algo/root.rs:80-92` the `while` loop of `rtsec2`; first argument: iterations left -/
def rtsec2_loop (f' : F → F → F) (con_var1 fr xacc : F) : Nat → (dx xl rts fl f : F) → F
  | 0, _, _, rts, _, _ => rts
  | n + 1, dx, xl, rts, fl, f =>
    if fabs dx >. xacc && f !=. 0.0 && (f - fl) !=. 0.0 then
      let dx := (xl - rts) * f / (f - fl)
      let xl := rts
      let fl := f
      let rts := rts + dx
      let f := fr - f' con_var1 rts
      rtsec2_loop f' con_var1 fr xacc n dx xl rts fl f
    else rts

/-- `src/algo/root.rs:60-95` rtsec2: secant method in the second variable of `f'` -/
def rtsec2 (f' : F → F → F) (con_var1 fr x1 x2 fl f xacc : F) (i_max : Int) : F :=
  let (xl, rts, fl, f) := if fabs fl <. fabs f then (x2, x1, f, fl) else (x1, x2, fl, f)
  if (f - fl) !=. 0.0 then
    let dx := (xl - rts) * f / (f - fl)
    rtsec2_loop f' con_var1 fr xacc i_max.toNat dx xl rts fl f
  else rts

end If97
