/-!
# Number conventions of the model

The Rust code computes in `f64`.  Every model function is written over an
abstract number type `F`:

* `+ - * /` and unary `-` are the core notation classes of `F`,
* decimal literals are `OfScientific` literals,
* everything else that the crate uses on `f64` is in the class `Flt` below:
  the comparisons (as Boolean functions, so that a type with NaN is a legal
  instance), `abs`, `sqrt`, `ln`, `exp`, `powi`, `powf` and the `i32 as f64`
  conversion.

No laws are assumed in the class.  A theorem stated for every `F` therefore
holds in particular for IEEE doubles, whatever the libm implementation.
-/

namespace If97

/-- The operations on `f64` used by the crate, without any law. -/
class Flt (F : Type) where
  /-- `a < b` on f64 -/
  lt : F → F → Bool
  /-- `a <= b` on f64 -/
  le : F → F → Bool
  /-- `a == b` on f64 -/
  eq : F → F → Bool
  /-- `f64::abs` -/
  abs : F → F
  /-- `f64::exp` -/
  exp : F → F
  /-- `f64::ln` -/
  ln : F → F
  /-- `f64::sqrt` -/
  sqrt : F → F
  /-- `f64::powi` (the exponent is an i32) -/
  powi : F → Int → F
  /-- `f64::powf` -/
  powf : F → F → F
  /-- `x as f64` for an i32 `x` -/
  ofInt : Int → F

export Flt (powi powf)

@[inherit_doc Flt.lt] scoped infix:50 " <. " => Flt.lt
@[inherit_doc Flt.le] scoped infix:50 " <=. " => Flt.le
/-- `a > b` on f64: `b < a` -/
scoped notation:50 a:51 " >. " b:51 => Flt.lt b a
/-- `a >= b` on f64: `b <= a` -/
scoped notation:50 a:51 " >=. " b:51 => Flt.le b a
@[inherit_doc Flt.eq] scoped infix:50 " ==. " => Flt.eq
/-- `a != b` on f64 -/
scoped notation:50 a:51 " !=. " b:51 => !(Flt.eq a b)

section
variable {F : Type} [Flt F]
/-- `f64::abs` -/
abbrev fabs (x : F) : F := Flt.abs x
/-- `f64::exp` -/
abbrev fexp (x : F) : F := Flt.exp x
/-- `f64::ln` -/
abbrev fln (x : F) : F := Flt.ln x
/-- `f64::sqrt` -/
abbrev fsqrt (x : F) : F := Flt.sqrt x
/-- `x as f64` for an i32 -/
abbrev ofI32 (x : Int) : F := Flt.ofInt x
end

/-- Indexing `a[i]` into a constant `f64` array.  The Rust code only indexes
with literals or with loop variables that stay in range; outside the range
(where Rust would panic) the model returns `0.0`. -/
def nthF {F : Type} [OfScientific F] (l : List F) (i : Nat) : F := l.getD i 0.0

/-- Indexing `a[i]` into a constant `i32` array, with the same convention. -/
def nthI (l : List Int) (i : Nat) : Int := l.getD i 0

/-- Indexing into a constant array of `f64` arrays, with the same convention. -/
def nthL {F : Type} (l : List (List F)) (i : Nat) : List F := l.getD i []

end If97
