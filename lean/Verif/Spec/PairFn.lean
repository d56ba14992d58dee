import Verif.Model.Api
import Verif.Spec.Doc

/-!
# The twelve pair functions of the public API, indexed

`Fn` names the eight functions that detect a region, `FnX` the four functions that
take a steam quality.  `Fn.call f a b o r` is the Rust call `f(a, b, (o, r))`,
`Fn.call0 f a b o` is `f(a, b, o)`.
-/

namespace If97
variable {F : Type} [Add F] [Sub F] [Mul F] [Div F] [Neg F] [OfScientific F] [Flt F]

/-- The pair functions with region detection. -/
inductive Fn | pt | ph | ps | hs | pv | tv | th | ts
  deriving DecidableEq, Repr

/-- The pair functions with a steam quality. -/
inductive FnX | px | tx | hx | sx
  deriving DecidableEq, Repr

/-- the public Rust function -/
def Fn.rust : Fn → F → F → OIdRegionArgs → Option F
  | .pt => Rust.pt | .ph => Rust.ph | .ps => Rust.ps | .hs => Rust.hs
  | .pv => Rust.pv | .tv => Rust.tv | .th => Rust.th | .ts => Rust.ts

/-- `f(a, b, (o, r))` -/
def Fn.call (f : Fn) (a b : F) (o r : Int) : Option F := f.rust a b (.ofPair (o, r))

/-- `f(a, b, o)` -/
def Fn.call0 (f : Fn) (a b : F) (o : Int) : Option F := f.rust a b (.ofId o)

/-- the public Rust function -/
def FnX.call : FnX → F → F → Int → Option F
  | .px => Rust.px | .tx => Rust.tx | .hx => Rust.hx | .sx => Rust.sx

/-- documented identifier of the first input -/
def Fn.id1 : Fn → Int
  | .pt | .ph | .ps | .pv => Doc.idP
  | .tv | .th | .ts => Doc.idT
  | .hs => Doc.idH

/-- documented identifier of the second input -/
def Fn.id2 : Fn → Int
  | .pt => Doc.idT
  | .ph | .th => Doc.idH
  | .ps | .ts | .hs => Doc.idS
  | .pv | .tv => Doc.idV

/-- documented identifier of the first input -/
def FnX.id1 : FnX → Int
  | .px => Doc.idP | .tx => Doc.idT | .hx => Doc.idH | .sx => Doc.idS

/-- The region detector a function uses on its own arguments (`src/rust_if97.rs`:
the third argument of `pair_properties`; `pt` converts to Kelvin first). -/
def Fn.detect : Fn → F → F → Option Int
  | .pt => fun p t => some (pT_sub_region p (t + 273.15))
  | .ph => fun a b => some (ph_sub_region a b)
  | .ps => fun a b => some (ps_sub_region a b)
  | .hs => fun a b => some (hs_sub_region a b)
  | .pv => fun a b => some (pv_sub_region a b)
  | .tv => fun a b => some (tv_sub_region a b)
  | .th => fun a b => th_sub_region a b
  | .ts => fun a b => some (ts_sub_region a b)

/-- `o` asks for one of the two inputs of `f`. -/
def Fn.Echo (f : Fn) (o : Int) : Prop := o = f.id1 ∨ o = f.id2

instance (f : Fn) (o : Int) : Decidable (f.Echo o) := by unfold Fn.Echo; infer_instance

end If97
