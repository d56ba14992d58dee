import Verif.Spec.PairFn

/-!
# C03 The C, stdcall, Python and Rust bindings agree

The bodies of the four families of entry points are separate source text; each is
modelled separately and proved equal.  Generic in the number type.
-/

namespace If97
variable {F : Type} [Add F] [Sub F] [Mul F] [Div F] [Neg F] [OfScientific F] [Flt F]

/-- entry points exported with the C calling convention -/
def Fn.cdecl : Fn → F → F → Int → Option F
  | .pt => Cdecl.pt | .ph => Cdecl.ph | .ps => Cdecl.ps | .hs => Cdecl.hs
  | .pv => Cdecl.pv | .tv => Cdecl.tv | .th => Cdecl.th | .ts => Cdecl.ts

/-- entry points exported with the stdcall convention -/
def Fn.stdcall : Fn → F → F → Int → Option F
  | .pt => Stdcall.pt | .ph => Stdcall.ph | .ps => Stdcall.ps | .hs => Stdcall.hs
  | .pv => Stdcall.pv | .tv => Stdcall.tv | .th => Stdcall.th | .ts => Stdcall.ts

/-- entry points of the Python module -/
def Fn.python : Fn → F → F → Int → Option F
  | .pt => Python.pt | .ph => Python.ph | .ps => Python.ps | .hs => Python.hs
  | .pv => Python.pv | .tv => Python.tv | .th => Python.th | .ts => Python.ts

def FnX.cdecl : FnX → F → F → Int → Option F
  | .px => Cdecl.px | .tx => Cdecl.tx | .hx => Cdecl.hx | .sx => Cdecl.sx

def FnX.stdcall : FnX → F → F → Int → Option F
  | .px => Stdcall.px | .tx => Stdcall.tx | .hx => Stdcall.hx | .sx => Stdcall.sx

def FnX.python : FnX → F → F → Int → Option F
  | .px => Python.px | .tx => Python.tx | .hx => Python.hx | .sx => Python.sx

/-- All bindings of the eight detecting functions return the value of the Rust
function called without a region, for all arguments and identifiers. -/
theorem C03_bindings (f : Fn) (a b : F) (o : Int) :
    f.cdecl a b o = f.call0 a b o ∧ f.stdcall a b o = f.call0 a b o ∧ f.python a b o = f.call0 a b o := by
  cases f <;> exact ⟨rfl, rfl, rfl⟩

/-- The same for the four functions with a steam quality. -/
theorem C03_bindings_x (f : FnX) (a b : F) (o : Int) :
    f.cdecl a b o = f.call a b o ∧ f.stdcall a b o = f.call a b o ∧ f.python a b o = f.call a b o := by
  cases f <;> exact ⟨rfl, rfl, rfl⟩

end If97
