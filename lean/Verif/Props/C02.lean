import Verif.Spec.PairFn
import Verif.Inst.Real

/-!
# C02 Explicit region bypasses detection

Giving a region `r` in 1..5 makes the call use the formulas of that region without
running the detector; giving 10 is the same as giving no region; any other value is
echoed back.  Generic in the number type.
-/

namespace If97
variable {F : Type} [Add F] [Sub F] [Mul F] [Div F] [Neg F] [OfScientific F] [Flt F]

/-- Specification table: which formulas serve which region, per pair function.
`pt` works in Kelvin, all others on the arguments as given. -/
def Fn.formula : Fn → Int → F → F → Int → Option F
  | .pt, 1 => fun p t o => some (pT_reg1 p (t + 273.15) o)
  | .pt, 2 => fun p t o => some (pT_reg2 p (t + 273.15) o)
  | .pt, 3 => fun p t o => some (pT_reg3 p (t + 273.15) o)
  | .pt, 4 => fun p t o => some (pT_reg4 p (t + 273.15) o)
  | .pt, 5 => fun p t o => some (pT_reg5 p (t + 273.15) o)
  | .ph, 1 => fun a b o => some (ph_reg1 a b o)
  | .ph, 2 => fun a b o => some (ph_reg2 a b o)
  | .ph, 3 => fun a b o => some (ph_reg3 a b o)
  | .ph, 4 => fun a b o => some (ph_reg4 a b o)
  | .ph, 5 => fun a b o => some (ph_reg5 a b o)
  | .ps, 1 => fun a b o => some (ps_reg1 a b o)
  | .ps, 2 => fun a b o => some (ps_reg2 a b o)
  | .ps, 3 => fun a b o => some (ps_reg3 a b o)
  | .ps, 4 => fun a b o => some (ps_reg4 a b o)
  | .ps, 5 => fun a b o => some (ps_reg5 a b o)
  | .hs, 1 => fun a b o => some (hs_reg1 a b o)
  | .hs, 2 => fun a b o => some (hs_reg2 a b o)
  | .hs, 3 => fun a b o => some (hs_reg3 a b o)
  | .hs, 4 => fun a b o => hs_reg4 a b o
  | .hs, 5 => fun a b o => some (hs_reg5 a b o)
  | .pv, 1 => fun a b o => some (pv_reg1 a b o)
  | .pv, 2 => fun a b o => some (pv_reg2 a b o)
  | .pv, 3 => fun a b o => some (pv_reg3 a b o)
  | .pv, 4 => fun a b o => some (pv_reg4 a b o)
  | .pv, 5 => fun a b o => some (pv_reg5 a b o)
  | .tv, 1 => fun a b o => some (tv_reg1 a b o)
  | .tv, 2 => fun a b o => tv_reg2 a b o
  | .tv, 3 => fun a b o => some (tv_reg3 a b o)
  | .tv, 4 => fun a b o => some (tv_reg4 a b o)
  | .tv, 5 => fun a b o => tv_reg5 a b o
  | .th, 1 => fun a b o => some (th_reg1 a b o)
  | .th, 2 => fun a b o => th_reg2 a b o
  | .th, 3 => fun a b o => some (th_reg3 a b o)
  | .th, 4 => fun a b o => some (th_reg4 a b o)
  | .th, 5 => fun a b o => some (th_reg5 a b o)
  | .ts, 1 => fun a b o => some (ts_reg1 a b o)
  | .ts, 2 => fun a b o => some (ts_reg2 a b o)
  | .ts, 3 => fun a b o => some (ts_reg3 a b o)
  | .ts, 4 => fun a b o => some (ts_reg4 a b o)
  | .ts, 5 => fun a b o => some (ts_reg5 a b o)
  | _, _ => fun _ _ _ => none

/-- `OR` returns the region that was given, for every state (even an impossible one). -/
theorem C02_region_echo (f : Fn) (a b : F) (r : Int) (hr : 1 ≤ r ∧ r ≤ 5) :
    f.call a b Doc.idR r = some (Flt.ofInt r) := by
  obtain ⟨h1, h5⟩ := hr
  have : r = 1 ∨ r = 2 ∨ r = 3 ∨ r = 4 ∨ r = 5 := by omega
  rcases this with rfl | rfl | rfl | rfl | rfl <;> cases f <;> rfl

/-- Every other identifier (neither an input nor `OR` nor `OX`) is answered by the
formulas of region `r`; the detector is not consulted. -/
theorem C02_region_formula (f : Fn) (a b : F) (o r : Int) (hr : 1 ≤ r ∧ r ≤ 5)
    (he : ¬ f.Echo o) (hR : o ≠ Doc.idR) (hX : o ≠ Doc.idX) :
    f.call a b o r = f.formula r a b o := by
  obtain ⟨h1, h5⟩ := hr
  have hr : r = 1 ∨ r = 2 ∨ r = 3 ∨ r = 4 ∨ r = 5 := by omega
  simp only [Fn.Echo, not_or] at he
  rcases hr with rfl | rfl | rfl | rfl | rfl <;> cases f <;>
    simp_all [Fn.call, Fn.rust, Fn.id1, Fn.id2, Fn.formula, OIdRegionArgs.ofPair, o_id_reg_info,
      Rust.pt, Rust.ph, Rust.ps, Rust.hs, Rust.pv, Rust.tv, Rust.th, Rust.ts, OP, OT, OH, OS, OV, OR, OX,
      pair_properties, REGION_NONE, liftP]

/-- The steam quality of an explicit region: 0 in the liquid region 1, 1 in 2, 3 and 5,
computed by the two-phase formulas in 4. -/
theorem C02_region_quality (f : Fn) (a b : F) :
    f.call a b Doc.idX 1 = some 0.0 ∧ f.call a b Doc.idX 2 = some 1.0 ∧ f.call a b Doc.idX 3 = some 1.0 ∧
    f.call a b Doc.idX 5 = some 1.0 ∧ f.call a b Doc.idX 4 = f.formula 4 a b Doc.idX := by
  cases f <;> exact ⟨rfl, rfl, rfl, rfl, rfl⟩

/-- Region 10 means "no region". -/
theorem C02_region_none (f : Fn) (a b : F) (o : Int) :
    f.call a b o Doc.noRegion = f.call0 a b o := rfl

/-- Giving the region that detection finds changes nothing. -/
theorem C02_region_consistent (f : Fn) (a b : F) (o r : Int) (hr : 1 ≤ r ∧ r ≤ 5)
    (hd : f.detect a b = some r) : f.call a b o r = f.call0 a b o := by
  have hn : (r == REGION_NONE) = false := by simp [REGION_NONE]; omega
  cases f <;> simp only [Fn.detect] at hd <;>
    simp [Fn.call, Fn.call0, Fn.rust, OIdRegionArgs.ofPair, OIdRegionArgs.ofId, o_id_reg_info, 
      Rust.pt, Rust.ph, Rust.ps, Rust.hs, Rust.pv, Rust.tv, Rust.th, Rust.ts, pair_properties, hn, liftR, hd]

/-- A region outside 1..5 and 10 is not rejected: every ordinary identifier (and `OR`)
returns the number `r` itself, `OX` returns -9999. -/
theorem C02_region_other (f : Fn) (a b : F) (o r : Int) (hr : r < 1 ∨ 5 < r) (hn : r ≠ 10)
    (he : ¬ f.Echo o) :
    f.call a b o r = some (Flt.ofInt (if o = Doc.idX then Doc.errValue else r)) := by
  simp only [Fn.Echo, not_or] at he
  have e1 : r ≠ 1 := by omega
  have e2 : r ≠ 2 := by omega
  have e3 : r ≠ 3 := by omega
  have e4 : r ≠ 4 := by omega
  have e5 : r ≠ 5 := by omega
  by_cases hR : o = 16 <;> by_cases hX : o = 15 <;> cases f <;>
    simp_all [Fn.call, Fn.rust, Fn.id1, Fn.id2, OIdRegionArgs.ofPair, o_id_reg_info,
      Rust.pt, Rust.ph, Rust.ps, Rust.hs, Rust.pv, Rust.tv, Rust.th, Rust.ts, OP, OT, OH, OS, OV, OR, OX,
      pair_properties, REGION_NONE, liftP, INVALID_VALUE]

/-- Non-trivial instances: the volume at 0 MPa, 9999 °C with region 1 forced is the region 1
formula; with "region 7" it is the number 7. -/
example : Fn.pt.call (0 : ℝ) 9999 Doc.idV 1 = some (pT_reg1 0 (9999 + 273.15) Doc.idV) ∧
    Fn.pt.call (0 : ℝ) 9999 Doc.idV 7 = some 7 := by
  refine ⟨C02_region_formula .pt _ _ _ 1 (by omega) (by decide) (by decide) (by decide), ?_⟩
  rw [C02_region_other .pt _ _ _ 7 (by omega) (by omega) (by decide)]
  simp

end If97
