import Verif.Lemmas.Interval
import Verif.Lemmas.PolyReal
import Verif.Model.R1
import Verif.Model.R2
import Verif.Model.R5
import Lean

/-!
Tables for the positivity checks of C41 and C42.  `t1`, `t2`, `t5` are the coefficient tables of regions
1, 2, 5 as fractions and `o2`, `o5` the ideal-gas parts; `t1_eq` … state that they are the tables of the
model.  The `l..` lists are the polynomials whose sign is proved in Lemmas/Iv/.
-/

namespace If97.Iv
open Lean

/-! storing computed tables (used by `eval%`, checked afterwards by the kernel) -/

private def natE (n : Nat) : Expr := mkRawNatLit n
private def intE : Int → Expr
  | .ofNat n => mkApp (mkConst ``Int.ofNat) (natE n)
  | .negSucc n => mkApp (mkConst ``Int.negSucc) (natE n)
instance : ToExpr Mono :=
  ⟨fun m => mkAppN (mkConst ``Mono.mk) #[natE m.n, natE m.d, natE m.I, intE m.J, intE m.K], mkConst ``Mono⟩
instance : ToExpr Poly := ⟨fun p => mkAppN (mkConst ``Poly.mk) #[toExpr p.P, toExpr p.N], mkConst ``Poly⟩
instance : ToExpr Fun :=
  ⟨fun p => mkAppN (mkConst ``Fun.mk) #[toExpr p.f, toExpr p.x, toExpr p.y, toExpr p.xx, toExpr p.xy, toExpr p.yy],
    mkConst ``Fun⟩
private def treeE : Tree → Expr
  | .l0 => mkConst ``Tree.l0
  | .l2 => mkConst ``Tree.l2
  | .x s t => mkAppN (mkConst ``Tree.x) #[treeE s, treeE t]
  | .y s t => mkAppN (mkConst ``Tree.y) #[treeE s, treeE t]
instance : ToExpr Tree := ⟨treeE, mkConst ``Tree⟩

/-! ### operations on signed polynomials -/

def ng (l : List SM) : List SM := l.map fun m => ⟨-m.c, m.d, m.I, m.J, m.K⟩
/-- times x -/
def mX (l : List SM) : List SM := l.map fun m => ⟨m.c, m.d, m.I + 1, m.J, m.K⟩
/-- times z -/
def mZ (l : List SM) : List SM := l.map fun m => ⟨m.c, m.d, m.I, m.J, m.K + 1⟩
/-- the constant c/d -/
def cst (c : Int) (d : Nat) : SM := ⟨c, d, 0, 0, 0⟩

theorem evS_ng (l : List SM) (x y z : ℝ) : evS (ng l) x y z = -evS l x y z := by
  induction l with
  | nil => simp [ng]
  | cons m l ih =>
    have : ng (m :: l) = ⟨-m.c, m.d, m.I, m.J, m.K⟩ :: ng l := rfl
    rw [this, evS_cons, ih, evS_cons]; simp only [SM.ev]; push_cast; ring
theorem evS_mX (l : List SM) (x y z : ℝ) : evS (mX l) x y z = x * evS l x y z := by
  induction l with
  | nil => simp [mX]
  | cons m l ih =>
    have : mX (m :: l) = ⟨m.c, m.d, m.I + 1, m.J, m.K⟩ :: mX l := rfl
    rw [this, evS_cons, ih, evS_cons]; simp only [SM.ev, pow_succ]; ring
theorem evS_mZ (l : List SM) (x y : ℝ) {z : ℝ} (hz : z ≠ 0) : evS (mZ l) x y z = z * evS l x y z := by
  induction l with
  | nil => simp [mZ]
  | cons m l ih =>
    have : mZ (m :: l) = ⟨m.c, m.d, m.I, m.J, m.K + 1⟩ :: mZ l := rfl
    rw [this, evS_cons, ih, evS_cons]; simp only [SM.ev, zpow_add_one₀ hz]; ring
@[simp] theorem cst_ev (c : Int) (d : Nat) (x y z : ℝ) : (cst c d).ev x y z = (c : ℝ) / d := by simp [cst, SM.ev]

/-! ### the coefficient tables -/

def t1 : List SM := [
  ⟨14632971213167, 100000000000000, 0, -2, 0⟩,
  ⟨-84548187169114, 100000000000000, 0, -1, 0⟩,
  ⟨-3756360367204, 1000000000000, 0, 0, 0⟩,
  ⟨33855169168385, 10000000000000, 0, 1, 0⟩,
  ⟨-95791963387872, 100000000000000, 0, 2, 0⟩,
  ⟨15772038513228, 100000000000000, 0, 3, 0⟩,
  ⟨-16616417199501, 1000000000000000, 0, 4, 0⟩,
  ⟨81214629983568, 100000000000000000, 0, 5, 0⟩,
  ⟨28319080123804, 100000000000000000, 1, -9, 0⟩,
  ⟨-60706301565874, 100000000000000000, 1, -7, 0⟩,
  ⟨-18990068218419, 1000000000000000, 1, -1, 0⟩,
  ⟨-32529748770505, 1000000000000000, 1, 0, 0⟩,
  ⟨-21841717175414, 1000000000000000, 1, 1, 0⟩,
  ⟨-5283835796993, 100000000000000000, 1, 3, 0⟩,
  ⟨-47184321073267, 100000000000000000, 2, -3, 0⟩,
  ⟨-30001780793026, 100000000000000000, 2, 0, 0⟩,
  ⟨47661393906987, 1000000000000000000, 2, 1, 0⟩,
  ⟨-44141845330846, 10000000000000000000, 2, 3, 0⟩,
  ⟨-72694996297594, 100000000000000000000000000000, 2, 17, 0⟩,
  ⟨-31679644845054, 1000000000000000000, 3, -4, 0⟩,
  ⟨-28270797985312, 10000000000000000000, 3, 0, 0⟩,
  ⟨-85205128120103, 100000000000000000000000, 3, 6, 0⟩,
  ⟨-22425281908, 10000000000000000, 4, -5, 0⟩,
  ⟨-65171222895601, 100000000000000000000, 4, -2, 0⟩,
  ⟨-14341729937924, 100000000000000000000000000, 4, 10, 0⟩,
  ⟨-40516996860117, 100000000000000000000, 5, -8, 0⟩,
  ⟨-12734301741641, 10000000000000000000000, 8, -11, 0⟩,
  ⟨-17424871230634, 100000000000000000000000, 8, -6, 0⟩,
  ⟨-68762131295531, 100000000000000000000000000000000, 21, -29, 0⟩,
  ⟨14478307828521, 1000000000000000000000000000000000, 23, -31, 0⟩,
  ⟨26335781662795, 1000000000000000000000000000000000000, 29, -38, 0⟩,
  ⟨-11947622640071, 1000000000000000000000000000000000000, 30, -39, 0⟩,
  ⟨18228094581404, 10000000000000000000000000000000000000, 31, -40, 0⟩,
  ⟨-93537087292458, 1000000000000000000000000000000000000000, 32, -41, 0⟩]

def t2 : List SM := [
  ⟨-17731742473213, 10000000000000000, 1, 0, 0⟩,
  ⟨-17834862292358, 1000000000000000, 1, 1, 0⟩,
  ⟨-45996013696365, 1000000000000000, 1, 2, 0⟩,
  ⟨-57581259083432, 1000000000000000, 1, 3, 0⟩,
  ⟨-5032527872793, 100000000000000, 1, 6, 0⟩,
  ⟨-33032641670203, 1000000000000000000, 2, 1, 0⟩,
  ⟨-18948987516315, 100000000000000000, 2, 2, 0⟩,
  ⟨-39392777243355, 10000000000000000, 2, 4, 0⟩,
  ⟨-43797295650573, 1000000000000000, 2, 7, 0⟩,
  ⟨-26674547914087, 1000000000000000000, 2, 36, 0⟩,
  ⟨20481737692309, 1000000000000000000000, 3, 0, 0⟩,
  ⟨43870667284435, 100000000000000000000, 3, 1, 0⟩,
  ⟨-3227767723857, 100000000000000000, 3, 3, 0⟩,
  ⟨-15033924542148, 10000000000000000, 3, 6, 0⟩,
  ⟨-40668253562649, 1000000000000000, 3, 35, 0⟩,
  ⟨-78847309559367, 100000000000000000000000, 4, 1, 0⟩,
  ⟨12790717852285, 1000000000000000000000, 4, 2, 0⟩,
  ⟨48225372718507, 100000000000000000000, 4, 3, 0⟩,
  ⟨22922076337661, 10000000000000000000, 5, 7, 0⟩,
  ⟨-16714766451061, 1000000000000000000000000, 6, 3, 0⟩,
  ⟨-21171472321355, 10000000000000000, 6, 16, 0⟩,
  ⟨-23895741934104, 1000000000000, 6, 35, 0⟩,
  ⟨-5905956432427, 1000000000000000000000000000000, 7, 0, 0⟩,
  ⟨-12621808899101, 10000000000000000000, 7, 11, 0⟩,
  ⟨-38946842435739, 1000000000000000, 7, 25, 0⟩,
  ⟨11256211360459, 1000000000000000000000000, 8, 8, 0⟩,
  ⟨-82311340897998, 10000000000000, 8, 36, 0⟩,
  ⟨19809712802088, 1000000000000000000000, 9, 13, 0⟩,
  ⟨10406965210174, 100000000000000000000000000000000, 10, 4, 0⟩,
  ⟨-10234747095929, 100000000000000000000000000, 10, 10, 0⟩,
  ⟨-10018179379511, 10000000000000000000000, 10, 14, 0⟩,
  ⟨-80882908646985, 1000000000000000000000000, 16, 29, 0⟩,
  ⟨10693031879409, 100000000000000, 16, 50, 0⟩,
  ⟨-33662250574171, 100000000000000, 18, 57, 0⟩,
  ⟨89185845355421, 100000000000000000000000000000000000000, 20, 20, 0⟩,
  ⟨30629316876232, 100000000000000000000000000, 20, 35, 0⟩,
  ⟨-42002467698208, 10000000000000000000, 20, 48, 0⟩,
  ⟨-59056029685639, 1000000000000000000000000000000000000000, 21, 21, 0⟩,
  ⟨37826947613457, 10000000000000000000, 22, 53, 0⟩,
  ⟨-12768608934681, 10000000000000000000000000000, 23, 39, 0⟩,
  ⟨73087610595061, 1000000000000000000000000000000000000000000, 24, 26, 0⟩,
  ⟨55414715350778, 1000000000000000000000000000000, 24, 40, 0⟩,
  ⟨-9436970724121, 10000000000000000000, 24, 58, 0⟩]

def o2 : List SM := [
  ⟨-96927686500217, 10000000000000, 0, 0, 0⟩,
  ⟨10086655968018, 1000000000000, 0, 0, 1⟩,
  ⟨-5608791128302, 1000000000000000, 0, 0, -5⟩,
  ⟨71452738081455, 1000000000000000, 0, 0, -4⟩,
  ⟨-40710498223928, 100000000000000, 0, 0, -3⟩,
  ⟨14240819171444, 10000000000000, 0, 0, -2⟩,
  ⟨-4383951131945, 1000000000000, 0, 0, -1⟩,
  ⟨-28408632460772, 100000000000000, 0, 0, 2⟩,
  ⟨21268463753307, 1000000000000000, 0, 0, 3⟩]

def t5 : List SM := [
  ⟨15736404855259, 10000000000000000, 1, 1, 0⟩,
  ⟨90153761673944, 100000000000000000, 1, 2, 0⟩,
  ⟨-50270077677648, 10000000000000000, 1, 3, 0⟩,
  ⟨22440037409485, 10000000000000000000, 2, 3, 0⟩,
  ⟨-41163275453471, 10000000000000000000, 2, 9, 0⟩,
  ⟨37919454822955, 1000000000000000000000, 3, 7, 0⟩]

def o5 : List SM := [
  ⟨-13179983674201, 1000000000000, 0, 0, 0⟩,
  ⟨68540841634434, 10000000000000, 0, 0, 1⟩,
  ⟨-24805148933466, 1000000000000000, 0, 0, -3⟩,
  ⟨36901534980333, 100000000000000, 0, 0, -2⟩,
  ⟨-31161318213925, 10000000000000, 0, 0, -1⟩,
  ⟨-32961626538917, 100000000000000, 0, 0, 2⟩]

/-- the form of the model's tables -/
noncomputable def toTab (l : List SM) : List (Int × Int × ℝ) := l.map fun m => ((m.I : Int), m.J, (m.c : ℝ) / m.d)

theorem t1_eq : (r1_IJn : List (Int × Int × ℝ)) = toTab t1 := by
  simp only [r1_IJn, toTab, t1, List.map_cons, List.map_nil]; norm_num
theorem t2_eq : (r2_IJn : List (Int × Int × ℝ)) = toTab t2 := by
  simp only [r2_IJn, toTab, t2, List.map_cons, List.map_nil]; norm_num
theorem t5_eq : (r5_IJn : List (Int × Int × ℝ)) = toTab t5 := by
  simp only [r5_IJn, toTab, t5, List.map_cons, List.map_nil]; norm_num

/-- only x and y occur -/
def NoZ (l : List SM) : Prop := ∀ m ∈ l, m.K = 0
instance (l : List SM) : Decidable (NoZ l) := by unfold NoZ; infer_instance

section
variable {l : List SM} (x y z : ℝ)

theorem tab_0 (h : NoZ l) : poly_powi x y (toTab l) = evS l x y z := by
  rw [poly_powi_sum, toTab, List.map_map, evS]
  refine sum_map_congr fun m hm => ?_
  simp [SM.ev, h m hm]
theorem tab_i (h : NoZ l) : poly_i_powi x y (toTab l) = evS (dX l) x y z := by
  rw [poly_i_powi_sum, toTab, List.map_map, evS, dX, List.map_map]
  refine sum_map_congr fun m hm => ?_
  simp only [SM.ev, h m hm, Function.comp, zpow_zero, mul_one]
  rcases m.I with _ | i
  · simp
  · rw [show ((i + 1 : ℕ) : ℤ) - 1 = (i : ℤ) by push_cast; ring, zpow_natCast, Nat.add_sub_cancel]; push_cast; ring
theorem tab_ii (h : NoZ l) : poly_ii_powi x y (toTab l) = evS (dX (dX l)) x y z := by
  rw [poly_ii_powi_sum, toTab, List.map_map, evS, dX, dX, List.map_map, List.map_map]
  refine sum_map_congr fun m hm => ?_
  simp only [SM.ev, h m hm, Function.comp, zpow_zero, mul_one]
  rcases m.I with _ | _ | i
  · simp
  · simp
  · rw [show ((i + 1 + 1 : ℕ) : ℤ) - 2 = (i : ℤ) by push_cast; ring, zpow_natCast, show i + 1 + 1 - 1 - 1 = i by omega]
    rw [show i + 1 + 1 - 1 = i + 1 by omega]; push_cast; ring

theorem evS_map_zero {α : Type} (f : α → SM) (l : List α) (h : ∀ m ∈ l, (f m).c = 0) : evS (l.map f) x y z = 0 := by
  induction l with
  | nil => rfl
  | cons m l ih =>
    rw [List.map_cons, evS_cons, ih fun m hm => h m (List.mem_cons_of_mem _ hm)]
    simp [SM.ev, h m List.mem_cons_self]

theorem noZ_dX (h : NoZ l) : NoZ (dX l) := fun m hm => by
  simp only [dX, List.mem_map] at hm; obtain ⟨a, ha, rfl⟩ := hm; exact h a ha

theorem dY_noZ (h : NoZ l) : evS (dY l) x y z = evS (l.map fun m => ⟨m.c * m.J, m.d, m.I, m.J - 1, 0⟩) x y z := by
  rw [dY, evS_append, evS_map_zero x y z (fun m => ⟨m.c * m.K, m.d, m.I, m.J, m.K - 1⟩) l (fun m hm => by simp [h m hm]),
    add_zero, evS, evS, List.map_map, List.map_map]
  refine sum_map_congr fun m hm => ?_
  simp [Function.comp, SM.ev, h m hm]

theorem tab_j (h : NoZ l) : poly_j_powi x y (toTab l) = evS (dY l) x y z := by
  rw [dY_noZ x y z h, poly_j_powi_sum, toTab, List.map_map, evS, List.map_map]
  refine sum_map_congr fun m hm => ?_
  simp only [SM.ev, Function.comp, zpow_zero, mul_one, zpow_natCast]; push_cast; ring
theorem tab_ij (h : NoZ l) : poly_ij_powi x y (toTab l) = evS (dY (dX l)) x y z := by
  rw [dY_noZ x y z (noZ_dX h), poly_ij_powi_sum, toTab, List.map_map, evS, dX, List.map_map, List.map_map]
  refine sum_map_congr fun m hm => ?_
  simp only [SM.ev, Function.comp, zpow_zero, mul_one]
  rcases m.I with _ | i
  · simp
  · rw [show ((i + 1 : ℕ) : ℤ) - 1 = (i : ℤ) by push_cast; ring, zpow_natCast, Nat.add_sub_cancel]; push_cast; ring

/-- second derivative in y, of a polynomial in x and y -/
theorem dYY_noZ (h : NoZ l) : evS (dY (dY l)) x y z = evS (l.map fun m => ⟨m.c * m.J * (m.J - 1), m.d, m.I, m.J - 2, 0⟩) x y z := by
  have e : ∀ (a b : List SM), evS (dY (a ++ b)) x y z = evS (dY a) x y z + evS (dY b) x y z := by
    intro a b; simp only [dY, List.map_append, evS_append]; ring
  conv_lhs => rw [dY.eq_1 l, e]
  have h1 : NoZ (l.map fun m => (⟨m.c * m.J, m.d, m.I, m.J - 1, m.K⟩ : SM)) := fun m hm => by
    simp only [List.mem_map] at hm; obtain ⟨a, ha, rfl⟩ := hm; exact h a ha
  rw [dY_noZ x y z h1, List.map_map]
  have h2 : evS (dY (l.map fun m => (⟨m.c * m.K, m.d, m.I, m.J, m.K - 1⟩ : SM))) x y z = 0 := by
    rw [dY, evS_append, List.map_map, List.map_map]
    rw [evS_map_zero x y z _ l (fun m hm => by simp [h m hm]), evS_map_zero x y z _ l (fun m hm => by simp [h m hm]), add_zero]
  rw [h2, add_zero, evS, evS, List.map_map, List.map_map]
  refine sum_map_congr fun m hm => ?_
  simp only [Function.comp, SM.ev]
  rw [show m.J - 1 - 1 = m.J - 2 by ring]

theorem tab_jj (h : NoZ l) : poly_jj_powi x y (toTab l) = evS (dY (dY l)) x y z := by
  rw [dYY_noZ x y z h, poly_jj_powi_sum, toTab, List.map_map, evS, List.map_map]
  refine sum_map_congr fun m hm => ?_
  simp only [SM.ev, Function.comp, zpow_zero, mul_one, zpow_natCast]; push_cast; ring
end

theorem noZ_1 : NoZ t1 := by decide +kernel
theorem noZ_2 : NoZ t2 := by decide +kernel
theorem noZ_5 : NoZ t5 := by decide +kernel

/-! ### the polynomials and the boxes -/

/-- region 1 (x = 7.1 − π, y = τ − 1.222, z = τ): γ_π, −γ_ππ, −γ_ττ -/
def l1v : List SM := ng (dX t1)
def l1k : List SM := ng (dX (dX t1))
def l1c : List SM := ng (dY (dY t1))
/-- region 1: 3.126 − γ_τ, 9.75 − (τ γ_τ − γ), 0.2299 − γ_π -/
def l1h : List SM := cst 3126 1000 :: ng (dY t1)
def l1s : List SM := cst 975 100 :: (t1 ++ ng (mZ (dY t1)))
def l1w : List SM := cst 2299 10000 :: dX t1
def l1u : List SM := cst 1144 10000 :: dX t1
/-- region 2 (x = π, y = τ − 0.5, z = τ): π γ_π, −π² γ_ππ, −γ_ττ -/
def l2v : List SM := cst 1 1 :: mX (dX t2)
def l2k : List SM := cst 1 1 :: ng (mX (mX (dX (dX t2))))
def l2c : List SM := ng (dY (dY (o2 ++ t2)))
/-- region 2: γ_τ − 8.03, τ γ_τ − (γ − ln π) − π/16.53 − 1.8054 − 9.751, π γ_π − 0.01605 π τ -/
def l2h : List SM := cst (-803) 100 :: dY (o2 ++ t2)
def l2s : List SM := cst (-115564) 10000 :: ⟨-100, 1653, 1, 0, 0⟩ :: (ng (o2 ++ t2) ++ mZ (dY (o2 ++ t2)))
/-- as `l2s` with the tangent of the logarithm at 50 MPa -/
def l2t : List SM := cst (-12664) 1000 :: ⟨-1, 50, 1, 0, 0⟩ :: (ng (o2 ++ t2) ++ mZ (dY (o2 ++ t2)))
def l2w : List SM := ⟨-1605, 100000, 1, 0, 1⟩ :: l2v
/-- (γ_π − τ γ_πτ), the sign of the thermal expansion: regions 1, 2 (times π), 5 (times π) -/
def l1x : List SM := ng (dX t1) ++ mZ (dX (dY t1))
def l2x : List SM := cst 1 1 :: (mX (dX t2) ++ ng (mZ (mX (dX (dY t2)))))
def l5x : List SM := cst 1 1 :: (mX (dX t5) ++ ng (mZ (mX (dX (dY t5)))))
def l2u : List SM := ⟨-803, 100000, 1, 0, 1⟩ :: l2v
/-- bounds of the entropy, without the logarithm -/
def l1m : List SM := ng t1 ++ mZ (dY t1)
def l2m : List SM := cst 335 10 :: ((o2 ++ t2) ++ ng (mZ (dY (o2 ++ t2))))
def l5m : List SM := cst 335 10 :: ((o5 ++ t5) ++ ng (mZ (dY (o5 ++ t5))))
def l5s : List SM := cst (-4) 1 :: (ng (o5 ++ t5) ++ mZ (dY (o5 ++ t5)))
/-- point values for the counterexamples of C47 -/
def lw1 : List SM := cst (-131076) 1000000 :: ng (dX t1)
def lw2 : List SM := cst 128719 1000000 :: dX t1
def lw3 : List SM := cst (-336) 10000 :: (ng t1 ++ mZ (dY t1))
def lw4 : List SM := cst 332 10000 :: (t1 ++ ng (mZ (dY t1)))
/-- region 5 (x = π, y = z = τ): π γ_π, −π² γ_ππ, −γ_ττ -/
def l5v : List SM := cst 1 1 :: mX (dX t5)
def l5k : List SM := cst 1 1 :: ng (mX (mX (dX (dX t5))))
def l5c : List SM := ng (dY (dY (o5 ++ t5)))

/-- covers region 1; temperatures 273.15, 550, 580, 600, 610, 618, 623.15 -/
def boxes1 : List Box := [
  ⟨4075197, 3024804, 1000000, 2575068, 1277068, 1000000, 1222000⟩,
  ⟨3890949, 2840556, 1000000, 1232828, 65173, 1000000, 1222000⟩,
  ⟨3790595, 2740202, 1000000, 1127828, 39828, 1000000, 1222000⟩,
  ⟨3703333, 2652940, 1000000, 1069066, 18935, 1000000, 1222000⟩,
  ⟨3652457, 2602064, 1000000, 1035425, 14707, 1000000, 1222000⟩,
  ⟨3607946, 2557553, 1000000, 1011451, 9268, 1000000, 1222000⟩]

/-- covers region 1 from 278.15 K; temperatures 278.15, 550, 580, 600, 610, 618, 623.15 -/
def boxes1e : List Box := [
  ⟨4075197, 3024804, 1000000, 2529462, 1231462, 1000000, 1222000⟩,
  ⟨3890949, 2840556, 1000000, 1232828, 65173, 1000000, 1222000⟩,
  ⟨3790595, 2740202, 1000000, 1127828, 39828, 1000000, 1222000⟩,
  ⟨3703333, 2652940, 1000000, 1069066, 18935, 1000000, 1222000⟩,
  ⟨3652457, 2602064, 1000000, 1035425, 14707, 1000000, 1222000⟩,
  ⟨3607946, 2557553, 1000000, 1011451, 9268, 1000000, 1222000⟩]

/-- covers 623.15 K from 16.5 MPa -/
def boxes1p : List Box := [
  ⟨3576104, 2525711, 1000000, 1002273, 90, 1000000, 1222000⟩]

/-- p from 1 to 1 MPa at 273.15 K -/
def boxes_w1 : List Box := [
  ⟨7039504, 1, 1000000, 3852136, 1, 1000000, 1222000⟩]

/-- p from 1 to 1 MPa at 278.15 K -/
def boxes_w2 : List Box := [
  ⟨7039504, 1, 1000000, 3760923, 1, 1000000, 1222000⟩]

/-- p from 10 to 10 MPa at 274.15 K -/
def boxes_w3 : List Box := [
  ⟨6495040, 1, 1000000, 3833627, 1, 1000000, 1222000⟩]

/-- p from 0.0006 to 0.0007 MPa at 274.15 K -/
def boxes_w4 : List Box := [
  ⟨7099961, 4, 1000000, 3833627, 1, 1000000, 1222000⟩]

/-- covers region 2 up to 623.15 K; temperatures 273.15, 298.15, 323.15, 348.15, 373.15, 398.15, 423.15, 448.15, 473.15, 498.15, 523.15, 533.15, 543.15, 553.15, 563.15, 573.15, 583.15, 593.15, 603.15, 613.15, 623.15 -/
def boxes2a : List Box := [
  ⟨1589, 1589, 1000000, 1394052, 82884, 1000000, 500000⟩,
  ⟨6186, 6186, 1000000, 1241110, 70060, 1000000, 500000⟩,
  ⟨19327, 19327, 1000000, 1111053, 59998, 1000000, 500000⟩,
  ⟨50773, 50773, 1000000, 999098, 51959, 1000000, 500000⟩,
  ⟨116255, 116255, 1000000, 901706, 45434, 1000000, 500000⟩,
  ⟨238323, 238323, 1000000, 816208, 40065, 1000000, 500000⟩,
  ⟨446676, 446676, 1000000, 740549, 35596, 1000000, 500000⟩,
  ⟨778086, 778086, 1000000, 673121, 31834, 1000000, 500000⟩,
  ⟨1275913, 1275913, 1000000, 612649, 28639, 1000000, 500000⟩,
  ⟨1989761, 1989761, 1000000, 558110, 25902, 1000000, 500000⟩,
  ⟨2348115, 2348115, 1000000, 522529, 9681, 1000000, 500000⟩,
  ⟨2754261, 2754261, 1000000, 503525, 9325, 1000000, 500000⟩,
  ⟨3210947, 3210947, 1000000, 485214, 8987, 1000000, 500000⟩,
  ⟨3724005, 3724005, 1000000, 467560, 8669, 1000000, 500000⟩,
  ⟨4298228, 4298228, 1000000, 450527, 8366, 1000000, 500000⟩,
  ⟨4936431, 4936431, 1000000, 434084, 8079, 1000000, 500000⟩,
  ⟨5646891, 5646891, 1000000, 418200, 7807, 1000000, 500000⟩,
  ⟨6434132, 6434132, 1000000, 402847, 7548, 1000000, 500000⟩,
  ⟨7306927, 7306927, 1000000, 387999, 7301, 1000000, 500000⟩,
  ⟨8272206, 8272206, 1000000, 373632, 7067, 1000000, 500000⟩]

/-- covers region 2 above 623.15 K; temperatures 623.15, 633.15, 643.15, 653.15, 663.15, 673.15, 683.15, 693.15, 703.15, 723.15, 743.15, 763.15, 783.15, 803.15, 823.15, 843.15, 863.15, 1073.15 -/
def boxes2b : List Box := [
  ⟨8831500, 8831500, 1000000, 359722, 6844, 1000000, 500000⟩,
  ⟨9500500, 9500500, 1000000, 346248, 6631, 1000000, 500000⟩,
  ⟨10271000, 10271000, 1000000, 333190, 6428, 1000000, 500000⟩,
  ⟨11143500, 11143500, 1000000, 320529, 6234, 1000000, 500000⟩,
  ⟨12118000, 12118000, 1000000, 308247, 6049, 1000000, 500000⟩,
  ⟨13194500, 13194500, 1000000, 296327, 5872, 1000000, 500000⟩,
  ⟨14373000, 14373000, 1000000, 284754, 5702, 1000000, 500000⟩,
  ⟨15653000, 15653000, 1000000, 273513, 5541, 1000000, 500000⟩,
  ⟨18519500, 18519500, 1000000, 257353, 10620, 1000000, 500000⟩,
  ⟨21793500, 21793500, 1000000, 236685, 10049, 1000000, 500000⟩,
  ⟨25475500, 25475500, 1000000, 217115, 9522, 1000000, 500000⟩,
  ⟨29565000, 29565000, 1000000, 198559, 9036, 1000000, 500000⟩,
  ⟨34062000, 34062000, 1000000, 180938, 8586, 1000000, 500000⟩,
  ⟨38967000, 38967000, 1000000, 164185, 8169, 1000000, 500000⟩,
  ⟨44280000, 44280000, 1000000, 148236, 7781, 1000000, 500000⟩,
  ⟨50000500, 50000500, 1000000, 133036, 7421, 1000000, 500000⟩,
  ⟨50000500, 50000500, 1000000, 64404, 61213, 1000000, 500000⟩]

/-- covers region 5 -/
def boxes5 : List Box := [
  ⟨25000000, 25000000, 1000000, 685878, 245960, 1000000, 0⟩]

end If97.Iv
