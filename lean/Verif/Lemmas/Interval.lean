import Mathlib.Analysis.Calculus.MeanValue
import Mathlib.Analysis.Calculus.Deriv.MeanValue
import Mathlib.Analysis.Calculus.Deriv.ZPow
import Mathlib.Analysis.Calculus.Deriv.Add
import Mathlib.Analysis.Calculus.Deriv.Mul
import Mathlib.Analysis.Calculus.Deriv.Pow
import Mathlib.Tactic.Eval

/-!
# A verified positivity checker for Laurent polynomials on boxes

Helper for C41 and C42; nothing here refers to the model.  A signed polynomial is a list of terms
(c/d) xᴵ yᴶ zᴷ with z = y + const, evaluated on x ≥ 0, y > 0.  The checker subdivides a box along a
given tree and accepts a leaf when a rigorous lower bound, computed with natural numbers only, is
positive: either the direct bound (every monomial is monotone in each variable) or a second-order
Taylor bound about the centre.  `verify_sound` states that an accepted box has positive values only.
-/

namespace If97.Iv

/-! ### signed polynomials and their derivatives -/

/-- the term (c/d) xᴵ yᴶ zᴷ -/
structure SM where
  c : Int
  d : Nat
  I : Nat
  J : Int
  K : Int
deriving DecidableEq

noncomputable def SM.ev (m : SM) (x y z : ℝ) : ℝ := (m.c : ℝ) / m.d * x ^ m.I * y ^ m.J * z ^ m.K
noncomputable def evS (l : List SM) (x y z : ℝ) : ℝ := (l.map fun m => m.ev x y z).sum

/-- derivative in x, term by term -/
def dX (l : List SM) : List SM := l.map fun m => ⟨m.c * m.I, m.d, m.I - 1, m.J, m.K⟩
/-- derivative in y (z = y + const moves along) -/
def dY (l : List SM) : List SM :=
  (l.map fun m => ⟨m.c * m.J, m.d, m.I, m.J - 1, m.K⟩) ++ (l.map fun m => ⟨m.c * m.K, m.d, m.I, m.J, m.K - 1⟩)

@[simp] theorem evS_nil (x y z : ℝ) : evS [] x y z = 0 := rfl
@[simp] theorem evS_cons (m : SM) (l) (x y z : ℝ) : evS (m :: l) x y z = m.ev x y z + evS l x y z := by
  simp [evS]
theorem evS_append (l l' : List SM) (x y z : ℝ) : evS (l ++ l') x y z = evS l x y z + evS l' x y z := by
  simp [evS]

theorem hasDerivAt_x (l : List SM) (x y z : ℝ) :
    HasDerivAt (fun x => evS l x y z) (evS (dX l) x y z) x := by
  induction l with
  | nil => simpa [dX] using hasDerivAt_const x (0 : ℝ)
  | cons m l ih =>
    have h1 : HasDerivAt (fun x => m.ev x y z) (SM.ev ⟨m.c * m.I, m.d, m.I - 1, m.J, m.K⟩ x y z) x := by
      unfold SM.ev
      exact ((((hasDerivAt_pow m.I x).const_mul ((m.c : ℝ) / m.d)).mul_const (y ^ m.J)).mul_const
        (z ^ m.K)).congr_deriv (by push_cast; ring)
    refine (h1.add ih).congr_deriv ?_ |>.congr_of_eventuallyEq (Filter.Eventually.of_forall fun x => by simp)
    simp [dX]

theorem hasDerivAt_y (l : List SM) (x y c : ℝ) (hy : 0 < y) (hz : 0 < y + c) :
    HasDerivAt (fun y => evS l x y (y + c)) (evS (dY l) x y (y + c)) y := by
  unfold dY
  rw [evS_append]
  induction l with
  | nil => simpa using hasDerivAt_const y (0 : ℝ)
  | cons m l ih =>
    have hJ := hasDerivAt_zpow m.J y (.inl hy.ne')
    have hK := (hasDerivAt_zpow m.K (y + c) (.inl hz.ne')).comp_add_const y c
    have h1 : HasDerivAt (fun y => m.ev x y (y + c))
        (SM.ev ⟨m.c * m.J, m.d, m.I, m.J - 1, m.K⟩ x y (y + c) +
          SM.ev ⟨m.c * m.K, m.d, m.I, m.J, m.K - 1⟩ x y (y + c)) y := by
      unfold SM.ev
      exact ((hJ.const_mul ((m.c : ℝ) / m.d * x ^ m.I)).mul hK).congr_deriv (by push_cast; ring)
    refine (h1.add ih).congr_deriv ?_
    simp only [List.map_cons, evS_cons]
    ring

/-! ### the form the checker works on: positive and negative terms apart -/

/-- the term (n/d) xᴵ yᴶ zᴷ, all of it nonnegative -/
structure Mono where
  n : Nat
  d : Nat
  I : Nat
  J : Int
  K : Int
deriving DecidableEq

noncomputable def Mono.ev (m : Mono) (x y z : ℝ) : ℝ := (m.n : ℝ) / m.d * x ^ m.I * y ^ m.J * z ^ m.K
noncomputable def evM (l : List Mono) (x y z : ℝ) : ℝ := (l.map fun m => m.ev x y z).sum

@[simp] theorem evM_nil (x y z : ℝ) : evM [] x y z = 0 := rfl
@[simp] theorem evM_cons (m : Mono) (l) (x y z : ℝ) : evM (m :: l) x y z = m.ev x y z + evM l x y z := by
  simp [evM]

def posPart : List SM → List Mono
  | [] => []
  | m :: l => if 0 < m.c then ⟨m.c.toNat, m.d, m.I, m.J, m.K⟩ :: posPart l else posPart l
def negPart : List SM → List Mono
  | [] => []
  | m :: l => if m.c < 0 then ⟨(-m.c).toNat, m.d, m.I, m.J, m.K⟩ :: negPart l else negPart l

theorem evS_split (l : List SM) (x y z : ℝ) : evS l x y z = evM (posPart l) x y z - evM (negPart l) x y z := by
  induction l with
  | nil => simp [posPart, negPart]
  | cons m l ih =>
    have e1 : 0 < m.c → ((m.c.toNat : ℕ) : ℝ) = m.c := fun h => by
      have : ((m.c.toNat : ℕ) : ℤ) = m.c := Int.toNat_of_nonneg h.le
      exact_mod_cast this
    have e2 : m.c < 0 → (((-m.c).toNat : ℕ) : ℝ) = -m.c := fun h => by
      have : (((-m.c).toNat : ℕ) : ℤ) = -m.c := Int.toNat_of_nonneg (by omega)
      exact_mod_cast this
    rw [evS_cons, ih]
    rcases lt_trichotomy m.c 0 with h | h | h
    · simp only [posPart, negPart, if_pos h, if_neg h.not_gt, evM_cons, Mono.ev, SM.ev, e2 h]; ring
    · simp [posPart, negPart, h, SM.ev]
    · simp only [posPart, negPart, if_pos h, if_neg h.not_gt, evM_cons, Mono.ev, SM.ev, e1 h]; ring

/-! ### bounds of a monomial -/

/-- the scale of all bounds -/
def SC : Nat := 2 ^ 80

/-- numerator and denominator of (y/E)ᴶ; the base of a negative power is taken from `pd` -/
def pn (J : Int) (y E : Nat) : Nat := match J with | .ofNat j => y ^ j | .negSucc j => E ^ (j + 1)
def pd (J : Int) (y E : Nat) : Nat := match J with | .ofNat j => E ^ j | .negSucc j => y ^ (j + 1)

/-- ⌊SC · n/d · (x/D)ᴵ · (y or y' over E)ᴶ · (z or z' over E)ᴷ⌋, `y'`, `z'` for negative powers -/
def Mono.val (m : Mono) (x D y y' z z' E : Nat) : Nat :=
  (SC * m.n * x ^ m.I * (pn m.J y E * pn m.K z E)) / (m.d * D ^ m.I * (pd m.J y' E * pd m.K z' E))

def sumLo (x D y y' z z' E : Nat) : List Mono → Nat
  | [] => 0
  | m :: l => m.val x D y y' z z' E + sumLo x D y y' z z' E l

theorem pw_le {J : Int} {y y' E : Nat} {Y : ℝ} (hy : 0 < y) (hE : 0 < E) (h1 : (y : ℝ) / E ≤ Y)
    (h2 : Y ≤ (y' : ℝ) / E) : (pn J y E : ℝ) / pd J y' E ≤ Y ^ J := by
  have hE' : (0 : ℝ) < E := by exact_mod_cast hE
  have hy' : (0 : ℝ) < y := by exact_mod_cast hy
  have hY : 0 < Y := lt_of_lt_of_le (by positivity) h1
  have hyy : (0 : ℝ) < y' := by
    have := lt_of_lt_of_le hY h2
    by_contra h
    exact absurd this (not_lt.2 (div_nonpos_of_nonpos_of_nonneg (not_lt.1 h) hE'.le))
  rcases J with j | j
  · simp only [pn, pd, Int.ofNat_eq_natCast, zpow_natCast]
    push_cast
    rw [← div_pow]
    exact pow_le_pow_left₀ (by positivity) h1 j
  · simp only [pn, pd, zpow_negSucc]
    push_cast
    rw [← div_pow, ← inv_pow]
    refine pow_le_pow_left₀ (by positivity) ?_ _
    rw [le_inv_comm₀ (by positivity) hY, inv_div]; exact h2

theorem le_pw {J : Int} {y y' E : Nat} {Y : ℝ} (hy : 0 < y') (hE : 0 < E) (h1 : (y' : ℝ) / E ≤ Y)
    (h2 : Y ≤ (y : ℝ) / E) : Y ^ J ≤ (pn J y E : ℝ) / pd J y' E := by
  have hE' : (0 : ℝ) < E := by exact_mod_cast hE
  have hy' : (0 : ℝ) < y' := by exact_mod_cast hy
  have hY : 0 < Y := lt_of_lt_of_le (by positivity) h1
  rcases J with j | j
  · simp only [pn, pd, Int.ofNat_eq_natCast, zpow_natCast]
    push_cast
    rw [← div_pow]
    exact pow_le_pow_left₀ hY.le h2 j
  · simp only [pn, pd, zpow_negSucc]
    push_cast
    rw [← div_pow, ← inv_pow]
    refine pow_le_pow_left₀ (by positivity) ?_ _
    rw [inv_le_comm₀ hY (by positivity), inv_div]; exact h1

theorem pn_pos {J : Int} {y E : Nat} (hy : 0 < y) (hE : 0 < E) : 0 < pn J y E := by
  rcases J with j | j <;> simp only [pn] <;> positivity
theorem pd_pos {J : Int} {y E : Nat} (hy : 0 < y) (hE : 0 < E) : 0 < pd J y E := by
  rcases J with j | j <;> simp only [pd] <;> positivity

theorem SC_pos : (0 : ℝ) < SC := by unfold SC; norm_num

section
variable {x D y y' z z' E : Nat} {X Y Z : ℝ}

theorem Mono.lo (m : Mono) (hD : 0 < D) (hE : 0 < E) (hy : 0 < y) (hz : 0 < z) (hx1 : (x : ℝ) / D ≤ X)
    (hy1 : (y : ℝ) / E ≤ Y) (hy2 : Y ≤ (y' : ℝ) / E) (hz1 : (z : ℝ) / E ≤ Z) (hz2 : Z ≤ (z' : ℝ) / E) :
    (m.val x D y y' z z' E : ℝ) ≤ SC * m.ev X Y Z := by
  have hD' : (0 : ℝ) < D := by exact_mod_cast hD
  have hY : 0 < Y := lt_of_lt_of_le (by positivity) hy1
  have hZ : 0 < Z := lt_of_lt_of_le (by positivity) hz1
  unfold Mono.val Mono.ev
  refine Nat.cast_div_le.trans ?_
  push_cast
  have hX : ((x : ℝ) / D) ^ m.I ≤ X ^ m.I := pow_le_pow_left₀ (by positivity) hx1 _
  have e : (SC : ℝ) * m.n * x ^ m.I * (pn m.J y E * pn m.K z E) / (m.d * D ^ m.I * (pd m.J y' E * pd m.K z' E)) =
      SC * (m.n / m.d * ((x : ℝ) / D) ^ m.I * ((pn m.J y E : ℝ) / pd m.J y' E) * ((pn m.K z E : ℝ) / pd m.K z' E)) := by
    rw [div_pow]
    simp only [div_eq_mul_inv, mul_inv]; ring
  rw [e]
  refine mul_le_mul_of_nonneg_left ?_ SC_pos.le
  have h0 : (0 : ℝ) ≤ m.n / m.d := by positivity
  refine mul_le_mul (mul_le_mul (mul_le_mul_of_nonneg_left hX h0) (pw_le hy hE hy1 hy2) (by positivity) ?_)
    (pw_le hz hE hz1 hz2) (by positivity) ?_
  · have : 0 ≤ X := le_trans (by positivity) hx1
    positivity
  · have : 0 ≤ X := le_trans (by positivity) hx1
    positivity

theorem Mono.hi (m : Mono) (hD : 0 < D) (hE : 0 < E) (hy : 0 < y') (hz : 0 < z') (hX0 : 0 ≤ X)
    (hx1 : X ≤ (x : ℝ) / D) (hy1 : (y' : ℝ) / E ≤ Y) (hy2 : Y ≤ (y : ℝ) / E) (hz1 : (z' : ℝ) / E ≤ Z)
    (hz2 : Z ≤ (z : ℝ) / E) : SC * m.ev X Y Z ≤ (m.val x D y y' z z' E : ℝ) + 1 := by
  have hD' : (0 : ℝ) < D := by exact_mod_cast hD
  have hE' : (0 : ℝ) < E := by exact_mod_cast hE
  have hY : 0 < Y := lt_of_lt_of_le (by positivity) hy1
  have hZ : 0 < Z := lt_of_lt_of_le (by positivity) hz1
  rcases Nat.eq_zero_or_pos m.d with hd | hd
  · have : m.ev X Y Z = 0 := by simp [Mono.ev, hd]
    rw [this, mul_zero]; positivity
  unfold Mono.val Mono.ev
  have hX : X ^ m.I ≤ ((x : ℝ) / D) ^ m.I := pow_le_pow_left₀ hX0 hx1 _
  set A := SC * m.n * x ^ m.I * (pn m.J y E * pn m.K z E) with hA
  set B := m.d * D ^ m.I * (pd m.J y' E * pd m.K z' E) with hB
  have hB0 : 0 < B := by
    have := pd_pos (J := m.J) hy hE; have := pd_pos (J := m.K) hz hE
    positivity
  have h1 : (A : ℝ) / B ≤ ((A / B : ℕ) : ℝ) + 1 := by
    rw [div_le_iff₀ (by exact_mod_cast hB0)]
    have h := Nat.lt_div_mul_add (a := A) hB0
    have h2 : A ≤ (A / B + 1) * B := by rw [add_mul, one_mul]; exact h.le
    exact_mod_cast h2
  refine le_trans ?_ h1
  rw [hA, hB]
  push_cast
  have e : (SC : ℝ) * m.n * x ^ m.I * (pn m.J y E * pn m.K z E) / (m.d * D ^ m.I * (pd m.J y' E * pd m.K z' E)) =
      SC * (m.n / m.d * ((x : ℝ) / D) ^ m.I * ((pn m.J y E : ℝ) / pd m.J y' E) * ((pn m.K z E : ℝ) / pd m.K z' E)) := by
    rw [div_pow]
    simp only [div_eq_mul_inv, mul_inv]; ring
  rw [e]
  refine mul_le_mul_of_nonneg_left ?_ SC_pos.le
  have h0 : (0 : ℝ) ≤ m.n / m.d := by positivity
  exact mul_le_mul (mul_le_mul (mul_le_mul_of_nonneg_left hX h0) (le_pw hy hE hy1 hy2) (by positivity)
    (by positivity)) (le_pw hz hE hz1 hz2) (by positivity) (by positivity)

theorem sumLo_le (hD : 0 < D) (hE : 0 < E) (hy : 0 < y) (hz : 0 < z) (hx1 : (x : ℝ) / D ≤ X)
    (hy1 : (y : ℝ) / E ≤ Y) (hy2 : Y ≤ (y' : ℝ) / E) (hz1 : (z : ℝ) / E ≤ Z) (hz2 : Z ≤ (z' : ℝ) / E) (l : List Mono) :
    (sumLo x D y y' z z' E l : ℝ) ≤ SC * evM l X Y Z := by
  induction l with
  | nil => simp [sumLo]
  | cons m l ih =>
    rw [sumLo, evM_cons, mul_add]; push_cast
    exact add_le_add (m.lo hD hE hy hz hx1 hy1 hy2 hz1 hz2) ih

theorem le_sumHi (hD : 0 < D) (hE : 0 < E) (hy : 0 < y') (hz : 0 < z') (hX0 : 0 ≤ X)
    (hx1 : X ≤ (x : ℝ) / D) (hy1 : (y' : ℝ) / E ≤ Y) (hy2 : Y ≤ (y : ℝ) / E) (hz1 : (z' : ℝ) / E ≤ Z)
    (hz2 : Z ≤ (z : ℝ) / E) (l : List Mono) {k : Nat} (hk : l.length ≤ k) :
    SC * evM l X Y Z ≤ (sumLo x D y y' z z' E l : ℝ) + k := by
  induction l generalizing k with
  | nil => simp [sumLo]
  | cons m l ih =>
    obtain ⟨k, rfl⟩ : ∃ j, k = j + 1 := ⟨k - 1, by simp only [List.length_cons] at hk; omega⟩
    have := ih (k := k) (by simpa using hk)
    rw [sumLo, evM_cons, mul_add]; push_cast
    linarith [m.hi hD hE hy hz hX0 hx1 hy1 hy2 hz1 hz2]
end

/-! ### boxes, trees and the checker -/

/-- |x - xc/D| ≤ xr/D, |y - yc/E| ≤ yr/E, and z = y + c/E -/
structure Box where
  xc : Nat
  xr : Nat
  D : Nat
  yc : Nat
  yr : Nat
  E : Nat
  c : Nat
deriving DecidableEq

def Box.Wf (B : Box) : Prop := B.xr ≤ B.xc ∧ 0 < B.D ∧ B.yr < B.yc ∧ 0 < B.E

instance (B : Box) : Decidable B.Wf := by unfold Box.Wf; infer_instance

def Box.Mem (B : Box) (x y : ℝ) : Prop := |x - B.xc / B.D| ≤ B.xr / B.D ∧ |y - B.yc / B.E| ≤ B.yr / B.E

/-- a function with its derivatives, positive and negative terms apart -/
structure Poly where
  P : List Mono
  N : List Mono
deriving DecidableEq

structure Fun where
  f : Poly
  x : Poly
  y : Poly
  xx : Poly
  xy : Poly
  yy : Poly
deriving DecidableEq

def mkPoly (l : List SM) : Poly := ⟨posPart l, negPart l⟩
def mkFun (l : List SM) : Fun :=
  ⟨mkPoly l, mkPoly (dX l), mkPoly (dY l), mkPoly (dX (dX l)), mkPoly (dY (dX l)), mkPoly (dY (dY l))⟩

/-- the number of terms is below this -/
def KM : Nat := 128
def Poly.Small (p : Poly) : Prop := p.P.length ≤ KM ∧ p.N.length ≤ KM
instance (p : Poly) : Decidable p.Small := by unfold Poly.Small; infer_instance
def Fun.Small (F : Fun) : Prop := F.f.Small ∧ F.x.Small ∧ F.y.Small ∧ F.xx.Small ∧ F.xy.Small ∧ F.yy.Small
instance (F : Fun) : Decidable F.Small := by unfold Fun.Small; infer_instance

def loB (B : Box) (l : List Mono) : Nat :=
  sumLo (B.xc - B.xr) B.D (B.yc - B.yr) (B.yc + B.yr) (B.yc - B.yr + B.c) (B.yc + B.yr + B.c) B.E l
def hiB (B : Box) (l : List Mono) : Nat :=
  sumLo (B.xc + B.xr) B.D (B.yc + B.yr) (B.yc - B.yr) (B.yc + B.yr + B.c) (B.yc - B.yr + B.c) B.E l + KM
def vlC (B : Box) (l : List Mono) : Nat := sumLo B.xc B.D B.yc B.yc (B.yc + B.c) (B.yc + B.c) B.E l

/-- upper bound of SC·|p| at the centre -/
def absC (B : Box) (p : Poly) : Nat := (vlC B p.P - vlC B p.N) + (vlC B p.N - vlC B p.P) + KM

/-- direct bound -/
def leaf0 (B : Box) (F : Fun) : Bool := Nat.blt (hiB B F.f.N) (loB B F.f.P)

/-- second-order bound about the centre -/
def leaf2 (B : Box) (F : Fun) : Bool :=
  Nat.blt (2 * B.D ^ 2 * B.E ^ 2 * (vlC B F.f.N + KM) +
      2 * B.D * B.E ^ 2 * B.xr * absC B F.x + 2 * B.D ^ 2 * B.E * B.yr * absC B F.y +
      B.E ^ 2 * B.xr ^ 2 * (hiB B F.xx.N - loB B F.xx.P) + B.D ^ 2 * B.yr ^ 2 * (hiB B F.yy.N - loB B F.yy.P) +
      2 * B.D * B.E * B.xr * B.yr * ((hiB B F.xy.P - loB B F.xy.N) + (hiB B F.xy.N - loB B F.xy.P)))
    (2 * B.D ^ 2 * B.E ^ 2 * vlC B F.f.P)

/-- how a box is subdivided -/
inductive Tree
  | l0
  | l2
  | x (s t : Tree)
  | y (s t : Tree)
deriving Inhabited

def Box.xL (B : Box) : Box := { B with xc := 2 * B.xc - B.xr, D := 2 * B.D }
def Box.xR (B : Box) : Box := { B with xc := 2 * B.xc + B.xr, D := 2 * B.D }
def Box.yL (B : Box) : Box := { B with yc := 2 * B.yc - B.yr, E := 2 * B.E, c := 2 * B.c }
def Box.yR (B : Box) : Box := { B with yc := 2 * B.yc + B.yr, E := 2 * B.E, c := 2 * B.c }

def verify (F : Fun) : Tree → Box → Bool
  | .l0, B => leaf0 B F
  | .l2, B => leaf2 B F
  | .x s t, B => verify F s B.xL && verify F t B.xR
  | .y s t, B => verify F s B.yL && verify F t B.yR

/-- The search for the tree; its result is only ever used through `verify`. -/
partial def search (F : Fun) (fuel : Nat) (B : Box) : Tree :=
  if leaf0 B F then .l0 else if leaf2 B F then .l2 else if fuel = 0 then .l0 else
  let ex := 2 * B.D * B.E ^ 2 * B.xr * absC B F.x + B.E ^ 2 * B.xr ^ 2 * (hiB B F.xx.N - loB B F.xx.P)
  let ey := 2 * B.D ^ 2 * B.E * B.yr * absC B F.y + B.D ^ 2 * B.yr ^ 2 * (hiB B F.yy.N - loB B F.yy.P)
  if ex > ey then .x (search F (fuel - 1) B.xL) (search F (fuel - 1) B.xR)
  else .y (search F (fuel - 1) B.yL) (search F (fuel - 1) B.yR)

partial def Tree.size : Tree → Nat
  | .l0 | .l2 => 1
  | .x s t | .y s t => s.size + t.size

/-! ### soundness -/

/-- Taylor's formula with a lower bound of the second derivative. -/
theorem taylor_lower {φ φ' φ'' : ℝ → ℝ} {a b c L : ℝ} (hc : c ∈ Set.Icc a b)
    (h1 : ∀ t ∈ Set.Icc a b, HasDerivAt φ (φ' t) t) (h2 : ∀ t ∈ Set.Icc a b, HasDerivAt φ' (φ'' t) t)
    (hL : ∀ t ∈ Set.Icc a b, L ≤ φ'' t) {t : ℝ} (ht : t ∈ Set.Icc a b) :
    φ c + φ' c * (t - c) + L / 2 * (t - c) ^ 2 ≤ φ t := by
  set ψ' : ℝ → ℝ := fun t => φ' t - L * (t - c) with hψ'
  have d' : ∀ t ∈ Set.Icc a b, HasDerivAt ψ' (φ'' t - L) t := fun t ht =>
    ((h2 t ht).sub (((hasDerivAt_id t).sub_const c).const_mul L)).congr_deriv (by simp)
  have mono : MonotoneOn ψ' (Set.Icc a b) := by
    refine monotoneOn_of_deriv_nonneg (convex_Icc a b) (fun t ht => (d' t ht).continuousAt.continuousWithinAt)
      (fun t ht => (d' t (interior_subset ht)).differentiableAt.differentiableWithinAt) fun t ht => ?_
    rw [(d' t (interior_subset ht)).deriv]
    linarith [hL t (interior_subset ht)]
  set ψ : ℝ → ℝ := fun t => φ t - φ' c * (t - c) - L / 2 * (t - c) ^ 2 with hψ
  have d : ∀ t ∈ Set.Icc a b, HasDerivAt ψ (ψ' t - ψ' c) t := fun t ht => by
    have e1 := ((hasDerivAt_id t).sub_const c).const_mul (φ' c)
    have e2 := (((hasDerivAt_id t).sub_const c).pow 2).const_mul (L / 2)
    exact (((h1 t ht).sub e1).sub e2).congr_deriv (by simp [hψ']; ring)
  have key : ψ c ≤ ψ t := by
    rcases le_total c t with h | h
    · have sub : Set.Icc c t ⊆ Set.Icc a b := Set.Icc_subset_Icc hc.1 ht.2
      have := monotoneOn_of_deriv_nonneg (convex_Icc c t)
        (fun s hs => (d s (sub hs)).continuousAt.continuousWithinAt)
        (fun s hs => (d s (sub (interior_subset hs))).differentiableAt.differentiableWithinAt) (fun s hs => by
          have hs' := interior_subset hs
          rw [(d s (sub hs')).deriv]
          linarith [mono hc (sub hs') hs'.1])
      exact this ⟨le_rfl, h⟩ ⟨h, le_rfl⟩ h
    · have sub : Set.Icc t c ⊆ Set.Icc a b := Set.Icc_subset_Icc ht.1 hc.2
      have := antitoneOn_of_deriv_nonpos (convex_Icc t c)
        (fun s hs => (d s (sub hs)).continuousAt.continuousWithinAt)
        (fun s hs => (d s (sub (interior_subset hs))).differentiableAt.differentiableWithinAt) (fun s hs => by
          have hs' := interior_subset hs
          rw [(d s (sub hs')).deriv]
          linarith [mono (sub hs') hc hs'.2])
      exact this ⟨le_rfl, h⟩ ⟨h, le_rfl⟩ h
  simp only [hψ] at key
  have : φ c ≤ φ t - φ' c * (t - c) - L / 2 * (t - c) ^ 2 := by simpa using key
  linarith

theorem tsub_cast_ge (a b : ℕ) : (a : ℝ) - b ≤ ((a - b : ℕ) : ℝ) := by
  have : a ≤ a - b + b := by omega
  have : (a : ℝ) ≤ ((a - b : ℕ) : ℝ) + b := by exact_mod_cast this
  linarith

theorem SC_abs (t : ℝ) : SC * |t| = |SC * t| := by rw [abs_mul, abs_of_pos SC_pos]

/-- the value of the signed polynomial along a box -/
noncomputable def fev (l : List SM) (B : Box) (x y : ℝ) : ℝ := evS l x y (y + B.c / B.E)

section
variable {B : Box} (hB : B.Wf)
include hB

theorem facts : (0 : ℝ) < B.D ∧ (0 : ℝ) < B.E ∧ 0 < B.yc - B.yr ∧ 0 < B.yc - B.yr + B.c ∧ 0 < B.yc ∧ 0 < B.yc + B.c ∧
    ((B.xc - B.xr : ℕ) : ℝ) = B.xc - B.xr ∧ ((B.yc - B.yr : ℕ) : ℝ) = B.yc - B.yr := by
  obtain ⟨h1, h2, h3, h4⟩ := hB
  refine ⟨by exact_mod_cast h2, by exact_mod_cast h4, by omega, by omega, by omega, by omega, Nat.cast_sub h1, Nat.cast_sub h3.le⟩

variable {X Y : ℝ} (hm : B.Mem X Y)
include hm

theorem bounds : 0 ≤ X ∧ 0 < Y ∧ 0 < Y + B.c / B.E ∧ ((B.xc - B.xr : ℕ) : ℝ) / B.D ≤ X ∧ X ≤ ((B.xc + B.xr : ℕ) : ℝ) / B.D ∧
    ((B.yc - B.yr : ℕ) : ℝ) / B.E ≤ Y ∧ Y ≤ ((B.yc + B.yr : ℕ) : ℝ) / B.E ∧
    ((B.yc - B.yr + B.c : ℕ) : ℝ) / B.E ≤ Y + B.c / B.E ∧ Y + B.c / B.E ≤ ((B.yc + B.yr + B.c : ℕ) : ℝ) / B.E := by
  obtain ⟨hD, hE, hy, hz, hyc, hzc, ex, ey⟩ := facts hB
  obtain ⟨h1, h2⟩ := hm
  rw [abs_le] at h1 h2
  have a1 : ((B.xc - B.xr : ℕ) : ℝ) / B.D ≤ X := by rw [ex, sub_div]; linarith
  have a2 : ((B.yc - B.yr : ℕ) : ℝ) / B.E ≤ Y := by rw [ey, sub_div]; linarith
  have hY : 0 < Y := lt_of_lt_of_le (by positivity) a2
  refine ⟨le_trans (by positivity) a1, hY, by positivity, a1, ?_, a2, ?_, ?_, ?_⟩
  · push_cast; rw [add_div]; linarith
  · push_cast; rw [add_div]; linarith
  · rw [Nat.cast_add, add_div]; linarith
  · rw [Nat.cast_add, add_div]; push_cast; rw [add_div]; linarith

theorem loB_le (l : List Mono) : (loB B l : ℝ) ≤ SC * evM l X Y (Y + B.c / B.E) := by
  obtain ⟨_, _, hy, hz, _, _, _, _⟩ := facts hB
  obtain ⟨_, _, _, b1, b2, b3, b4, b5, b6⟩ := bounds hB hm
  exact sumLo_le hB.2.1 hB.2.2.2 hy hz b1 b3 b4 b5 b6 l

theorem le_hiB (l : List Mono) (hk : l.length ≤ KM) : SC * evM l X Y (Y + B.c / B.E) ≤ (hiB B l : ℝ) := by
  obtain ⟨_, _, hy, hz, _, _, _, _⟩ := facts hB
  obtain ⟨b0, _, _, b1, b2, b3, b4, b5, b6⟩ := bounds hB hm
  unfold hiB; push_cast
  exact le_sumHi hB.2.1 hB.2.2.2 hy hz b0 b2 b3 b4 b5 b6 l hk

omit hm in
theorem vlC_le (l : List Mono) : (vlC B l : ℝ) ≤ SC * evM l (B.xc / B.D) (B.yc / B.E) (B.yc / B.E + B.c / B.E) := by
  obtain ⟨_, _, _, _, hy, hz, _, _⟩ := facts hB
  have e : ((B.yc + B.c : ℕ) : ℝ) / B.E = B.yc / B.E + B.c / B.E := by push_cast; rw [add_div]
  exact sumLo_le hB.2.1 hB.2.2.2 hy hz le_rfl le_rfl le_rfl e.le e.ge l

omit hm in
theorem le_vlC (l : List Mono) (hk : l.length ≤ KM) :
    SC * evM l (B.xc / B.D) (B.yc / B.E) (B.yc / B.E + B.c / B.E) ≤ (vlC B l : ℝ) + KM := by
  obtain ⟨_, _, _, _, hy, hz, _, _⟩ := facts hB
  have e : ((B.yc + B.c : ℕ) : ℝ) / B.E = B.yc / B.E + B.c / B.E := by push_cast; rw [add_div]
  exact le_sumHi hB.2.1 hB.2.2.2 hy hz (by positivity) le_rfl le_rfl le_rfl e.le e.ge l hk

theorem fev_lower (l : List SM) (hs : (mkPoly l).Small) :
    (loB B (mkPoly l).P : ℝ) - hiB B (mkPoly l).N ≤ SC * fev l B X Y := by
  unfold fev
  rw [evS_split, mul_sub]
  have h1 := loB_le hB hm (posPart l)
  have h2 := le_hiB hB hm (negPart l) hs.2
  simp only [mkPoly]
  linarith

theorem fev_upper (l : List SM) (hs : (mkPoly l).Small) :
    SC * fev l B X Y ≤ (hiB B (mkPoly l).P : ℝ) - loB B (mkPoly l).N := by
  unfold fev
  rw [evS_split, mul_sub]
  have h1 := le_hiB hB hm (posPart l) hs.1
  have h2 := loB_le hB hm (negPart l)
  simp only [mkPoly]
  linarith

omit hm in
theorem absC_ge (l : List SM) (hs : (mkPoly l).Small) :
    SC * |fev l B (B.xc / B.D) (B.yc / B.E)| ≤ absC B (mkPoly l) := by
  have h1 := vlC_le hB (posPart l)
  have h2 := le_vlC hB (posPart l) hs.1
  have h3 := vlC_le hB (negPart l)
  have h4 := le_vlC hB (negPart l) hs.2
  unfold fev absC
  rw [evS_split]
  simp only [mkPoly]
  push_cast
  set u := vlC B (posPart l)
  set v := vlC B (negPart l)
  have e1 := tsub_cast_ge u v
  have e2 := tsub_cast_ge v u
  have e3 : (0 : ℝ) ≤ ((u - v : ℕ) : ℝ) := by positivity
  have e4 : (0 : ℝ) ≤ ((v - u : ℕ) : ℝ) := by positivity
  rw [SC_abs, abs_le, mul_sub]
  constructor <;> linarith

end

theorem leaf0_sound {l : List SM} {B : Box} (hB : B.Wf) (hs : (mkFun l).Small) (h : leaf0 B (mkFun l) = true)
    {X Y : ℝ} (hm : B.Mem X Y) : 0 < fev l B X Y := by
  have h1 := fev_lower hB hm l hs.1
  have h2 : (hiB B (mkPoly l).N : ℝ) < loB B (mkPoly l).P := by
    have : hiB B (mkPoly l).N < loB B (mkPoly l).P := by simpa only [leaf0, Nat.blt_eq, mkFun] using h
    exact_mod_cast this
  have h3 : 0 < SC * fev l B X Y := by linarith
  exact (pos_iff_pos_of_mul_pos h3).1 SC_pos

/-- the arithmetic of the second-order bound -/
theorem assemble {D E Xr Yr X Y xc yc xr yr S Lx Ly M Gx Gy f f0 fY fx fxY fy P N : ℝ} (hD : 0 < D) (hE : 0 < E)
    (hxr : xr = Xr / D) (hyr : yr = Yr / E) (hX : |X - xc| ≤ xr) (hY : |Y - yc| ≤ yr) (S0 : 0 < S)
    (Lx0 : 0 ≤ Lx) (Ly0 : 0 ≤ Ly) (M0 : 0 ≤ M)
    (t1 : fY + fxY * (X - xc) + (-Lx / S) / 2 * (X - xc) ^ 2 ≤ f)
    (t2 : f0 + fy * (Y - yc) + (-Ly / S) / 2 * (Y - yc) ^ 2 ≤ fY)
    (t3 : |fxY - fx| ≤ M / S * |Y - yc|) (gx : S * |fx| ≤ Gx) (gy : S * |fy| ≤ Gy) (gf : P - N ≤ S * f0)
    (hlt : 2 * D ^ 2 * E ^ 2 * N + 2 * D * E ^ 2 * Xr * Gx + 2 * D ^ 2 * E * Yr * Gy + E ^ 2 * Xr ^ 2 * Lx +
      D ^ 2 * Yr ^ 2 * Ly + 2 * D * E * Xr * Yr * M < 2 * D ^ 2 * E ^ 2 * P) : 0 < f := by
  have hxr0 : 0 ≤ xr := le_trans (abs_nonneg _) hX
  have hyr0 : 0 ≤ yr := le_trans (abs_nonneg _) hY
  have q1 : -(|fy| * yr) ≤ fy * (Y - yc) := by
    have := neg_abs_le (fy * (Y - yc)); rw [abs_mul] at this
    linarith [mul_le_mul_of_nonneg_left hY (abs_nonneg fy)]
  have q2 : -((|fx| + M / S * yr) * xr) ≤ fxY * (X - xc) := by
    have h5 := neg_abs_le (fxY * (X - xc)); rw [abs_mul] at h5
    have h6 : |fxY| ≤ |fx| + M / S * yr := by
      have h7 : |fxY| - |fx| ≤ |fxY - fx| := abs_sub_abs_le_abs_sub _ _
      have h8 : M / S * |Y - yc| ≤ M / S * yr := mul_le_mul_of_nonneg_left hY (by positivity)
      linarith
    have h9 : |fxY| * |X - xc| ≤ (|fx| + M / S * yr) * xr :=
      mul_le_mul h6 hX (abs_nonneg _) (le_trans (abs_nonneg _) h6)
    linarith
  have q3 : (X - xc) ^ 2 ≤ xr ^ 2 := by rw [← sq_abs (X - xc)]; exact pow_le_pow_left₀ (abs_nonneg _) hX 2
  have q4 : (Y - yc) ^ 2 ≤ yr ^ 2 := by rw [← sq_abs (Y - yc)]; exact pow_le_pow_left₀ (abs_nonneg _) hY 2
  have q5 : Lx / S / 2 * (X - xc) ^ 2 ≤ Lx / S / 2 * xr ^ 2 := mul_le_mul_of_nonneg_left q3 (by positivity)
  have q6 : Ly / S / 2 * (Y - yc) ^ 2 ≤ Ly / S / 2 * yr ^ 2 := mul_le_mul_of_nonneg_left q4 (by positivity)
  have e5 : (-Lx / S) / 2 * (X - xc) ^ 2 = -(Lx / S / 2 * (X - xc) ^ 2) := by ring
  have e6 : (-Ly / S) / 2 * (Y - yc) ^ 2 = -(Ly / S / 2 * (Y - yc) ^ 2) := by ring
  rw [e5] at t1; rw [e6] at t2
  have main : f0 - |fy| * yr - (|fx| + M / S * yr) * xr - Lx / S / 2 * xr ^ 2 - Ly / S / 2 * yr ^ 2 ≤ f := by
    linarith
  refine lt_of_lt_of_le ?_ main
  have hpos : 0 < S * (f0 - |fy| * yr - (|fx| + M / S * yr) * xr - Lx / S / 2 * xr ^ 2 - Ly / S / 2 * yr ^ 2) := by
    have e : S * (f0 - |fy| * yr - (|fx| + M / S * yr) * xr - Lx / S / 2 * xr ^ 2 - Ly / S / 2 * yr ^ 2) =
        S * f0 - S * |fy| * yr - S * |fx| * xr - M * yr * xr - Lx / 2 * xr ^ 2 - Ly / 2 * yr ^ 2 := by
      field_simp; ring
    rw [e]
    have r1 : S * |fy| * yr ≤ Gy * yr := mul_le_mul_of_nonneg_right gy hyr0
    have r2 : S * |fx| * xr ≤ Gx * xr := mul_le_mul_of_nonneg_right gx hxr0
    have r3 : 0 < P - N - Gy * yr - Gx * xr - M * yr * xr - Lx / 2 * xr ^ 2 - Ly / 2 * yr ^ 2 := by
      have e2 : P - N - Gy * yr - Gx * xr - M * yr * xr - Lx / 2 * xr ^ 2 - Ly / 2 * yr ^ 2 =
          (2 * D ^ 2 * E ^ 2 * P - (2 * D ^ 2 * E ^ 2 * N + 2 * D * E ^ 2 * Xr * Gx + 2 * D ^ 2 * E * Yr * Gy +
            E ^ 2 * Xr ^ 2 * Lx + D ^ 2 * Yr ^ 2 * Ly + 2 * D * E * Xr * Yr * M)) / (2 * D ^ 2 * E ^ 2) := by
        rw [hxr, hyr]; field_simp; ring
      rw [e2]
      exact div_pos (by linarith) (by positivity)
    linarith
  exact (pos_iff_pos_of_mul_pos hpos).1 S0

theorem leaf2_sound {l : List SM} {B : Box} (hB : B.Wf) (hs : (mkFun l).Small) (h : leaf2 B (mkFun l) = true)
    {X Y : ℝ} (hm : B.Mem X Y) : 0 < fev l B X Y := by
  obtain ⟨s0, sx, sy, sxx, sxy, syy⟩ := hs
  obtain ⟨hD, hE, _⟩ := facts hB
  have hlt : 2 * B.D ^ 2 * B.E ^ 2 * (vlC B (negPart l) + KM) +
      2 * B.D * B.E ^ 2 * B.xr * absC B (mkPoly (dX l)) + 2 * B.D ^ 2 * B.E * B.yr * absC B (mkPoly (dY l)) +
      B.E ^ 2 * B.xr ^ 2 * (hiB B (mkPoly (dX (dX l))).N - loB B (mkPoly (dX (dX l))).P) +
      B.D ^ 2 * B.yr ^ 2 * (hiB B (mkPoly (dY (dY l))).N - loB B (mkPoly (dY (dY l))).P) +
      2 * B.D * B.E * B.xr * B.yr * ((hiB B (mkPoly (dY (dX l))).P - loB B (mkPoly (dY (dX l))).N) +
        (hiB B (mkPoly (dY (dX l))).N - loB B (mkPoly (dY (dX l))).P)) <
      2 * B.D ^ 2 * B.E ^ 2 * vlC B (posPart l) := by
    simpa only [leaf2, Nat.blt_eq, mkFun, mkPoly] using h
  set Gx : ℕ := absC B (mkPoly (dX l))
  set Gy : ℕ := absC B (mkPoly (dY l))
  set Lx : ℕ := hiB B (mkPoly (dX (dX l))).N - loB B (mkPoly (dX (dX l))).P with hLx
  set Ly : ℕ := hiB B (mkPoly (dY (dY l))).N - loB B (mkPoly (dY (dY l))).P with hLy
  set M : ℕ := (hiB B (mkPoly (dY (dX l))).P - loB B (mkPoly (dY (dX l))).N) +
        (hiB B (mkPoly (dY (dX l))).N - loB B (mkPoly (dY (dX l))).P) with hM
  have hlt' : 2 * (B.D : ℝ) ^ 2 * B.E ^ 2 * (vlC B (negPart l) + KM) + 2 * B.D * B.E ^ 2 * B.xr * Gx +
      2 * B.D ^ 2 * B.E * B.yr * Gy + B.E ^ 2 * B.xr ^ 2 * Lx + B.D ^ 2 * B.yr ^ 2 * Ly +
      2 * B.D * B.E * B.xr * B.yr * M < 2 * B.D ^ 2 * B.E ^ 2 * vlC B (posPart l) := by exact_mod_cast hlt
  set xc : ℝ := B.xc / B.D with hxc
  set yc : ℝ := B.yc / B.E with hyc
  set xr : ℝ := B.xr / B.D with hxr
  set yr : ℝ := B.yr / B.E with hyr
  set cz : ℝ := B.c / B.E with hcz
  have hxr0 : 0 ≤ xr := by positivity
  have hyr0 : 0 ≤ yr := by positivity
  have memy : ∀ y ∈ Set.Icc (yc - yr) (yc + yr), ∀ x ∈ Set.Icc (xc - xr) (xc + xr), B.Mem x y := fun y hy x hx =>
    ⟨abs_le.2 ⟨by linarith [hx.1], by linarith [hx.2]⟩, abs_le.2 ⟨by linarith [hy.1], by linarith [hy.2]⟩⟩
  have hXm : X ∈ Set.Icc (xc - xr) (xc + xr) := by
    have := abs_le.1 hm.1; exact ⟨by linarith [this.1], by linarith [this.2]⟩
  have hYm : Y ∈ Set.Icc (yc - yr) (yc + yr) := by
    have := abs_le.1 hm.2; exact ⟨by linarith [this.1], by linarith [this.2]⟩
  have hxcm : xc ∈ Set.Icc (xc - xr) (xc + xr) := ⟨by linarith, by linarith⟩
  have hycm : yc ∈ Set.Icc (yc - yr) (yc + yr) := ⟨by linarith, by linarith⟩
  have posy : ∀ y ∈ Set.Icc (yc - yr) (yc + yr), 0 < y ∧ 0 < y + cz := fun y hy =>
    let b := bounds hB (memy y hy xc hxcm); ⟨b.2.1, b.2.2.1⟩
  -- x direction at height Y
  have t1 : fev l B xc Y + fev (dX l) B xc Y * (X - xc) + (-(Lx : ℝ) / SC) / 2 * (X - xc) ^ 2 ≤ fev l B X Y := by
    refine taylor_lower (φ := fun x => fev l B x Y) (φ' := fun x => fev (dX l) B x Y)
      (φ'' := fun x => fev (dX (dX l)) B x Y) hxcm (fun x _ => hasDerivAt_x l x Y _)
      (fun x _ => hasDerivAt_x (dX l) x Y _) (fun x hx => ?_) hXm
    rw [div_le_iff₀ SC_pos]
    have := fev_lower hB (memy Y hYm x hx) (dX (dX l)) sxx
    have e := tsub_cast_ge (hiB B (mkPoly (dX (dX l))).N) (loB B (mkPoly (dX (dX l))).P)
    rw [← hLx] at e
    linarith
  -- y direction at xc
  have t2 : fev l B xc yc + fev (dY l) B xc yc * (Y - yc) + (-(Ly : ℝ) / SC) / 2 * (Y - yc) ^ 2 ≤ fev l B xc Y := by
    refine taylor_lower (φ := fun y => fev l B xc y) (φ' := fun y => fev (dY l) B xc y)
      (φ'' := fun y => fev (dY (dY l)) B xc y) hycm (fun y hy => hasDerivAt_y l xc y _ (posy y hy).1 (posy y hy).2)
      (fun y hy => hasDerivAt_y (dY l) xc y _ (posy y hy).1 (posy y hy).2) (fun y hy => ?_) hYm
    rw [div_le_iff₀ SC_pos]
    have := fev_lower hB (memy y hy xc hxcm) (dY (dY l)) syy
    have e := tsub_cast_ge (hiB B (mkPoly (dY (dY l))).N) (loB B (mkPoly (dY (dY l))).P)
    rw [← hLy] at e
    linarith
  -- the slope in x changes little along y
  have t3 : |fev (dX l) B xc Y - fev (dX l) B xc yc| ≤ M / SC * |Y - yc| := by
    have := Convex.norm_image_sub_le_of_norm_hasDerivWithin_le (f := fun y => fev (dX l) B xc y)
      (f' := fun y => fev (dY (dX l)) B xc y) (C := M / SC) (s := Set.Icc (yc - yr) (yc + yr))
      (fun y hy => (hasDerivAt_y (dX l) xc y _ (posy y hy).1 (posy y hy).2).hasDerivWithinAt)
      (fun y hy => by
        rw [Real.norm_eq_abs, le_div_iff₀ SC_pos, mul_comm, SC_abs]
        have a1 := fev_lower hB (memy y hy xc hxcm) (dY (dX l)) sxy
        have a2 := fev_upper hB (memy y hy xc hxcm) (dY (dX l)) sxy
        have e1 := tsub_cast_ge (hiB B (mkPoly (dY (dX l))).N) (loB B (mkPoly (dY (dX l))).P)
        have e2 := tsub_cast_ge (hiB B (mkPoly (dY (dX l))).P) (loB B (mkPoly (dY (dX l))).N)
        have e3 : (0 : ℝ) ≤ ((hiB B (mkPoly (dY (dX l))).N - loB B (mkPoly (dY (dX l))).P : ℕ) : ℝ) := by positivity
        have e4 : (0 : ℝ) ≤ ((hiB B (mkPoly (dY (dX l))).P - loB B (mkPoly (dY (dX l))).N : ℕ) : ℝ) := by positivity
        rw [hM, abs_le]; push_cast
        constructor <;> linarith)
      (convex_Icc _ _) hycm hYm
    simpa [Real.norm_eq_abs] using this
  have g0 := vlC_le hB (posPart l)
  have g1 := le_vlC hB (negPart l) s0.2
  have gf : (vlC B (posPart l) : ℝ) - (vlC B (negPart l) + KM) ≤ SC * fev l B xc yc := by
    unfold fev; rw [evS_split, mul_sub]; linarith
  have gx := absC_ge hB (dX l) sx
  have gy := absC_ge hB (dY l) sy
  refine assemble hD hE hxr hyr hm.1 hm.2 SC_pos (Nat.cast_nonneg Lx) (Nat.cast_nonneg Ly) (Nat.cast_nonneg M) t1 t2 t3 gx gy gf ?_
  exact hlt'

/-! splitting -/

theorem split_abs {c r D t : ℝ} (hD : 0 < D) (h : |t - c / D| ≤ r / D) :
    |t - (2 * c - r) / (2 * D)| ≤ r / (2 * D) ∨ |t - (2 * c + r) / (2 * D)| ≤ r / (2 * D) := by
  rw [abs_le] at h
  have e1 : (2 * c - r) / (2 * D) = c / D - r / D / 2 := by field_simp
  have e2 : (2 * c + r) / (2 * D) = c / D + r / D / 2 := by field_simp
  have e3 : r / (2 * D) = r / D / 2 := by field_simp
  rw [e1, e2, e3]
  rcases le_total t (c / D) with h' | h'
  · left; rw [abs_le]; constructor <;> linarith
  · right; rw [abs_le]; constructor <;> linarith

theorem verify_sound {l : List SM} (hs : (mkFun l).Small) {t : Tree} {B : Box} (hB : B.Wf)
    (h : verify (mkFun l) t B = true) {X Y : ℝ} (hm : B.Mem X Y) : 0 < fev l B X Y := by
  induction t generalizing B with
  | l0 => exact leaf0_sound hB hs h hm
  | l2 => exact leaf2_sound hB hs h hm
  | x s t ih1 ih2 =>
    obtain ⟨h1, h2⟩ := Bool.and_eq_true_iff.1 h
    obtain ⟨w1, w2, w3, w4⟩ := hB
    have hD : (0 : ℝ) < B.D := by exact_mod_cast w2
    have c : ((2 * B.xc - B.xr : ℕ) : ℝ) = 2 * B.xc - B.xr := by
      rw [Nat.cast_sub (by omega)]; push_cast; rfl
    rcases split_abs hD hm.1 with a | a
    · refine ih1 (B := B.xL) ⟨by simp only [Box.xL]; omega, by simp only [Box.xL]; omega, w3, w4⟩ h1 ⟨?_, hm.2⟩
      simp only [Box.xL]; rw [c]; push_cast; exact a
    · refine ih2 (B := B.xR) ⟨by simp only [Box.xR]; omega, by simp only [Box.xR]; omega, w3, w4⟩ h2 ⟨?_, hm.2⟩
      simp only [Box.xR]; push_cast; exact a
  | y s t ih1 ih2 =>
    obtain ⟨h1, h2⟩ := Bool.and_eq_true_iff.1 h
    obtain ⟨w1, w2, w3, w4⟩ := hB
    have hE : (0 : ℝ) < B.E := by exact_mod_cast w4
    have c : ((2 * B.yc - B.yr : ℕ) : ℝ) = 2 * B.yc - B.yr := by
      rw [Nat.cast_sub (by omega)]; push_cast; rfl
    have ez : ((2 * B.c : ℕ) : ℝ) / ((2 * B.E : ℕ) : ℝ) = B.c / B.E := by push_cast; field_simp
    rcases split_abs hE hm.2 with a | a
    · have := ih1 (B := B.yL) ⟨w1, w2, by simp only [Box.yL]; omega, by simp only [Box.yL]; omega⟩ h1
        ⟨hm.1, by simp only [Box.yL]; rw [c]; push_cast; exact a⟩
      simpa only [fev, Box.yL, ez] using this
    · have := ih2 (B := B.yR) ⟨w1, w2, by simp only [Box.yR]; omega, by simp only [Box.yR]; omega⟩ h2
        ⟨hm.1, by simp only [Box.yR]; push_cast; exact a⟩
      simpa only [fev, Box.yR, ez] using this

/-! ### the same checker in a form the kernel evaluates quickly -/

/-- `k n`, with `n` evaluated first -/
noncomputable def force {α : Type} (n : Nat) (k : Nat → α) : α := Nat.rec (k 0) (fun m _ => k (Nat.succ m)) n

theorem force_eq {α : Type} (n : Nat) (k : Nat → α) : force n k = k n := by cases n <;> rfl

noncomputable def sumF (x D y y' z z' E : Nat) (l : List Mono) : Nat :=
  List.rec (motive := fun _ => Nat) (nat_lit 0) (fun m _ ih => Nat.add ih
    (Mono.rec (motive := fun _ => Nat) (fun n d I J K =>
      Nat.div
        (Nat.mul (Nat.mul (Nat.mul (nat_lit 1208925819614629174706176) n) (Nat.pow x I))
          (Nat.mul (Int.rec (motive := fun _ => Nat) (fun j => Nat.pow y j) (fun j => Nat.pow E (Nat.succ j)) J)
            (Int.rec (motive := fun _ => Nat) (fun j => Nat.pow z j) (fun j => Nat.pow E (Nat.succ j)) K)))
        (Nat.mul (Nat.mul d (Nat.pow D I))
          (Nat.mul (Int.rec (motive := fun _ => Nat) (fun j => Nat.pow E j) (fun j => Nat.pow y' (Nat.succ j)) J)
            (Int.rec (motive := fun _ => Nat) (fun j => Nat.pow E j) (fun j => Nat.pow z' (Nat.succ j)) K)))) m)) l

theorem sumF_eq (x D y y' z z' E : Nat) (l : List Mono) : sumF x D y y' z z' E l = sumLo x D y y' z z' E l := by
  induction l with
  | nil => rfl
  | cons m l ih =>
    rw [sumLo, ← ih, Nat.add_comm]
    obtain ⟨n, d, I, J, K⟩ := m
    cases J <;> cases K <;> rfl

noncomputable def leaf0F (xc xr D yc yr E c : Nat) (F : Fun) : Bool :=
  force (Nat.sub xc xr) fun x1 => force (Nat.add xc xr) fun x2 => force (Nat.sub yc yr) fun y1 =>
  force (Nat.add yc yr) fun y2 => force (Nat.add y1 c) fun z1 => force (Nat.add y2 c) fun z2 =>
  Nat.blt (Nat.add (sumF x2 D y2 y1 z2 z1 E F.f.N) KM) (sumF x1 D y1 y2 z1 z2 E F.f.P)

theorem leaf0F_eq (B : Box) (F : Fun) : leaf0F B.xc B.xr B.D B.yc B.yr B.E B.c F = leaf0 B F := by
  simp only [leaf0F, force_eq, sumF_eq]; rfl

noncomputable def leaf2F (xc xr D yc yr E c : Nat) (F : Fun) : Bool :=
  force (Nat.sub xc xr) fun x1 => force (Nat.add xc xr) fun x2 => force (Nat.sub yc yr) fun y1 =>
  force (Nat.add yc yr) fun y2 => force (Nat.add y1 c) fun z1 => force (Nat.add y2 c) fun z2 =>
  force (Nat.add yc c) fun zc =>
  force (sumF xc D yc yc zc zc E F.x.P) fun xP => force (sumF xc D yc yc zc zc E F.x.N) fun xN =>
  force (sumF xc D yc yc zc zc E F.y.P) fun yP => force (sumF xc D yc yc zc zc E F.y.N) fun yN =>
  force (Nat.mul D D) fun DD => force (Nat.mul E E) fun EE =>
  Nat.blt
    (Nat.add (Nat.add (Nat.add (Nat.add (Nat.add
      (Nat.mul (Nat.mul (Nat.mul (nat_lit 2) DD) EE) (Nat.add (sumF xc D yc yc zc zc E F.f.N) KM))
      (Nat.mul (Nat.mul (Nat.mul (Nat.mul (nat_lit 2) D) EE) xr) (Nat.add (Nat.add (Nat.sub xP xN) (Nat.sub xN xP)) KM)))
      (Nat.mul (Nat.mul (Nat.mul (Nat.mul (nat_lit 2) DD) E) yr) (Nat.add (Nat.add (Nat.sub yP yN) (Nat.sub yN yP)) KM)))
      (Nat.mul (Nat.mul EE (Nat.mul xr xr)) (Nat.sub (Nat.add (sumF x2 D y2 y1 z2 z1 E F.xx.N) KM) (sumF x1 D y1 y2 z1 z2 E F.xx.P))))
      (Nat.mul (Nat.mul DD (Nat.mul yr yr)) (Nat.sub (Nat.add (sumF x2 D y2 y1 z2 z1 E F.yy.N) KM) (sumF x1 D y1 y2 z1 z2 E F.yy.P))))
      (Nat.mul (Nat.mul (Nat.mul (Nat.mul (Nat.mul (nat_lit 2) D) E) xr) yr)
        (Nat.add (Nat.sub (Nat.add (sumF x2 D y2 y1 z2 z1 E F.xy.P) KM) (sumF x1 D y1 y2 z1 z2 E F.xy.N))
          (Nat.sub (Nat.add (sumF x2 D y2 y1 z2 z1 E F.xy.N) KM) (sumF x1 D y1 y2 z1 z2 E F.xy.P)))))
    (Nat.mul (Nat.mul (Nat.mul (nat_lit 2) DD) EE) (sumF xc D yc yc zc zc E F.f.P))

theorem leaf2F_eq (B : Box) (F : Fun) : leaf2F B.xc B.xr B.D B.yc B.yr B.E B.c F = leaf2 B F := by
  simp only [leaf2F, force_eq, sumF_eq, leaf2, pow_two]; rfl

noncomputable def verifyF (F : Fun) (xr yr : Nat) (t : Tree) : Nat → Nat → Nat → Nat → Nat → Bool :=
  Tree.rec (motive := fun _ => Nat → Nat → Nat → Nat → Nat → Bool)
    (fun xc D yc E c => leaf0F xc xr D yc yr E c F)
    (fun xc D yc E c => leaf2F xc xr D yc yr E c F)
    (fun _ _ s t xc D yc E c => force (Nat.mul (nat_lit 2) xc) fun xc => force (Nat.mul (nat_lit 2) D) fun D =>
      force (Nat.sub xc xr) fun xl => force (Nat.add xc xr) fun xh =>
      Bool.rec false (t xh D yc E c) (s xl D yc E c))
    (fun _ _ s t xc D yc E c => force (Nat.mul (nat_lit 2) yc) fun yc => force (Nat.mul (nat_lit 2) E) fun E =>
      force (Nat.sub yc yr) fun yl => force (Nat.add yc yr) fun yh => force (Nat.mul (nat_lit 2) c) fun c =>
      Bool.rec false (t xc D yh E c) (s xc D yl E c)) t

theorem verifyF_eq (F : Fun) (t : Tree) (B : Box) :
    verifyF F B.xr B.yr t B.xc B.D B.yc B.E B.c = verify F t B := by
  induction t generalizing B with
  | l0 => exact leaf0F_eq B F
  | l2 => exact leaf2F_eq B F
  | x s t ih1 ih2 =>
    rw [verify, ← ih1, ← ih2]
    simp only [verifyF, force_eq, Box.xL, Box.xR]
    generalize h : (Tree.rec (motive := fun _ => Nat → Nat → Nat → Nat → Nat → Bool) _ _ _ _ s _ _ _ _ _ : Bool) = b
    cases b <;> rfl
  | y s t ih1 ih2 =>
    rw [verify, ← ih1, ← ih2]
    simp only [verifyF, force_eq, Box.yL, Box.yR]
    generalize h : (Tree.rec (motive := fun _ => Nat → Nat → Nat → Nat → Nat → Bool) _ _ _ _ s _ _ _ _ _ : Bool) = b
    cases b <;> rfl

/-- What a property file uses: `F` is a stored copy of the tables of `l`. -/
theorem sound {l : List SM} {F : Fun} (hF : F = mkFun l) (hs : (mkFun l).Small) {t : Tree} {xc xr D yc yr E c : Nat}
    (hB : Box.Wf ⟨xc, xr, D, yc, yr, E, c⟩) (h : verifyF F xr yr t xc D yc E c = true) {X Y : ℝ}
    (hm : Box.Mem ⟨xc, xr, D, yc, yr, E, c⟩ X Y) : 0 < evS l X Y (Y + c / E) := by
  subst hF
  exact verify_sound hs hB (verifyF_eq (mkFun l) t ⟨xc, xr, D, yc, yr, E, c⟩ ▸ h) hm

end If97.Iv
