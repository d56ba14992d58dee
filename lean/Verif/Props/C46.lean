import Verif.Lemmas.Terminate
import Verif.Spec.Thermo

/-!
# C46 All outputs of a call describe one state

Exact arithmetic.  For every pair function, every single-phase region and all inputs there is one
state such that every requested property is the property of that state: a pair (p, t) given to `pt`
in regions 1, 2 and 5, and a pair (t, v) given to `tv` in region 3.  The identities of C12-C24, proved
for `pt` and `tv`, therefore hold between the outputs of all functions.

Exceptions, excluded by `Fn.Given`: an output that returns the input h, s or v itself (C01), and the
density of `tv` in regions 1 and 5, which is computed from the input volume.  In region 3 the pressure
of `pt`, `ph`, `ps`, `pv` is the input pressure and not that of the state (t, v); same for `pt` with the
input temperature — which is that of the state.
-/

namespace If97

/-- the output returns an input other than p or t, or is computed directly from it -/
def Fn.Given (f : Fn) (r o : Int) : Prop :=
  (f.Echo o ∧ o ≠ Doc.idP ∧ o ≠ Doc.idT) ∨ (f = .tv ∧ o = Doc.idD ∧ r ≠ 2)

private theorem lit (o : Int) : (o = 0 ∨ o = 1 ∨ o = 16 ∨ o = 15) ∨ (o ≠ 0 ∧ o ≠ 1 ∧ o ≠ 16 ∧ o ≠ 15) := by omega

section
variable (a b : ℝ)

/-- both sides are the same expression after the state is substituted -/
macro "one_state" : tactic => `(tactic| (
  intro o ho
  simp only [Fn.Given, Fn.Echo, Fn.id1, Fn.id2, not_or, not_and, reduceCtorEq, false_and, true_and] at ho
  rcases lit o with (rfl | rfl | rfl | rfl) | ⟨h0, h1, h16, h15⟩ <;>
  simp_all [Fn.call, Fn.rust, OIdRegionArgs.ofPair, o_id_reg_info, Rust.pt, Rust.ph, Rust.ps, Rust.hs, Rust.pv,
    Rust.tv, Rust.th, Rust.ts, pair_properties, OP, OT, OH, OS, OV, OD, OR, OX, REGION_NONE, liftP, liftR, K,
    ph_reg1, ps_reg1, hs_reg1, pv_reg1, tv_reg1, th_reg1, ts_reg1,
    ph_reg2, ps_reg2, hs_reg2, pv_reg2, tv_reg2, th_reg2, ts_reg2,
    ph_reg5, ps_reg5, hs_reg5, pv_reg5, tv_reg5, th_reg5, ts_reg5]))

private theorem pt1 : ∃ p t : ℝ, ∀ o, ¬ Fn.Given .pt 1 o → Fn.pt.call a b o 1 = Fn.pt.call p t o 1 := by
  exact ⟨a, b, fun _ _ => rfl⟩
private theorem ph1 : ∃ p t : ℝ, ∀ o, ¬ Fn.Given .ph 1 o → Fn.ph.call a b o 1 = Fn.pt.call p t o 1 := by
  refine ⟨a, ph2T_reg1 a b - 273.15, ?_⟩
  one_state
private theorem ps1 : ∃ p t : ℝ, ∀ o, ¬ Fn.Given .ps 1 o → Fn.ps.call a b o 1 = Fn.pt.call p t o 1 := by
  refine ⟨a, ps2T_reg1 a b - 273.15, ?_⟩
  one_state
private theorem hs1 : ∃ p t : ℝ, ∀ o, ¬ Fn.Given .hs 1 o → Fn.hs.call a b o 1 = Fn.pt.call p t o 1 := by
  refine ⟨hs2p_reg1 a b, ph2T_reg1 (hs2p_reg1 a b) a - 273.15, ?_⟩
  one_state
private theorem pv1 : ∃ p t : ℝ, ∀ o, ¬ Fn.Given .pv 1 o → Fn.pv.call a b o 1 = Fn.pt.call p t o 1 := by
  refine ⟨a, pv2T_reg1 a b - 273.15, ?_⟩
  one_state
private theorem tv1 : ∃ p t : ℝ, ∀ o, ¬ Fn.Given .tv 1 o → Fn.tv.call a b o 1 = Fn.pt.call p t o 1 := by
  refine ⟨Tv2p_reg1 (a + 273.15) b, a, ?_⟩
  one_state
private theorem th1 : ∃ p t : ℝ, ∀ o, ¬ Fn.Given .th 1 o → Fn.th.call a b o 1 = Fn.pt.call p t o 1 := by
  refine ⟨Th2p_reg1 (a + 273.15) b, a, ?_⟩
  one_state
private theorem ts1 : ∃ p t : ℝ, ∀ o, ¬ Fn.Given .ts 1 o → Fn.ts.call a b o 1 = Fn.pt.call p t o 1 := by
  refine ⟨Ts2p_reg1 (a + 273.15) b, a, ?_⟩
  one_state
private theorem pt2 : ∃ p t : ℝ, ∀ o, ¬ Fn.Given .pt 2 o → Fn.pt.call a b o 2 = Fn.pt.call p t o 2 := by
  exact ⟨a, b, fun _ _ => rfl⟩
private theorem ph2 : ∃ p t : ℝ, ∀ o, ¬ Fn.Given .ph 2 o → Fn.ph.call a b o 2 = Fn.pt.call p t o 2 := by
  refine ⟨a, ph2T_reg2 a b - 273.15, ?_⟩
  one_state
private theorem ps2 : ∃ p t : ℝ, ∀ o, ¬ Fn.Given .ps 2 o → Fn.ps.call a b o 2 = Fn.pt.call p t o 2 := by
  refine ⟨a, ps2T_reg2 a b - 273.15, ?_⟩
  one_state
private theorem hs2 : ∃ p t : ℝ, ∀ o, ¬ Fn.Given .hs 2 o → Fn.hs.call a b o 2 = Fn.pt.call p t o 2 := by
  refine ⟨hs2p_reg2 a b, ph2T_reg2 (hs2p_reg2 a b) a - 273.15, ?_⟩
  one_state
private theorem pv2 : ∃ p t : ℝ, ∀ o, ¬ Fn.Given .pv 2 o → Fn.pv.call a b o 2 = Fn.pt.call p t o 2 := by
  refine ⟨a, pv2T_reg2 a b - 273.15, ?_⟩
  one_state
private theorem tv2 : ∃ p t : ℝ, ∀ o, ¬ Fn.Given .tv 2 o → Fn.tv.call a b o 2 = Fn.pt.call p t o 2 := by
  obtain ⟨p, hp⟩ := Option.isSome_iff_exists.mp (Tv2p_reg2_returns (a + 273.15) b)
  refine ⟨p, a, ?_⟩
  one_state
private theorem th2 : ∃ p t : ℝ, ∀ o, ¬ Fn.Given .th 2 o → Fn.th.call a b o 2 = Fn.pt.call p t o 2 := by
  obtain ⟨p, hp⟩ := Option.isSome_iff_exists.mp (Th2p_reg2_returns (a + 273.15) b)
  refine ⟨p, a, ?_⟩
  one_state
private theorem ts2 : ∃ p t : ℝ, ∀ o, ¬ Fn.Given .ts 2 o → Fn.ts.call a b o 2 = Fn.pt.call p t o 2 := by
  refine ⟨Ts2p_reg2 (a + 273.15) b, a, ?_⟩
  one_state
private theorem pt5 : ∃ p t : ℝ, ∀ o, ¬ Fn.Given .pt 5 o → Fn.pt.call a b o 5 = Fn.pt.call p t o 5 := by
  exact ⟨a, b, fun _ _ => rfl⟩
private theorem ph5 : ∃ p t : ℝ, ∀ o, ¬ Fn.Given .ph 5 o → Fn.ph.call a b o 5 = Fn.pt.call p t o 5 := by
  refine ⟨a, ph2T_reg5 a b - 273.15, ?_⟩
  one_state
private theorem ps5 : ∃ p t : ℝ, ∀ o, ¬ Fn.Given .ps 5 o → Fn.ps.call a b o 5 = Fn.pt.call p t o 5 := by
  refine ⟨a, ps2T_reg5 a b - 273.15, ?_⟩
  one_state
private theorem hs5 : ∃ p t : ℝ, ∀ o, ¬ Fn.Given .hs 5 o → Fn.hs.call a b o 5 = Fn.pt.call p t o 5 := by
  refine ⟨hs2p_reg5 a b, ph2T_reg5 (hs2p_reg5 a b) a - 273.15, ?_⟩
  one_state
private theorem pv5 : ∃ p t : ℝ, ∀ o, ¬ Fn.Given .pv 5 o → Fn.pv.call a b o 5 = Fn.pt.call p t o 5 := by
  refine ⟨a, pv2T_reg5 a b - 273.15, ?_⟩
  one_state
private theorem tv5 : ∃ p t : ℝ, ∀ o, ¬ Fn.Given .tv 5 o → Fn.tv.call a b o 5 = Fn.pt.call p t o 5 := by
  obtain ⟨p, hp⟩ := Option.isSome_iff_exists.mp (Tv2p_reg5_returns (a + 273.15) b)
  refine ⟨p, a, ?_⟩
  one_state
private theorem th5 : ∃ p t : ℝ, ∀ o, ¬ Fn.Given .th 5 o → Fn.th.call a b o 5 = Fn.pt.call p t o 5 := by
  refine ⟨Th2p_reg5 (a + 273.15) b, a, ?_⟩
  one_state
private theorem ts5 : ∃ p t : ℝ, ∀ o, ¬ Fn.Given .ts 5 o → Fn.ts.call a b o 5 = Fn.pt.call p t o 5 := by
  refine ⟨Ts2p_reg5 (a + 273.15) b, a, ?_⟩
  one_state

end

/-- **Regions 1, 2, 5.** -/
theorem C46_gibbs (f : Fn) (r : Int) (hr : GibbsRegion r) (a b : ℝ) :
    ∃ p t : ℝ, ∀ o, ¬ f.Given r o → f.call a b o r = Fn.pt.call p t o r := by
  rcases hr with rfl | rfl | rfl <;> cases f
  · exact pt1 a b
  · exact ph1 a b
  · exact ps1 a b
  · exact hs1 a b
  · exact pv1 a b
  · exact tv1 a b
  · exact th1 a b
  · exact ts1 a b
  · exact pt2 a b
  · exact ph2 a b
  · exact ps2 a b
  · exact hs2 a b
  · exact pv2 a b
  · exact tv2 a b
  · exact th2 a b
  · exact ts2 a b
  · exact pt5 a b
  · exact ph5 a b
  · exact ps5 a b
  · exact hs5 a b
  · exact pv5 a b
  · exact tv5 a b
  · exact th5 a b
  · exact ts5 a b

/-! ### region 3 -/

/-- region 3: the output returns an input other than t, or the pressure of `hs`, which comes from the
backward equation p(h,s) and not from the equation of state -/
def Fn.Given3 (f : Fn) (o : Int) : Prop := (f.Echo o ∧ o ≠ Doc.idT) ∨ (f = .hs ∧ o = Doc.idP)

section
variable (a b : ℝ)

private theorem lit3 (o : Int) : (o = 0 ∨ o = 1 ∨ o = 16 ∨ o = 15 ∨ o = 2 ∨ o = 3) ∨
    (o ≠ 0 ∧ o ≠ 1 ∧ o ≠ 16 ∧ o ≠ 15 ∧ o ≠ 2 ∧ o ≠ 3) := by omega

/-- both sides are the same expression after the state is substituted -/
macro "one_state3" : tactic => `(tactic| (
  intro o ho
  simp only [Fn.Given3, Fn.Echo, Fn.id1, Fn.id2, not_or, not_and, reduceCtorEq, false_and, true_and] at ho
  rcases lit3 o with (rfl | rfl | rfl | rfl | rfl | rfl) | ⟨h0, h1, h16, h15, h2, h3⟩
  all_goals try (norm_num at ho; done)
  all_goals norm_num at ho
  all_goals norm_num [Fn.call, Fn.rust, OIdRegionArgs.ofPair, o_id_reg_info, Rust.pt, Rust.ph, Rust.ps, Rust.hs, Rust.pv,
    Rust.tv, Rust.th, Rust.ts, pair_properties, OP, OT, OH, OS, OV, OD, OR, OX, REGION_NONE, liftP, liftR, K,
    pT_reg3, ph_reg3, ps_reg3, hs_reg3, pv_reg3, tv_reg3, th_reg3, ts_reg3, *]
  all_goals try simp_all))


private theorem pt3 : ∃ t v : ℝ, ∀ o, ¬ Fn.Given3 .pt o → Fn.pt.call a b o 3 = Fn.tv.call t v o 3 := by
  refine ⟨b, pT2v_reg3 a (b + 273.15), ?_⟩
  one_state3
private theorem ph3 : ∃ t v : ℝ, ∀ o, ¬ Fn.Given3 .ph o → Fn.ph.call a b o 3 = Fn.tv.call t v o 3 := by
  refine ⟨ph2T_reg3 a b - 273.15, ph2v_reg3 a b, ?_⟩
  one_state3
private theorem ps3 : ∃ t v : ℝ, ∀ o, ¬ Fn.Given3 .ps o → Fn.ps.call a b o 3 = Fn.tv.call t v o 3 := by
  refine ⟨ps2T_reg3 a b - 273.15, ps2v_reg3 a b, ?_⟩
  one_state3
private theorem hs3 : ∃ t v : ℝ, ∀ o, ¬ Fn.Given3 .hs o → Fn.hs.call a b o 3 = Fn.tv.call t v o 3 := by
  refine ⟨ph2T_reg3 (hs2p_reg3 a b) a - 273.15, ph2v_reg3 (hs2p_reg3 a b) a, ?_⟩
  one_state3
private theorem pv3 : ∃ t v : ℝ, ∀ o, ¬ Fn.Given3 .pv o → Fn.pv.call a b o 3 = Fn.tv.call t v o 3 := by
  refine ⟨pv2T_reg3 a b - 273.15, b, ?_⟩
  one_state3
private theorem tv3 : ∃ t v : ℝ, ∀ o, ¬ Fn.Given3 .tv o → Fn.tv.call a b o 3 = Fn.tv.call t v o 3 := by
  exact ⟨a, b, fun _ _ => rfl⟩
private theorem th3 : ∃ t v : ℝ, ∀ o, ¬ Fn.Given3 .th o → Fn.th.call a b o 3 = Fn.tv.call t v o 3 := by
  refine ⟨a, 1 / Th2d_reg3 (a + 273.15) b, ?_⟩
  one_state3
private theorem ts3 : ∃ t v : ℝ, ∀ o, ¬ Fn.Given3 .ts o → Fn.ts.call a b o 3 = Fn.tv.call t v o 3 := by
  refine ⟨a, 1 / Ts2d_reg3 (a + 273.15) b, ?_⟩
  one_state3

end

/-- **Region 3.** -/
theorem C46_region3 (f : Fn) (a b : ℝ) :
    ∃ t v : ℝ, ∀ o, ¬ f.Given3 o → f.call a b o 3 = Fn.tv.call t v o 3 := by
  cases f
  · exact pt3 a b
  · exact ph3 a b
  · exact ps3 a b
  · exact hs3 a b
  · exact pv3 a b
  · exact tv3 a b
  · exact th3 a b
  · exact ts3 a b

theorem Fn.not_given (f : Fn) (r o : Int) (h : 5 < o) : ¬ f.Given r o := by
  rintro (⟨h1, -⟩ | ⟨-, h1, -⟩)
  · cases f <;> simp only [Fn.Echo, Fn.id1, Fn.id2, Doc.idP, Doc.idT, Doc.idH, Doc.idS, Doc.idV] at h1 <;> omega
  · simp only [Doc.idD] at h1; omega
theorem Fn.not_given3 (f : Fn) (o : Int) (h : 5 < o) : ¬ f.Given3 o := by
  rintro (⟨h1, -⟩ | ⟨-, h1⟩)
  · cases f <;> simp only [Fn.Echo, Fn.id1, Fn.id2, Doc.idP, Doc.idT, Doc.idH, Doc.idS, Doc.idV] at h1 <;> omega
  · simp only [Doc.idP] at h1; omega
theorem Fn.not_given_T (f : Fn) (r : Int) : ¬ f.Given r Doc.idT := by
  rintro (⟨-, -, h1⟩ | ⟨-, h1, -⟩)
  · exact h1 rfl
  · revert h1; decide
theorem Fn.not_given3_T (f : Fn) : ¬ f.Given3 Doc.idT := by
  rintro (⟨-, h1⟩ | ⟨-, h1⟩)
  · exact h1 rfl
  · revert h1; decide
/-- the density is excluded only for `tv` in regions 1 and 5 -/
theorem Fn.not_given_D (f : Fn) (r : Int) (h : f = .tv → r = 2) : ¬ f.Given r Doc.idD := by
  rintro (⟨h1, -⟩ | ⟨h1, -, h2⟩)
  · revert h1; cases f <;> decide
  · exact h2 (h h1)
theorem Fn.not_given3_D (f : Fn) : ¬ f.Given3 Doc.idD := by
  rintro (⟨h1, -⟩ | ⟨-, h1⟩)
  · revert h1; cases f <;> decide
  · revert h1; decide

/-- Concrete: none of the caloric outputs of `ph` other than the enthalpy is excluded, so the entropy and
the volume of `ph(3, 500)` in region 1 belong to one (p, t). -/
example : ∃ p t : ℝ, Fn.ph.call 3 500 Doc.idS 1 = Fn.pt.call p t Doc.idS 1 ∧
    Fn.ph.call 3 500 Doc.idV 1 = Fn.pt.call p t Doc.idV 1 := by
  obtain ⟨p, t, h⟩ := C46_gibbs .ph 1 (.inl rfl) 3 500
  exact ⟨p, t, h _ (by simp [Fn.Given, Fn.Echo, Fn.id1, Fn.id2]), h _ (by simp [Fn.Given, Fn.Echo, Fn.id1, Fn.id2])⟩

end If97
