import Verif.Lemmas.Tm.Cover1
import Verif.Lemmas.Tm.Ph1_0
import Verif.Lemmas.Tm.Ph1_1
import Verif.Lemmas.Tm.Ph1_2
import Verif.Lemmas.Tm.Ph1_3
import Verif.Lemmas.Tm.Ph1_4
import Verif.Lemmas.Tm.Ph1_5
import Verif.Lemmas.Tm.Ps1_0
import Verif.Lemmas.Tm.Ps1_1
import Verif.Lemmas.Tm.Ps1_2
import Verif.Lemmas.Tm.Ps1_3
import Verif.Lemmas.Tm.Hs1_0
import Verif.Lemmas.Tm.Hs1_1
import Verif.Lemmas.Tm.Hs1_2
import Verif.Lemmas.Tm.Hs1_3
import Verif.Lemmas.Tm.Hs1_4
import Verif.Lemmas.Tm.Hs1_5
import Verif.Lemmas.Tm.Hs1_6
import Verif.Lemmas.Tm.Hs1_7
import Verif.Lemmas.Tm.Hs1_8
import Verif.Lemmas.Tm.Hs1_9
import Verif.Lemmas.Tm.Hs1_10
import Verif.Lemmas.Tm.Hs1_11
import Verif.Lemmas.Tm.Hs1_12
import Verif.Lemmas.Tm.Hs1_13

/-! The backward equations of region 1 on the whole region. -/

namespace If97.Tm
set_option maxRecDepth 100000

theorem lift {R : ℝ → ℝ → Prop} {leaf : Nat → Nat → Nat → Nat → Nat → Nat → Bool} {t : Tr} {s : Strip}
    (hl : LeafOk (leaf s.xr s.yr) s.xr s.yr R) (h : verify (leaf s.xr s.yr) s.xr s.yr t s.xc s.D s.yc s.E = true)
    (h1 : 0 < s.D) (h2 : 0 < s.E) (h3 : s.xr ≤ s.xc) (h4 : s.yr ≤ s.yc) : ∀ p y, s.Mem p y → R p y :=
  fun _ _ hm => verify_sound hl h1 h2 h3 h4 h hm.1 hm.2

theorem ph1_all : ∀ s ∈ strips1, ∀ p τ : ℝ, s.Mem p τ → |ph2T_reg1 p (0.461526 * 1386 * G1.gt (p / 16.53) τ) - 1386 / τ| ≤ ((25 : ℕ) : ℝ) / (1000 : ℕ) := by
  unfold strips1
  refine List.forall_mem_cons.2 ⟨lift (leaf := leafPh1 P12 25 1000) (leafPh1_ok P12_ok (by decide)) ph1_0 (by decide) (by decide) (by decide) (by decide), ?_⟩
  refine List.forall_mem_cons.2 ⟨lift (leaf := leafPh1 P12 25 1000) (leafPh1_ok P12_ok (by decide)) ph1_1 (by decide) (by decide) (by decide) (by decide), ?_⟩
  refine List.forall_mem_cons.2 ⟨lift (leaf := leafPh1 P12 25 1000) (leafPh1_ok P12_ok (by decide)) ph1_2 (by decide) (by decide) (by decide) (by decide), ?_⟩
  refine List.forall_mem_cons.2 ⟨lift (leaf := leafPh1 P12 25 1000) (leafPh1_ok P12_ok (by decide)) ph1_3 (by decide) (by decide) (by decide) (by decide), ?_⟩
  refine List.forall_mem_cons.2 ⟨lift (leaf := leafPh1 P12 25 1000) (leafPh1_ok P12_ok (by decide)) ph1_4 (by decide) (by decide) (by decide) (by decide), ?_⟩
  refine List.forall_mem_cons.2 ⟨lift (leaf := leafPh1 P12 25 1000) (leafPh1_ok P12_ok (by decide)) ph1_5 (by decide) (by decide) (by decide) (by decide), ?_⟩
  refine List.forall_mem_cons.2 ⟨lift (leaf := leafPh1 P12 25 1000) (leafPh1_ok P12_ok (by decide)) ph1_6 (by decide) (by decide) (by decide) (by decide), ?_⟩
  refine List.forall_mem_cons.2 ⟨lift (leaf := leafPh1 P12 25 1000) (leafPh1_ok P12_ok (by decide)) ph1_7 (by decide) (by decide) (by decide) (by decide), ?_⟩
  refine List.forall_mem_cons.2 ⟨lift (leaf := leafPh1 P12 25 1000) (leafPh1_ok P12_ok (by decide)) ph1_8 (by decide) (by decide) (by decide) (by decide), ?_⟩
  refine List.forall_mem_cons.2 ⟨lift (leaf := leafPh1 P12 25 1000) (leafPh1_ok P12_ok (by decide)) ph1_9 (by decide) (by decide) (by decide) (by decide), ?_⟩
  refine List.forall_mem_cons.2 ⟨lift (leaf := leafPh1 P12 25 1000) (leafPh1_ok P12_ok (by decide)) ph1_10 (by decide) (by decide) (by decide) (by decide), ?_⟩
  refine List.forall_mem_cons.2 ⟨lift (leaf := leafPh1 P12 25 1000) (leafPh1_ok P12_ok (by decide)) ph1_11 (by decide) (by decide) (by decide) (by decide), ?_⟩
  refine List.forall_mem_cons.2 ⟨lift (leaf := leafPh1 P12 25 1000) (leafPh1_ok P12_ok (by decide)) ph1_12 (by decide) (by decide) (by decide) (by decide), ?_⟩
  refine List.forall_mem_cons.2 ⟨lift (leaf := leafPh1 P12 25 1000) (leafPh1_ok P12_ok (by decide)) ph1_13 (by decide) (by decide) (by decide) (by decide), ?_⟩
  refine List.forall_mem_cons.2 ⟨lift (leaf := leafPh1 P12 25 1000) (leafPh1_ok P12_ok (by decide)) ph1_14 (by decide) (by decide) (by decide) (by decide), ?_⟩
  refine List.forall_mem_cons.2 ⟨lift (leaf := leafPh1 P12 25 1000) (leafPh1_ok P12_ok (by decide)) ph1_15 (by decide) (by decide) (by decide) (by decide), ?_⟩
  refine List.forall_mem_cons.2 ⟨lift (leaf := leafPh1 P12 25 1000) (leafPh1_ok P12_ok (by decide)) ph1_16 (by decide) (by decide) (by decide) (by decide), ?_⟩
  refine List.forall_mem_cons.2 ⟨lift (leaf := leafPh1 P12 25 1000) (leafPh1_ok P12_ok (by decide)) ph1_17 (by decide) (by decide) (by decide) (by decide), ?_⟩
  refine List.forall_mem_cons.2 ⟨lift (leaf := leafPh1 P12 25 1000) (leafPh1_ok P12_ok (by decide)) ph1_18 (by decide) (by decide) (by decide) (by decide), ?_⟩
  refine List.forall_mem_cons.2 ⟨lift (leaf := leafPh1 P12 25 1000) (leafPh1_ok P12_ok (by decide)) ph1_19 (by decide) (by decide) (by decide) (by decide), ?_⟩
  refine List.forall_mem_cons.2 ⟨lift (leaf := leafPh1 P12 25 1000) (leafPh1_ok P12_ok (by decide)) ph1_20 (by decide) (by decide) (by decide) (by decide), ?_⟩
  refine List.forall_mem_cons.2 ⟨lift (leaf := leafPh1 P12 25 1000) (leafPh1_ok P12_ok (by decide)) ph1_21 (by decide) (by decide) (by decide) (by decide), ?_⟩
  refine List.forall_mem_cons.2 ⟨lift (leaf := leafPh1 P12 25 1000) (leafPh1_ok P12_ok (by decide)) ph1_22 (by decide) (by decide) (by decide) (by decide), ?_⟩
  refine List.forall_mem_cons.2 ⟨lift (leaf := leafPh1 P12 25 1000) (leafPh1_ok P12_ok (by decide)) ph1_23 (by decide) (by decide) (by decide) (by decide), ?_⟩
  refine List.forall_mem_cons.2 ⟨lift (leaf := leafPh1 P12 25 1000) (leafPh1_ok P12_ok (by decide)) ph1_24 (by decide) (by decide) (by decide) (by decide), ?_⟩
  refine List.forall_mem_cons.2 ⟨lift (leaf := leafPh1 P12 25 1000) (leafPh1_ok P12_ok (by decide)) ph1_25 (by decide) (by decide) (by decide) (by decide), ?_⟩
  refine List.forall_mem_cons.2 ⟨lift (leaf := leafPh1 P12 25 1000) (leafPh1_ok P12_ok (by decide)) ph1_26 (by decide) (by decide) (by decide) (by decide), ?_⟩
  refine List.forall_mem_cons.2 ⟨lift (leaf := leafPh1 P12 25 1000) (leafPh1_ok P12_ok (by decide)) ph1_27 (by decide) (by decide) (by decide) (by decide), ?_⟩
  refine List.forall_mem_cons.2 ⟨lift (leaf := leafPh1 P12 25 1000) (leafPh1_ok P12_ok (by decide)) ph1_28 (by decide) (by decide) (by decide) (by decide), ?_⟩
  refine List.forall_mem_cons.2 ⟨lift (leaf := leafPh1 P12 25 1000) (leafPh1_ok P12_ok (by decide)) ph1_29 (by decide) (by decide) (by decide) (by decide), ?_⟩
  refine List.forall_mem_cons.2 ⟨lift (leaf := leafPh1 P12 25 1000) (leafPh1_ok P12_ok (by decide)) ph1_30 (by decide) (by decide) (by decide) (by decide), ?_⟩
  refine List.forall_mem_cons.2 ⟨lift (leaf := leafPh1 P12 25 1000) (leafPh1_ok P12_ok (by decide)) ph1_31 (by decide) (by decide) (by decide) (by decide), ?_⟩
  refine List.forall_mem_cons.2 ⟨lift (leaf := leafPh1 P12 25 1000) (leafPh1_ok P12_ok (by decide)) ph1_32 (by decide) (by decide) (by decide) (by decide), ?_⟩
  refine List.forall_mem_cons.2 ⟨lift (leaf := leafPh1 P12 25 1000) (leafPh1_ok P12_ok (by decide)) ph1_33 (by decide) (by decide) (by decide) (by decide), ?_⟩
  refine List.forall_mem_cons.2 ⟨lift (leaf := leafPh1 P12 25 1000) (leafPh1_ok P12_ok (by decide)) ph1_34 (by decide) (by decide) (by decide) (by decide), ?_⟩
  refine List.forall_mem_cons.2 ⟨lift (leaf := leafPh1 P12 25 1000) (leafPh1_ok P12_ok (by decide)) ph1_35 (by decide) (by decide) (by decide) (by decide), ?_⟩
  refine List.forall_mem_cons.2 ⟨lift (leaf := leafPh1 P12 25 1000) (leafPh1_ok P12_ok (by decide)) ph1_36 (by decide) (by decide) (by decide) (by decide), ?_⟩
  refine List.forall_mem_cons.2 ⟨lift (leaf := leafPh1 P12 25 1000) (leafPh1_ok P12_ok (by decide)) ph1_37 (by decide) (by decide) (by decide) (by decide), ?_⟩
  refine List.forall_mem_cons.2 ⟨lift (leaf := leafPh1 P12 25 1000) (leafPh1_ok P12_ok (by decide)) ph1_38 (by decide) (by decide) (by decide) (by decide), ?_⟩
  refine List.forall_mem_cons.2 ⟨lift (leaf := leafPh1 P12 25 1000) (leafPh1_ok P12_ok (by decide)) ph1_39 (by decide) (by decide) (by decide) (by decide), ?_⟩
  refine List.forall_mem_cons.2 ⟨lift (leaf := leafPh1 P12 25 1000) (leafPh1_ok P12_ok (by decide)) ph1_40 (by decide) (by decide) (by decide) (by decide), ?_⟩
  refine List.forall_mem_cons.2 ⟨lift (leaf := leafPh1 P12 25 1000) (leafPh1_ok P12_ok (by decide)) ph1_41 (by decide) (by decide) (by decide) (by decide), ?_⟩
  refine List.forall_mem_cons.2 ⟨lift (leaf := leafPh1 P12 25 1000) (leafPh1_ok P12_ok (by decide)) ph1_42 (by decide) (by decide) (by decide) (by decide), ?_⟩
  refine List.forall_mem_cons.2 ⟨lift (leaf := leafPh1 P12 25 1000) (leafPh1_ok P12_ok (by decide)) ph1_43 (by decide) (by decide) (by decide) (by decide), ?_⟩
  refine List.forall_mem_cons.2 ⟨lift (leaf := leafPh1 P12 25 1000) (leafPh1_ok P12_ok (by decide)) ph1_44 (by decide) (by decide) (by decide) (by decide), ?_⟩
  refine List.forall_mem_cons.2 ⟨lift (leaf := leafPh1 P12 25 1000) (leafPh1_ok P12_ok (by decide)) ph1_45 (by decide) (by decide) (by decide) (by decide), ?_⟩
  refine List.forall_mem_cons.2 ⟨lift (leaf := leafPh1 P12 25 1000) (leafPh1_ok P12_ok (by decide)) ph1_46 (by decide) (by decide) (by decide) (by decide), ?_⟩
  refine List.forall_mem_cons.2 ⟨lift (leaf := leafPh1 P12 25 1000) (leafPh1_ok P12_ok (by decide)) ph1_47 (by decide) (by decide) (by decide) (by decide), ?_⟩
  refine List.forall_mem_cons.2 ⟨lift (leaf := leafPh1 P12 25 1000) (leafPh1_ok P12_ok (by decide)) ph1_48 (by decide) (by decide) (by decide) (by decide), ?_⟩
  refine List.forall_mem_cons.2 ⟨lift (leaf := leafPh1 P12 25 1000) (leafPh1_ok P12_ok (by decide)) ph1_49 (by decide) (by decide) (by decide) (by decide), ?_⟩
  exact fun _ h => absurd h List.not_mem_nil

theorem ps1_all : ∀ s ∈ strips1, ∀ p τ : ℝ, s.Mem p τ → |ps2T_reg1 p (0.461526 * (τ * G1.gt (p / 16.53) τ - G1.g (p / 16.53) τ)) - 1386 / τ| ≤ ((25 : ℕ) : ℝ) / (1000 : ℕ) := by
  unfold strips1
  refine List.forall_mem_cons.2 ⟨lift (leaf := leafPs1 P12 25 1000) (leafPs1_ok P12_ok (by decide)) ps1_0 (by decide) (by decide) (by decide) (by decide), ?_⟩
  refine List.forall_mem_cons.2 ⟨lift (leaf := leafPs1 P12 25 1000) (leafPs1_ok P12_ok (by decide)) ps1_1 (by decide) (by decide) (by decide) (by decide), ?_⟩
  refine List.forall_mem_cons.2 ⟨lift (leaf := leafPs1 P12 25 1000) (leafPs1_ok P12_ok (by decide)) ps1_2 (by decide) (by decide) (by decide) (by decide), ?_⟩
  refine List.forall_mem_cons.2 ⟨lift (leaf := leafPs1 P12 25 1000) (leafPs1_ok P12_ok (by decide)) ps1_3 (by decide) (by decide) (by decide) (by decide), ?_⟩
  refine List.forall_mem_cons.2 ⟨lift (leaf := leafPs1 P12 25 1000) (leafPs1_ok P12_ok (by decide)) ps1_4 (by decide) (by decide) (by decide) (by decide), ?_⟩
  refine List.forall_mem_cons.2 ⟨lift (leaf := leafPs1 P12 25 1000) (leafPs1_ok P12_ok (by decide)) ps1_5 (by decide) (by decide) (by decide) (by decide), ?_⟩
  refine List.forall_mem_cons.2 ⟨lift (leaf := leafPs1 P12 25 1000) (leafPs1_ok P12_ok (by decide)) ps1_6 (by decide) (by decide) (by decide) (by decide), ?_⟩
  refine List.forall_mem_cons.2 ⟨lift (leaf := leafPs1 P12 25 1000) (leafPs1_ok P12_ok (by decide)) ps1_7 (by decide) (by decide) (by decide) (by decide), ?_⟩
  refine List.forall_mem_cons.2 ⟨lift (leaf := leafPs1 P12 25 1000) (leafPs1_ok P12_ok (by decide)) ps1_8 (by decide) (by decide) (by decide) (by decide), ?_⟩
  refine List.forall_mem_cons.2 ⟨lift (leaf := leafPs1 P12 25 1000) (leafPs1_ok P12_ok (by decide)) ps1_9 (by decide) (by decide) (by decide) (by decide), ?_⟩
  refine List.forall_mem_cons.2 ⟨lift (leaf := leafPs1 P12 25 1000) (leafPs1_ok P12_ok (by decide)) ps1_10 (by decide) (by decide) (by decide) (by decide), ?_⟩
  refine List.forall_mem_cons.2 ⟨lift (leaf := leafPs1 P12 25 1000) (leafPs1_ok P12_ok (by decide)) ps1_11 (by decide) (by decide) (by decide) (by decide), ?_⟩
  refine List.forall_mem_cons.2 ⟨lift (leaf := leafPs1 P12 25 1000) (leafPs1_ok P12_ok (by decide)) ps1_12 (by decide) (by decide) (by decide) (by decide), ?_⟩
  refine List.forall_mem_cons.2 ⟨lift (leaf := leafPs1 P12 25 1000) (leafPs1_ok P12_ok (by decide)) ps1_13 (by decide) (by decide) (by decide) (by decide), ?_⟩
  refine List.forall_mem_cons.2 ⟨lift (leaf := leafPs1 P12 25 1000) (leafPs1_ok P12_ok (by decide)) ps1_14 (by decide) (by decide) (by decide) (by decide), ?_⟩
  refine List.forall_mem_cons.2 ⟨lift (leaf := leafPs1 P12 25 1000) (leafPs1_ok P12_ok (by decide)) ps1_15 (by decide) (by decide) (by decide) (by decide), ?_⟩
  refine List.forall_mem_cons.2 ⟨lift (leaf := leafPs1 P12 25 1000) (leafPs1_ok P12_ok (by decide)) ps1_16 (by decide) (by decide) (by decide) (by decide), ?_⟩
  refine List.forall_mem_cons.2 ⟨lift (leaf := leafPs1 P12 25 1000) (leafPs1_ok P12_ok (by decide)) ps1_17 (by decide) (by decide) (by decide) (by decide), ?_⟩
  refine List.forall_mem_cons.2 ⟨lift (leaf := leafPs1 P12 25 1000) (leafPs1_ok P12_ok (by decide)) ps1_18 (by decide) (by decide) (by decide) (by decide), ?_⟩
  refine List.forall_mem_cons.2 ⟨lift (leaf := leafPs1 P12 25 1000) (leafPs1_ok P12_ok (by decide)) ps1_19 (by decide) (by decide) (by decide) (by decide), ?_⟩
  refine List.forall_mem_cons.2 ⟨lift (leaf := leafPs1 P12 25 1000) (leafPs1_ok P12_ok (by decide)) ps1_20 (by decide) (by decide) (by decide) (by decide), ?_⟩
  refine List.forall_mem_cons.2 ⟨lift (leaf := leafPs1 P12 25 1000) (leafPs1_ok P12_ok (by decide)) ps1_21 (by decide) (by decide) (by decide) (by decide), ?_⟩
  refine List.forall_mem_cons.2 ⟨lift (leaf := leafPs1 P12 25 1000) (leafPs1_ok P12_ok (by decide)) ps1_22 (by decide) (by decide) (by decide) (by decide), ?_⟩
  refine List.forall_mem_cons.2 ⟨lift (leaf := leafPs1 P12 25 1000) (leafPs1_ok P12_ok (by decide)) ps1_23 (by decide) (by decide) (by decide) (by decide), ?_⟩
  refine List.forall_mem_cons.2 ⟨lift (leaf := leafPs1 P12 25 1000) (leafPs1_ok P12_ok (by decide)) ps1_24 (by decide) (by decide) (by decide) (by decide), ?_⟩
  refine List.forall_mem_cons.2 ⟨lift (leaf := leafPs1 P12 25 1000) (leafPs1_ok P12_ok (by decide)) ps1_25 (by decide) (by decide) (by decide) (by decide), ?_⟩
  refine List.forall_mem_cons.2 ⟨lift (leaf := leafPs1 P12 25 1000) (leafPs1_ok P12_ok (by decide)) ps1_26 (by decide) (by decide) (by decide) (by decide), ?_⟩
  refine List.forall_mem_cons.2 ⟨lift (leaf := leafPs1 P12 25 1000) (leafPs1_ok P12_ok (by decide)) ps1_27 (by decide) (by decide) (by decide) (by decide), ?_⟩
  refine List.forall_mem_cons.2 ⟨lift (leaf := leafPs1 P12 25 1000) (leafPs1_ok P12_ok (by decide)) ps1_28 (by decide) (by decide) (by decide) (by decide), ?_⟩
  refine List.forall_mem_cons.2 ⟨lift (leaf := leafPs1 P12 25 1000) (leafPs1_ok P12_ok (by decide)) ps1_29 (by decide) (by decide) (by decide) (by decide), ?_⟩
  refine List.forall_mem_cons.2 ⟨lift (leaf := leafPs1 P12 25 1000) (leafPs1_ok P12_ok (by decide)) ps1_30 (by decide) (by decide) (by decide) (by decide), ?_⟩
  refine List.forall_mem_cons.2 ⟨lift (leaf := leafPs1 P12 25 1000) (leafPs1_ok P12_ok (by decide)) ps1_31 (by decide) (by decide) (by decide) (by decide), ?_⟩
  refine List.forall_mem_cons.2 ⟨lift (leaf := leafPs1 P12 25 1000) (leafPs1_ok P12_ok (by decide)) ps1_32 (by decide) (by decide) (by decide) (by decide), ?_⟩
  refine List.forall_mem_cons.2 ⟨lift (leaf := leafPs1 P12 25 1000) (leafPs1_ok P12_ok (by decide)) ps1_33 (by decide) (by decide) (by decide) (by decide), ?_⟩
  refine List.forall_mem_cons.2 ⟨lift (leaf := leafPs1 P12 25 1000) (leafPs1_ok P12_ok (by decide)) ps1_34 (by decide) (by decide) (by decide) (by decide), ?_⟩
  refine List.forall_mem_cons.2 ⟨lift (leaf := leafPs1 P12 25 1000) (leafPs1_ok P12_ok (by decide)) ps1_35 (by decide) (by decide) (by decide) (by decide), ?_⟩
  refine List.forall_mem_cons.2 ⟨lift (leaf := leafPs1 P12 25 1000) (leafPs1_ok P12_ok (by decide)) ps1_36 (by decide) (by decide) (by decide) (by decide), ?_⟩
  refine List.forall_mem_cons.2 ⟨lift (leaf := leafPs1 P12 25 1000) (leafPs1_ok P12_ok (by decide)) ps1_37 (by decide) (by decide) (by decide) (by decide), ?_⟩
  refine List.forall_mem_cons.2 ⟨lift (leaf := leafPs1 P12 25 1000) (leafPs1_ok P12_ok (by decide)) ps1_38 (by decide) (by decide) (by decide) (by decide), ?_⟩
  refine List.forall_mem_cons.2 ⟨lift (leaf := leafPs1 P12 25 1000) (leafPs1_ok P12_ok (by decide)) ps1_39 (by decide) (by decide) (by decide) (by decide), ?_⟩
  refine List.forall_mem_cons.2 ⟨lift (leaf := leafPs1 P12 25 1000) (leafPs1_ok P12_ok (by decide)) ps1_40 (by decide) (by decide) (by decide) (by decide), ?_⟩
  refine List.forall_mem_cons.2 ⟨lift (leaf := leafPs1 P12 25 1000) (leafPs1_ok P12_ok (by decide)) ps1_41 (by decide) (by decide) (by decide) (by decide), ?_⟩
  refine List.forall_mem_cons.2 ⟨lift (leaf := leafPs1 P12 25 1000) (leafPs1_ok P12_ok (by decide)) ps1_42 (by decide) (by decide) (by decide) (by decide), ?_⟩
  refine List.forall_mem_cons.2 ⟨lift (leaf := leafPs1 P12 25 1000) (leafPs1_ok P12_ok (by decide)) ps1_43 (by decide) (by decide) (by decide) (by decide), ?_⟩
  refine List.forall_mem_cons.2 ⟨lift (leaf := leafPs1 P12 25 1000) (leafPs1_ok P12_ok (by decide)) ps1_44 (by decide) (by decide) (by decide) (by decide), ?_⟩
  refine List.forall_mem_cons.2 ⟨lift (leaf := leafPs1 P12 25 1000) (leafPs1_ok P12_ok (by decide)) ps1_45 (by decide) (by decide) (by decide) (by decide), ?_⟩
  refine List.forall_mem_cons.2 ⟨lift (leaf := leafPs1 P12 25 1000) (leafPs1_ok P12_ok (by decide)) ps1_46 (by decide) (by decide) (by decide) (by decide), ?_⟩
  refine List.forall_mem_cons.2 ⟨lift (leaf := leafPs1 P12 25 1000) (leafPs1_ok P12_ok (by decide)) ps1_47 (by decide) (by decide) (by decide) (by decide), ?_⟩
  refine List.forall_mem_cons.2 ⟨lift (leaf := leafPs1 P12 25 1000) (leafPs1_ok P12_ok (by decide)) ps1_48 (by decide) (by decide) (by decide) (by decide), ?_⟩
  refine List.forall_mem_cons.2 ⟨lift (leaf := leafPs1 P12 25 1000) (leafPs1_ok P12_ok (by decide)) ps1_49 (by decide) (by decide) (by decide) (by decide), ?_⟩
  exact fun _ h => absurd h List.not_mem_nil

theorem hs1_all : ∀ s ∈ strips1, ∀ p τ : ℝ, s.Mem p τ → |hs2p_reg1 (0.461526 * 1386 * G1.gt (p / 16.53) τ) (0.461526 * (τ * G1.gt (p / 16.53) τ - G1.g (p / 16.53) τ)) - p|
        ≤ ((15 : ℕ) : ℝ) / (1000 : ℕ) ∧
      |ph2T_reg1 (hs2p_reg1 (0.461526 * 1386 * G1.gt (p / 16.53) τ)
        (0.461526 * (τ * G1.gt (p / 16.53) τ - G1.g (p / 16.53) τ))) (0.461526 * 1386 * G1.gt (p / 16.53) τ) - 1386 / τ|
        ≤ ((25 : ℕ) : ℝ) / (1000 : ℕ) := by
  unfold strips1
  refine List.forall_mem_cons.2 ⟨lift (leaf := leafHs1 P12 15 1000 25 1000) (leafHs1_ok P12_ok (by decide)) hs1_0 (by decide) (by decide) (by decide) (by decide), ?_⟩
  refine List.forall_mem_cons.2 ⟨lift (leaf := leafHs1 P12 15 1000 25 1000) (leafHs1_ok P12_ok (by decide)) hs1_1 (by decide) (by decide) (by decide) (by decide), ?_⟩
  refine List.forall_mem_cons.2 ⟨lift (leaf := leafHs1 P12 15 1000 25 1000) (leafHs1_ok P12_ok (by decide)) hs1_2 (by decide) (by decide) (by decide) (by decide), ?_⟩
  refine List.forall_mem_cons.2 ⟨lift (leaf := leafHs1 P12 15 1000 25 1000) (leafHs1_ok P12_ok (by decide)) hs1_3 (by decide) (by decide) (by decide) (by decide), ?_⟩
  refine List.forall_mem_cons.2 ⟨lift (leaf := leafHs1 P12 15 1000 25 1000) (leafHs1_ok P12_ok (by decide)) hs1_4 (by decide) (by decide) (by decide) (by decide), ?_⟩
  refine List.forall_mem_cons.2 ⟨lift (leaf := leafHs1 P12 15 1000 25 1000) (leafHs1_ok P12_ok (by decide)) hs1_5 (by decide) (by decide) (by decide) (by decide), ?_⟩
  refine List.forall_mem_cons.2 ⟨lift (leaf := leafHs1 P12 15 1000 25 1000) (leafHs1_ok P12_ok (by decide)) hs1_6 (by decide) (by decide) (by decide) (by decide), ?_⟩
  refine List.forall_mem_cons.2 ⟨lift (leaf := leafHs1 P12 15 1000 25 1000) (leafHs1_ok P12_ok (by decide)) hs1_7 (by decide) (by decide) (by decide) (by decide), ?_⟩
  refine List.forall_mem_cons.2 ⟨lift (leaf := leafHs1 P12 15 1000 25 1000) (leafHs1_ok P12_ok (by decide)) hs1_8 (by decide) (by decide) (by decide) (by decide), ?_⟩
  refine List.forall_mem_cons.2 ⟨lift (leaf := leafHs1 P12 15 1000 25 1000) (leafHs1_ok P12_ok (by decide)) hs1_9 (by decide) (by decide) (by decide) (by decide), ?_⟩
  refine List.forall_mem_cons.2 ⟨lift (leaf := leafHs1 P12 15 1000 25 1000) (leafHs1_ok P12_ok (by decide)) hs1_10 (by decide) (by decide) (by decide) (by decide), ?_⟩
  refine List.forall_mem_cons.2 ⟨lift (leaf := leafHs1 P12 15 1000 25 1000) (leafHs1_ok P12_ok (by decide)) hs1_11 (by decide) (by decide) (by decide) (by decide), ?_⟩
  refine List.forall_mem_cons.2 ⟨lift (leaf := leafHs1 P12 15 1000 25 1000) (leafHs1_ok P12_ok (by decide)) hs1_12 (by decide) (by decide) (by decide) (by decide), ?_⟩
  refine List.forall_mem_cons.2 ⟨lift (leaf := leafHs1 P12 15 1000 25 1000) (leafHs1_ok P12_ok (by decide)) hs1_13 (by decide) (by decide) (by decide) (by decide), ?_⟩
  refine List.forall_mem_cons.2 ⟨lift (leaf := leafHs1 P12 15 1000 25 1000) (leafHs1_ok P12_ok (by decide)) hs1_14 (by decide) (by decide) (by decide) (by decide), ?_⟩
  refine List.forall_mem_cons.2 ⟨lift (leaf := leafHs1 P12 15 1000 25 1000) (leafHs1_ok P12_ok (by decide)) hs1_15 (by decide) (by decide) (by decide) (by decide), ?_⟩
  refine List.forall_mem_cons.2 ⟨lift (leaf := leafHs1 P12 15 1000 25 1000) (leafHs1_ok P12_ok (by decide)) hs1_16 (by decide) (by decide) (by decide) (by decide), ?_⟩
  refine List.forall_mem_cons.2 ⟨lift (leaf := leafHs1 P12 15 1000 25 1000) (leafHs1_ok P12_ok (by decide)) hs1_17 (by decide) (by decide) (by decide) (by decide), ?_⟩
  refine List.forall_mem_cons.2 ⟨lift (leaf := leafHs1 P12 15 1000 25 1000) (leafHs1_ok P12_ok (by decide)) hs1_18 (by decide) (by decide) (by decide) (by decide), ?_⟩
  refine List.forall_mem_cons.2 ⟨lift (leaf := leafHs1 P12 15 1000 25 1000) (leafHs1_ok P12_ok (by decide)) hs1_19 (by decide) (by decide) (by decide) (by decide), ?_⟩
  refine List.forall_mem_cons.2 ⟨lift (leaf := leafHs1 P12 15 1000 25 1000) (leafHs1_ok P12_ok (by decide)) hs1_20 (by decide) (by decide) (by decide) (by decide), ?_⟩
  refine List.forall_mem_cons.2 ⟨lift (leaf := leafHs1 P12 15 1000 25 1000) (leafHs1_ok P12_ok (by decide)) hs1_21 (by decide) (by decide) (by decide) (by decide), ?_⟩
  refine List.forall_mem_cons.2 ⟨lift (leaf := leafHs1 P12 15 1000 25 1000) (leafHs1_ok P12_ok (by decide)) hs1_22 (by decide) (by decide) (by decide) (by decide), ?_⟩
  refine List.forall_mem_cons.2 ⟨lift (leaf := leafHs1 P12 15 1000 25 1000) (leafHs1_ok P12_ok (by decide)) hs1_23 (by decide) (by decide) (by decide) (by decide), ?_⟩
  refine List.forall_mem_cons.2 ⟨lift (leaf := leafHs1 P12 15 1000 25 1000) (leafHs1_ok P12_ok (by decide)) hs1_24 (by decide) (by decide) (by decide) (by decide), ?_⟩
  refine List.forall_mem_cons.2 ⟨lift (leaf := leafHs1 P12 15 1000 25 1000) (leafHs1_ok P12_ok (by decide)) hs1_25 (by decide) (by decide) (by decide) (by decide), ?_⟩
  refine List.forall_mem_cons.2 ⟨lift (leaf := leafHs1 P12 15 1000 25 1000) (leafHs1_ok P12_ok (by decide)) hs1_26 (by decide) (by decide) (by decide) (by decide), ?_⟩
  refine List.forall_mem_cons.2 ⟨lift (leaf := leafHs1 P12 15 1000 25 1000) (leafHs1_ok P12_ok (by decide)) hs1_27 (by decide) (by decide) (by decide) (by decide), ?_⟩
  refine List.forall_mem_cons.2 ⟨lift (leaf := leafHs1 P12 15 1000 25 1000) (leafHs1_ok P12_ok (by decide)) hs1_28 (by decide) (by decide) (by decide) (by decide), ?_⟩
  refine List.forall_mem_cons.2 ⟨lift (leaf := leafHs1 P12 15 1000 25 1000) (leafHs1_ok P12_ok (by decide)) hs1_29 (by decide) (by decide) (by decide) (by decide), ?_⟩
  refine List.forall_mem_cons.2 ⟨lift (leaf := leafHs1 P12 15 1000 25 1000) (leafHs1_ok P12_ok (by decide)) hs1_30 (by decide) (by decide) (by decide) (by decide), ?_⟩
  refine List.forall_mem_cons.2 ⟨lift (leaf := leafHs1 P12 15 1000 25 1000) (leafHs1_ok P12_ok (by decide)) hs1_31 (by decide) (by decide) (by decide) (by decide), ?_⟩
  refine List.forall_mem_cons.2 ⟨lift (leaf := leafHs1 P12 15 1000 25 1000) (leafHs1_ok P12_ok (by decide)) hs1_32 (by decide) (by decide) (by decide) (by decide), ?_⟩
  refine List.forall_mem_cons.2 ⟨lift (leaf := leafHs1 P12 15 1000 25 1000) (leafHs1_ok P12_ok (by decide)) hs1_33 (by decide) (by decide) (by decide) (by decide), ?_⟩
  refine List.forall_mem_cons.2 ⟨lift (leaf := leafHs1 P12 15 1000 25 1000) (leafHs1_ok P12_ok (by decide)) hs1_34 (by decide) (by decide) (by decide) (by decide), ?_⟩
  refine List.forall_mem_cons.2 ⟨lift (leaf := leafHs1 P12 15 1000 25 1000) (leafHs1_ok P12_ok (by decide)) hs1_35 (by decide) (by decide) (by decide) (by decide), ?_⟩
  refine List.forall_mem_cons.2 ⟨lift (leaf := leafHs1 P12 15 1000 25 1000) (leafHs1_ok P12_ok (by decide)) hs1_36 (by decide) (by decide) (by decide) (by decide), ?_⟩
  refine List.forall_mem_cons.2 ⟨lift (leaf := leafHs1 P12 15 1000 25 1000) (leafHs1_ok P12_ok (by decide)) hs1_37 (by decide) (by decide) (by decide) (by decide), ?_⟩
  refine List.forall_mem_cons.2 ⟨lift (leaf := leafHs1 P12 15 1000 25 1000) (leafHs1_ok P12_ok (by decide)) hs1_38 (by decide) (by decide) (by decide) (by decide), ?_⟩
  refine List.forall_mem_cons.2 ⟨lift (leaf := leafHs1 P12 15 1000 25 1000) (leafHs1_ok P12_ok (by decide)) hs1_39 (by decide) (by decide) (by decide) (by decide), ?_⟩
  refine List.forall_mem_cons.2 ⟨lift (leaf := leafHs1 P12 15 1000 25 1000) (leafHs1_ok P12_ok (by decide)) hs1_40 (by decide) (by decide) (by decide) (by decide), ?_⟩
  refine List.forall_mem_cons.2 ⟨lift (leaf := leafHs1 P12 15 1000 25 1000) (leafHs1_ok P12_ok (by decide)) hs1_41 (by decide) (by decide) (by decide) (by decide), ?_⟩
  refine List.forall_mem_cons.2 ⟨lift (leaf := leafHs1 P12 15 1000 25 1000) (leafHs1_ok P12_ok (by decide)) hs1_42 (by decide) (by decide) (by decide) (by decide), ?_⟩
  refine List.forall_mem_cons.2 ⟨lift (leaf := leafHs1 P12 15 1000 25 1000) (leafHs1_ok P12_ok (by decide)) hs1_43 (by decide) (by decide) (by decide) (by decide), ?_⟩
  refine List.forall_mem_cons.2 ⟨lift (leaf := leafHs1 P12 15 1000 25 1000) (leafHs1_ok P12_ok (by decide)) hs1_44 (by decide) (by decide) (by decide) (by decide), ?_⟩
  refine List.forall_mem_cons.2 ⟨lift (leaf := leafHs1 P12 15 1000 25 1000) (leafHs1_ok P12_ok (by decide)) hs1_45 (by decide) (by decide) (by decide) (by decide), ?_⟩
  refine List.forall_mem_cons.2 ⟨lift (leaf := leafHs1 P12 15 1000 25 1000) (leafHs1_ok P12_ok (by decide)) hs1_46 (by decide) (by decide) (by decide) (by decide), ?_⟩
  refine List.forall_mem_cons.2 ⟨lift (leaf := leafHs1 P12 15 1000 25 1000) (leafHs1_ok P12_ok (by decide)) hs1_47 (by decide) (by decide) (by decide) (by decide), ?_⟩
  refine List.forall_mem_cons.2 ⟨lift (leaf := leafHs1 P12 15 1000 25 1000) (leafHs1_ok P12_ok (by decide)) hs1_48 (by decide) (by decide) (by decide) (by decide), ?_⟩
  refine List.forall_mem_cons.2 ⟨lift (leaf := leafHs1 P12 15 1000 25 1000) (leafHs1_ok P12_ok (by decide)) hs1_49 (by decide) (by decide) (by decide) (by decide), ?_⟩
  exact fun _ h => absurd h List.not_mem_nil

variable {p T : ℝ} (h : InRange 1 p T)

theorem eH : 0.461526 * 1386 * G1.gt (p / 16.53) (1386 / T) = G1.H p T := by
  simp only [Gibbs.H, gasR, G1]
theorem eS : 0.461526 * (1386 / T * G1.gt (p / 16.53) (1386 / T) - G1.g (p / 16.53) (1386 / T)) = G1.S p T := by
  simp only [Gibbs.S, gasR, G1]

include h

theorem ph1_back : |ph2T_reg1 p (G1.H p T) - T| ≤ 0.025 := by
  obtain ⟨s, hs, hm⟩ := cover1 h
  have := ph1_all s hs _ _ hm
  rw [div_div_cancel₀ (by norm_num), eH] at this
  exact this.trans (by norm_num)

theorem ps1_back : |ps2T_reg1 p (G1.S p T) - T| ≤ 0.025 := by
  obtain ⟨s, hs, hm⟩ := cover1 h
  have := ps1_all s hs _ _ hm
  rw [div_div_cancel₀ (by norm_num), eS] at this
  exact this.trans (by norm_num)

theorem hs1_back : |hs2p_reg1 (G1.H p T) (G1.S p T) - p| ≤ 0.015 ∧
    |ph2T_reg1 (hs2p_reg1 (G1.H p T) (G1.S p T)) (G1.H p T) - T| ≤ 0.025 := by
  obtain ⟨s, hs, hm⟩ := cover1 h
  have := hs1_all s hs _ _ hm
  rw [div_div_cancel₀ (by norm_num), eH, eS] at this
  exact ⟨this.1.trans (by norm_num), this.2.trans (by norm_num)⟩

end If97.Tm
