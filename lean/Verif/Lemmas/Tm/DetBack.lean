import Verif.Lemmas.Tm.Det1_0
import Verif.Lemmas.Tm.Det1_1
import Verif.Lemmas.Tm.Det1_2
import Verif.Lemmas.Tm.LeafD
import Verif.Lemmas.Tm.Det2_0
import Verif.Lemmas.Tm.Det2_1
import Verif.Lemmas.Tm.Det2_2
import Verif.Lemmas.Tm.Cover1
import Verif.Lemmas.Tm.Cover2

/-! The determinant of the second derivatives on the whole cover. -/

namespace If97.Tm
set_option maxRecDepth 100000

theorem det1_0 : Good (RDet1 false) 49999695 89602 50000305 1000000 4984534 1000000 := okDet1 det1_t0 det1_c0
theorem det1_0e : Good (RDet1 true) 49999695 44000 50000305 1000000 4938930 1000000 := okDet1 det1_t0e det1_c0e
theorem det1_1 : Good (RDet1 true) 49999387 83490 50000613 1000000 4811444 1000000 := okDet1 det1_t1 det1_c1
theorem det1_2 : Good (RDet1 true) 49998831 150981 50001169 1000000 4576974 1000000 := okDet1 det1_t2 det1_c2
theorem det1_3 : Good (RDet1 true) 49996309 132853 50003691 1000000 4293141 1000000 := okDet1 det1_t3 det1_c3
theorem det1_4 : Good (RDet1 true) 49990029 117806 50009971 1000000 4042483 1000000 := okDet1 det1_t4 det1_c4
theorem det1_5 : Good (RDet1 true) 49976296 105178 50023704 1000000 3819501 1000000 := okDet1 det1_t5 det1_c5
theorem det1_6 : Good (RDet1 true) 49949297 94477 50050703 1000000 3619848 1000000 := okDet1 det1_t6 det1_c6
theorem det1_7 : Good (RDet1 true) 49900678 85330 50099322 1000000 3440043 1000000 := okDet1 det1_t7 det1_c7
theorem det1_8 : Good (RDet1 true) 49819268 77450 50180732 1000000 3277265 1000000 := okDet1 det1_t8 det1_c8
theorem det1_9 : Good (RDet1 true) 49690962 70614 50309038 1000000 3129203 1000000 := okDet1 det1_t9 det1_c9
theorem det1_10 : Good (RDet1 true) 49498733 64644 50501267 1000000 2993947 1000000 := okDet1 det1_t10 det1_c10
theorem det1_11 : Good (RDet1 true) 49222742 59401 50777258 1000000 2869904 1000000 := okDet1 det1_t11 det1_c11
theorem det1_12 : Good (RDet1 true) 48840473 54770 51159527 1000000 2755734 1000000 := okDet1 det1_t12 det1_c12
theorem det1_13 : Good (RDet1 true) 48326842 50661 51673158 1000000 2650304 1000000 := okDet1 det1_t13 det1_c13
theorem det1_14 : Good (RDet1 true) 47654200 23932 52345800 1000000 2575713 1000000 := okDet1 det1_t14 det1_c14
theorem det1_15 : Good (RDet1 true) 47248856 23067 52751144 1000000 2528716 1000000 := okDet1 det1_t15 det1_c15
theorem det1_16 : Good (RDet1 true) 46792092 22248 53207908 1000000 2483403 1000000 := okDet1 det1_t16 det1_c16
theorem det1_17 : Good (RDet1 true) 46279551 10831 53720449 1000000 2450327 1000000 := okDet1 det1_t17 det1_c17
theorem det1_18 : Good (RDet1 true) 46000923 10641 53999077 1000000 2428856 1000000 := okDet1 det1_t18 det1_c18
theorem det1_19 : Good (RDet1 true) 45706576 10458 54293424 1000000 2407759 1000000 := okDet1 det1_t19 det1_c19
theorem det1_20 : Good (RDet1 true) 45395867 10278 54604133 1000000 2387024 1000000 := okDet1 det1_t20 det1_c20
theorem det1_21 : Good (RDet1 true) 45068121 5073 54931879 1000000 2371674 1000000 := okDet1 det1_t21 det1_c21
theorem det1_22 : Good (RDet1 true) 44897639 5031 55102361 1000000 2361572 1000000 := okDet1 det1_t22 det1_c22
theorem det1_23 : Good (RDet1 true) 44722629 4988 55277371 1000000 2351555 1000000 := okDet1 det1_t23 det1_c23
theorem det1_24 : Good (RDet1 true) 44542994 4946 55457006 1000000 2341623 1000000 := okDet1 det1_t24 det1_c24
theorem det1_25 : Good (RDet1 true) 44358637 2948 55641363 1000000 2333730 1000000 := okDet1 det1_t25 det1_c25
theorem det1_26 : Good (RDet1 true) 44245713 2933 55754287 1000000 2327851 1000000 := okDet1 det1_t26 det1_c26
theorem det1_27 : Good (RDet1 true) 44131030 5821 55868970 1000000 2319098 1000000 := okDet1 det1_t27 det1_c27
theorem det1_28 : Good (RDet1 true) 43896292 5763 56103708 1000000 2307515 1000000 := okDet1 det1_t28 det1_c28
theorem det1_29 : Good (RDet1 true) 43654231 3811 56345769 1000000 2297943 1000000 := okDet1 det1_t29 det1_c29
theorem det1_30 : Good (RDet1 true) 43488690 3786 56511310 1000000 2290348 1000000 := okDet1 det1_t30 det1_c30
theorem det1_31 : Good (RDet1 true) 43319742 3761 56680258 1000000 2282803 1000000 := okDet1 det1_t31 det1_c31
theorem det1_32 : Good (RDet1 true) 43147323 3736 56852677 1000000 2275308 1000000 := okDet1 det1_t32 det1_c32
theorem det1_33 : Good (RDet1 true) 42971365 3712 57028635 1000000 2267862 1000000 := okDet1 det1_t33 det1_c33
theorem det1_34 : Good (RDet1 true) 42791799 1847 57208201 1000000 2262305 1000000 := okDet1 det1_t34 det1_c34
theorem det1_35 : Good (RDet1 true) 42700640 1841 57299360 1000000 2258618 1000000 := okDet1 det1_t35 det1_c35
theorem det1_36 : Good (RDet1 true) 42608551 1835 57391449 1000000 2254943 1000000 := okDet1 det1_t36 det1_c36
theorem det1_37 : Good (RDet1 true) 42515524 1829 57484476 1000000 2251281 1000000 := okDet1 det1_t37 det1_c37
theorem det1_38 : Good (RDet1 true) 42421546 1823 57578454 1000000 2247630 1000000 := okDet1 det1_t38 det1_c38
theorem det1_39 : Good (RDet1 true) 42326610 1817 57673390 1000000 2243991 1000000 := okDet1 det1_t39 det1_c39
theorem det1_40 : Good (RDet1 true) 42230704 1812 57769296 1000000 2240364 1000000 := okDet1 det1_t40 det1_c40
theorem det1_41 : Good (RDet1 true) 42133817 904 57866183 1000000 2237650 1000000 := okDet1 det1_t41 det1_c41
theorem det1_42 : Good (RDet1 true) 42085003 902 57914997 1000000 2235845 1000000 := okDet1 det1_t42 det1_c42
theorem det1_43 : Good (RDet1 true) 42035939 901 57964061 1000000 2234043 1000000 := okDet1 det1_t43 det1_c43
theorem det1_44 : Good (RDet1 true) 41986625 899 58013375 1000000 2232244 1000000 := okDet1 det1_t44 det1_c44
theorem det1_45 : Good (RDet1 true) 41937059 898 58062941 1000000 2230448 1000000 := okDet1 det1_t45 det1_c45
theorem det1_46 : Good (RDet1 true) 41887239 897 58112761 1000000 2228655 1000000 := okDet1 det1_t46 det1_c46
theorem det1_47 : Good (RDet1 true) 41837165 895 58162835 1000000 2226864 1000000 := okDet1 det1_t47 det1_c47
theorem det1_48 : Good (RDet1 true) 41786834 447 58213166 1000000 2225523 1000000 := okDet1 det1_t48 det1_c48
theorem det1_49 : Good (RDet1 true) 41761572 447 58238428 1000000 2224630 1000000 := okDet1 det1_t49 det1_c49

end If97.Tm

/-! The determinant of the second derivatives on the whole cover. -/

namespace If97.Tm
set_option maxRecDepth 100000

theorem det2_0 : Good (Rf RDet2 q0 q1) 92800 1 407200 2000000 1 2 := okDet2 P12_ok q0 q1 det2_t0 det2_c0
theorem det2_1 : Good (Rf RDet2 q0 q2) 150000 1 650000 2000000 1 2 := okDet2 P12_ok q0 q2 det2_t1 det2_c1
theorem det2_2 : Good (Rf RDet2 q0 q3) 200000 1 1000000 2000000 1 2 := okDet2 P12_ok q0 q3 det2_t2 det2_c2
theorem det2_3 : Good (Rf RDet2 q0 q4) 250000 1 1450000 2000000 1 2 := okDet2 P12_ok q0 q4 det2_t3 det2_c3
theorem det2_4 : Good (Rf RDet2 q0 q5) 250000 1 1950000 2000000 1 2 := okDet2 P12_ok q0 q5 det2_t4 det2_c4
theorem det2_5 : Good (Rf RDet2 q0 q6) 314220 1 2514220 2000000 1 2 := okDet2 P12_ok q0 q6 det2_t5 det2_c5
theorem det2_6 : Good (Rf RDet2 q0 q7) 185800 1 3014200 2000000 1 2 := okDet2 P12_ok q0 q7 det2_t6 det2_c6
theorem det2_7 : Good (Rf RDet2 q0 q9) 200000 1 3400000 2000000 1 2 := okDet2 P12_ok q0 q9 det2_t7 det2_c7
theorem det2_8 : Good (Rf RDet2 q0 q11) 216300 1 3816300 2000000 1 2 := okDet2 P12_ok q0 q11 det2_t8 det2_c8
theorem det2_9 : Good (Rf RDet2 q0 q13) 283700 1 4316300 2000000 1 2 := okDet2 P12_ok q0 q13 det2_t9 det2_c9
theorem det2_10 : Good (Rf RDet2 q0 q15) 400000 1 5000000 2000000 1 2 := okDet2 P19_ok q0 q15 det2_t10 det2_c10
theorem det2_11 : Good (Rf RDet2 q0 q17) 462278 1 5862278 2000000 1 2 := okDet2 P19_ok q0 q17 det2_t11 det2_c11

end If97.Tm

/-! The determinant of the second derivatives, region 5 (generated subdivisions, checked in the kernel) -/

namespace If97.Tm
set_option maxRecDepth 100000

theorem det5_all : Good RDet5 25 24597 25 1 68588 100000 :=
  okDet5 .a (by decide +kernel)

end If97.Tm

/-! The determinant of the second derivatives is positive on regions 1, 2, 5. -/

namespace If97.Tm

theorem RDet1.weak {k : Bool} {p τ : ℝ} (h : RDet1 k p τ) : RDet1 false p τ := ⟨h.1, h.2.1, nofun, h.2.2.2⟩

/-- what the strips establish; below 278.15 K the thermal expansion may have either sign -/
def Res1 (p τ : ℝ) : Prop := RDet1 false p τ ∧ (τ ≤ 4.98293 → RDet1 true p τ)

theorem RDet1.res {p τ : ℝ} (h : RDet1 true p τ) : Res1 p τ := ⟨h.weak, fun _ => h⟩

theorem det1_first {p τ : ℝ} (h : Strip.Mem ⟨49999695, 89602, 50000305, 1000000, 4984534, 1000000⟩ p τ) : Res1 p τ := by
  refine ⟨det1_0 p τ h.1 h.2, fun k => det1_0e p τ h.1 ?_⟩
  have h2 := abs_le.1 h.2
  rw [abs_le]
  push_cast at h2 ⊢
  constructor
  · linarith [h2.1]
  · norm_num at k ⊢; linarith

theorem det1_all : ∀ s ∈ strips1, ∀ p τ : ℝ, s.Mem p τ → Res1 p τ := by
  unfold strips1
  refine List.forall_mem_cons.2 ⟨fun p τ h => det1_first h, ?_⟩
  refine List.forall_mem_cons.2 ⟨fun p τ h => (det1_1 p τ h.1 h.2).res, ?_⟩
  refine List.forall_mem_cons.2 ⟨fun p τ h => (det1_2 p τ h.1 h.2).res, ?_⟩
  refine List.forall_mem_cons.2 ⟨fun p τ h => (det1_3 p τ h.1 h.2).res, ?_⟩
  refine List.forall_mem_cons.2 ⟨fun p τ h => (det1_4 p τ h.1 h.2).res, ?_⟩
  refine List.forall_mem_cons.2 ⟨fun p τ h => (det1_5 p τ h.1 h.2).res, ?_⟩
  refine List.forall_mem_cons.2 ⟨fun p τ h => (det1_6 p τ h.1 h.2).res, ?_⟩
  refine List.forall_mem_cons.2 ⟨fun p τ h => (det1_7 p τ h.1 h.2).res, ?_⟩
  refine List.forall_mem_cons.2 ⟨fun p τ h => (det1_8 p τ h.1 h.2).res, ?_⟩
  refine List.forall_mem_cons.2 ⟨fun p τ h => (det1_9 p τ h.1 h.2).res, ?_⟩
  refine List.forall_mem_cons.2 ⟨fun p τ h => (det1_10 p τ h.1 h.2).res, ?_⟩
  refine List.forall_mem_cons.2 ⟨fun p τ h => (det1_11 p τ h.1 h.2).res, ?_⟩
  refine List.forall_mem_cons.2 ⟨fun p τ h => (det1_12 p τ h.1 h.2).res, ?_⟩
  refine List.forall_mem_cons.2 ⟨fun p τ h => (det1_13 p τ h.1 h.2).res, ?_⟩
  refine List.forall_mem_cons.2 ⟨fun p τ h => (det1_14 p τ h.1 h.2).res, ?_⟩
  refine List.forall_mem_cons.2 ⟨fun p τ h => (det1_15 p τ h.1 h.2).res, ?_⟩
  refine List.forall_mem_cons.2 ⟨fun p τ h => (det1_16 p τ h.1 h.2).res, ?_⟩
  refine List.forall_mem_cons.2 ⟨fun p τ h => (det1_17 p τ h.1 h.2).res, ?_⟩
  refine List.forall_mem_cons.2 ⟨fun p τ h => (det1_18 p τ h.1 h.2).res, ?_⟩
  refine List.forall_mem_cons.2 ⟨fun p τ h => (det1_19 p τ h.1 h.2).res, ?_⟩
  refine List.forall_mem_cons.2 ⟨fun p τ h => (det1_20 p τ h.1 h.2).res, ?_⟩
  refine List.forall_mem_cons.2 ⟨fun p τ h => (det1_21 p τ h.1 h.2).res, ?_⟩
  refine List.forall_mem_cons.2 ⟨fun p τ h => (det1_22 p τ h.1 h.2).res, ?_⟩
  refine List.forall_mem_cons.2 ⟨fun p τ h => (det1_23 p τ h.1 h.2).res, ?_⟩
  refine List.forall_mem_cons.2 ⟨fun p τ h => (det1_24 p τ h.1 h.2).res, ?_⟩
  refine List.forall_mem_cons.2 ⟨fun p τ h => (det1_25 p τ h.1 h.2).res, ?_⟩
  refine List.forall_mem_cons.2 ⟨fun p τ h => (det1_26 p τ h.1 h.2).res, ?_⟩
  refine List.forall_mem_cons.2 ⟨fun p τ h => (det1_27 p τ h.1 h.2).res, ?_⟩
  refine List.forall_mem_cons.2 ⟨fun p τ h => (det1_28 p τ h.1 h.2).res, ?_⟩
  refine List.forall_mem_cons.2 ⟨fun p τ h => (det1_29 p τ h.1 h.2).res, ?_⟩
  refine List.forall_mem_cons.2 ⟨fun p τ h => (det1_30 p τ h.1 h.2).res, ?_⟩
  refine List.forall_mem_cons.2 ⟨fun p τ h => (det1_31 p τ h.1 h.2).res, ?_⟩
  refine List.forall_mem_cons.2 ⟨fun p τ h => (det1_32 p τ h.1 h.2).res, ?_⟩
  refine List.forall_mem_cons.2 ⟨fun p τ h => (det1_33 p τ h.1 h.2).res, ?_⟩
  refine List.forall_mem_cons.2 ⟨fun p τ h => (det1_34 p τ h.1 h.2).res, ?_⟩
  refine List.forall_mem_cons.2 ⟨fun p τ h => (det1_35 p τ h.1 h.2).res, ?_⟩
  refine List.forall_mem_cons.2 ⟨fun p τ h => (det1_36 p τ h.1 h.2).res, ?_⟩
  refine List.forall_mem_cons.2 ⟨fun p τ h => (det1_37 p τ h.1 h.2).res, ?_⟩
  refine List.forall_mem_cons.2 ⟨fun p τ h => (det1_38 p τ h.1 h.2).res, ?_⟩
  refine List.forall_mem_cons.2 ⟨fun p τ h => (det1_39 p τ h.1 h.2).res, ?_⟩
  refine List.forall_mem_cons.2 ⟨fun p τ h => (det1_40 p τ h.1 h.2).res, ?_⟩
  refine List.forall_mem_cons.2 ⟨fun p τ h => (det1_41 p τ h.1 h.2).res, ?_⟩
  refine List.forall_mem_cons.2 ⟨fun p τ h => (det1_42 p τ h.1 h.2).res, ?_⟩
  refine List.forall_mem_cons.2 ⟨fun p τ h => (det1_43 p τ h.1 h.2).res, ?_⟩
  refine List.forall_mem_cons.2 ⟨fun p τ h => (det1_44 p τ h.1 h.2).res, ?_⟩
  refine List.forall_mem_cons.2 ⟨fun p τ h => (det1_45 p τ h.1 h.2).res, ?_⟩
  refine List.forall_mem_cons.2 ⟨fun p τ h => (det1_46 p τ h.1 h.2).res, ?_⟩
  refine List.forall_mem_cons.2 ⟨fun p τ h => (det1_47 p τ h.1 h.2).res, ?_⟩
  refine List.forall_mem_cons.2 ⟨fun p τ h => (det1_48 p τ h.1 h.2).res, ?_⟩
  refine List.forall_mem_cons.2 ⟨fun p τ h => (det1_49 p τ h.1 h.2).res, ?_⟩
  exact fun _ h => absurd h List.not_mem_nil

theorem det1_signs {p T : ℝ} (h : InRange 1 p T) : RDet1 false p (1386 / T) := by
  obtain ⟨s, hs, hm⟩ := cover1 h
  exact (det1_all s hs _ _ hm).1

theorem det1_expand {p T : ℝ} (h : InRange 1 p T) (h5 : 278.15 ≤ T) : RDet1 true p (1386 / T) := by
  obtain ⟨s, hs, hm⟩ := cover1 h
  refine (det1_all s hs _ _ hm).2 ?_
  rw [div_le_iff₀ h.T_pos]
  norm_num at h5 ⊢; linarith

theorem det1_pos {p T : ℝ} (h : InRange 1 p T) : 0 < G1.det (p / G1.ps) (G1.Ts / T) := (det1_signs h).2.2.2

/-- from π B and π² C to B and C -/
theorem DetI.det {G : Gibbs} {k : Bool} {x y : ℝ} (h : DetI G k x y) (hx : x ≠ 0) : 0 < G.det x y := by
  have e : -(y ^ 2 * G.gtt x y) * -(x ^ 2 * G.gpp x y) - (x * G.gp x y - y * (x * G.gpt x y)) ^ 2 = x ^ 2 * G.det x y := by
    unfold Gibbs.det; ring
  exact pos_of_mul_pos_right (e ▸ h.2.1) (by positivity)

theorem det2_pos {p T : ℝ} (h : InRange 2 p T) (hp : 0.000611212677444 ≤ p) : DetI G2 false p (540 / T) := by
  obtain ⟨β, τ, a, b, c, d, e, f, g, hτ, i, j⟩ := coords2 h hp
  have hβ : β ^ 4 ≠ 0 := by rw [f]; exact h.p_pos.ne'
  suffices RDet2 β τ by rw [← f, ← hτ]; exact this hβ
  rcases le_total p 4 with k | k
  · exact cover2a det2_0 det2_1 det2_2 det2_3 det2_4 det2_5 e c d a (i k)
  · exact cover2g (.one (by decide) det2_6) (.one (by decide) det2_7) (.one (by decide) det2_8) (.one (by decide) det2_9)
      (.one (by decide) det2_10) (.one (by decide) det2_11) e c d (j k) b

theorem det5_pos {p T : ℝ} (h : InRange 5 p T) : DetI G5 true p (1000 / T) := by
  have hp := h.p_pos
  have hT := h.T_pos
  rcases h with h | h | h
  · exact absurd h.1 (by decide)
  · exact absurd h.1 (by decide)
  · refine det5_all p (1000 / T) ?_ ?_ hp.ne'
    · rw [abs_le]; push_cast; constructor <;> linarith [h.2.2.1]
    · have h1 := h.2.2.2.1
      have h2 := h.2.2.2.2
      have e : 1000 / T * (100000 : ℕ) = 100000000 / T := by push_cast; ring
      rw [e, abs_le]; push_cast
      constructor
      · rw [neg_le_sub_iff_le_add, ← sub_le_iff_le_add, le_div_iff₀ hT]; norm_num at *; linarith
      · rw [sub_le_iff_le_add, div_le_iff₀ hT]; norm_num at *; linarith

theorem det_pos {r : Int} {p T : ℝ} (h : InRange r p T) (hp : 0.000611212677444 ≤ p) :
    0 < (Gr r).det (p / (Gr r).ps) ((Gr r).Ts / T) := by
  rcases h.gibbs with rfl | rfl | rfl
  · exact det1_pos h
  · rw [Gr_2, show G2.ps = 1 from rfl, div_one]; exact (det2_pos h hp).det h.p_pos.ne'
  · rw [Gr_5, show G5.ps = 1 from rfl, div_one]; exact (det5_pos h).det h.p_pos.ne'

end If97.Tm
