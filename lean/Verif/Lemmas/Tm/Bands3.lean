import Verif.Lemmas.Tm.Ph3_0
import Verif.Lemmas.Tm.Ph3_1
import Verif.Lemmas.Tm.Ph3_2
import Verif.Lemmas.Tm.Ph3_3
import Verif.Lemmas.Tm.Ph3_4
import Verif.Lemmas.Tm.Ph3_5
import Verif.Lemmas.Tm.Ph3_6
import Verif.Lemmas.Tm.Ph3_7
import Verif.Lemmas.Tm.Ph3_8
import Verif.Lemmas.Tm.Leaf3t
import Verif.Lemmas.Tm.Logs3
import Verif.Lemmas.Tm.Ph3l_0
import Verif.Lemmas.Tm.Ph3l_1
import Verif.Lemmas.Tm.Ph3q_0
import Verif.Lemmas.Tm.Leaf3s
import Verif.Lemmas.Tm.Ph3v_0
import Verif.Lemmas.Tm.Ps3_0
import Verif.Lemmas.Tm.Ps3_1
import Verif.Lemmas.Tm.Ps3_2
import Verif.Lemmas.Tm.Ps3_3
import Verif.Lemmas.Tm.Ps3_4
import Verif.Lemmas.Tm.Ps3_5
import Verif.Lemmas.Tm.Ps3_6
import Verif.Lemmas.Tm.Ps3_7
import Verif.Lemmas.Tm.Ps3_8
import Verif.Lemmas.Tm.Ps3_9
import Verif.Lemmas.Tm.Ps3_10
import Verif.Lemmas.Tm.Ps3_11
import Verif.Lemmas.Tm.Ps3_12
import Verif.Lemmas.Tm.Ps3_13
import Verif.Lemmas.Tm.Ps3l_0
import Verif.Lemmas.Tm.Ps3l_1
import Verif.Lemmas.Tm.Ps3l_2
import Verif.Lemmas.Tm.Ps3l_3
import Verif.Lemmas.Tm.Ps3q_0
import Verif.Lemmas.Tm.Ps3v_0

/-! T and v from (p, h) in region 3, above 373.946 degC: the whole bands. -/

namespace If97.Tm
set_option maxRecDepth 100000

theorem ph3_0 : Good (RHot RPh3) 300000 250309 300000 2000000 1749691 2000000 := okPh3 ph3_t0 ph3_c0
theorem ph3_1 : Good (RHot RPh3) 200000 250309 800000 2000000 3249073 4000000 := okPh3 ph3_t1 ph3_c1
theorem ph3_2 : Good (RHot RPh3) 200000 250309 1400000 4000000 3749691 4000000 := okPh3 ph3_t2 ph3_c2
theorem ph3_3 : Good (RHot RPh3) 200000 250309 1800000 4000000 7249073 8000000 := okPh3 ph3_t3 ph3_c3
theorem ph3_4 : Good (RHot RPh3) 200000 250309 3400000 8000000 15249073 16000000 := okPh3 ph3_t4 ph3_c4
theorem ph3_5 : Good (RHot RPh3) 200000 250309 3400000 8000000 31249073 32000000 := okPh3 ph3_t5 ph3_c5
theorem ph3_6 : Good (RHot RPh3) 200000 250309 6600000 16000000 31749691 32000000 := okPh3 ph3_t6 ph3_c6
theorem ph3_7 : Good (RHot RPh3) 200000 250309 7000000 16000000 31749691 32000000 := okPh3 ph3_t7 ph3_c7
theorem ph3_8 : Good (RHot RPh3) 200000 250309 3800000 8000000 15249073 16000000 := okPh3 ph3_t8 ph3_c8
theorem ph3_9 : Good (RHot RPh3) 200000 250309 3800000 8000000 15749691 16000000 := okPh3 ph3_t9 ph3_c9
theorem ph3_10 : Good (RHot RPh3) 300000 250309 1300000 2000000 3249073 4000000 := okPh3 ph3_t10 ph3_c10
theorem ph3_11 : Good (RHot RPh3) 300000 250309 2300000 4000000 7249073 8000000 := okPh3 ph3_t11 ph3_c11
theorem ph3_12 : Good (RHot RPh3) 300000 250309 4300000 8000000 15249073 16000000 := okPh3 ph3_t12 ph3_c12
theorem ph3_13 : Good (RHot RPh3) 300000 250309 4300000 8000000 15749691 16000000 := okPh3 ph3_t13 ph3_c13
theorem ph3_14 : Good (RHot RPh3) 300000 250309 4900000 8000000 15249073 16000000 := okPh3 ph3_t14 ph3_c14
theorem ph3_15 : Good (RHot RPh3) 300000 250309 4900000 8000000 15749691 16000000 := okPh3 ph3_t15 ph3_c15
theorem ph3_16 : Good (RHot RPh3) 300000 250309 2900000 4000000 7249073 8000000 := okPh3 ph3_t16 ph3_c16
theorem ph3_17 : Good (RHot RPh3) 300000 250309 2900000 4000000 7749691 8000000 := okPh3 ph3_t17 ph3_c17
theorem ph3_18 : Good (RHot RPh3) 400000 250309 3600000 4000000 3249073 4000000 := okPh3 ph3_t18 ph3_c18
theorem ph3_19 : Good (RHot RPh3) 400000 250309 4400000 4000000 6247837 8000000 := okPh3 ph3_t19 ph3_c19
theorem ph3_20 : Good (RHot RPh3) 400000 250309 4400000 4000000 6748455 8000000 := okPh3 ph3_t20 ph3_c20
theorem ph3_21 : Good (RHot RPh3) 400000 250309 3600000 4000000 7249073 8000000 := okPh3 ph3_t21 ph3_c21
theorem ph3_22 : Good (RHot RPh3) 400000 250309 6800000 8000000 7749691 8000000 := okPh3 ph3_t22 ph3_c22
theorem ph3_23 : Good (RHot RPh3) 400000 250309 7600000 8000000 7749691 8000000 := okPh3 ph3_t23 ph3_c23
theorem ph3_24 : Good (RHot RPh3) 400000 250309 4400000 4000000 7249073 8000000 := okPh3 ph3_t24 ph3_c24
theorem ph3_25 : Good (RHot RPh3) 400000 250309 8400000 8000000 7749691 8000000 := okPh3 ph3_t25 ph3_c25
theorem ph3_26 : Good (RHot RPh3) 400000 250309 9200000 8000000 15249073 16000000 := okPh3 ph3_t26 ph3_c26
theorem ph3_27 : Good (RHot RPh3) 400000 250309 9200000 8000000 15749691 16000000 := okPh3 ph3_t27 ph3_c27
theorem ph3_28 : Good (RHot RPh3) 500000 250309 5300000 4000000 3249073 4000000 := okPh3 ph3_t28 ph3_c28
theorem ph3_29 : Good (RHot RPh3) 500000 250309 6300000 4000000 3249073 4000000 := okPh3 ph3_t29 ph3_c29
theorem ph3_30 : Good (RHot RPh3) 500000 250309 10100000 8000000 7249073 8000000 := okPh3 ph3_t30 ph3_c30
theorem ph3_31 : Good (RHot RPh3) 500000 250309 11100000 8000000 7249073 8000000 := okPh3 ph3_t31 ph3_c31
theorem ph3_32 : Good (RHot RPh3) 500000 250309 19700000 16000000 15249073 16000000 := okPh3 ph3_t32 ph3_c32
theorem ph3_33 : Good (RHot RPh3) 500000 250309 20700000 16000000 15249073 16000000 := okPh3 ph3_t33 ph3_c33
theorem ph3_34 : Good (RHot RPh3) 500000 250309 10100000 8000000 15749691 16000000 := okPh3 ph3_t34 ph3_c34
theorem ph3_35 : Good (RHot RPh3) 500000 250309 11100000 8000000 7749691 8000000 := okPh3 ph3_t35 ph3_c35
theorem ph3_36 : Good (RHot RPh3) 500000 250309 6300000 4000000 7249073 8000000 := okPh3 ph3_t36 ph3_c36
theorem ph3_37 : Good (RHot RPh3) 500000 250309 6300000 4000000 7749691 8000000 := okPh3 ph3_t37 ph3_c37
theorem ph3_38 : Good (RHot RPh3) 800000 250309 4200000 2000000 3249073 4000000 := okPh3 ph3_t38 ph3_c38
theorem ph3_39 : Good (RHot RPh3) 800000 250309 7600000 4000000 7249073 8000000 := okPh3 ph3_t39 ph3_c39
theorem ph3_40 : Good (RHot RPh3) 800000 250309 7600000 4000000 7749691 8000000 := okPh3 ph3_t40 ph3_c40
theorem ph3_41 : Good (RHot RPh3) 800000 250309 9200000 4000000 3749691 4000000 := okPh3 ph3_t41 ph3_c41
theorem ph3_root0 : Good (RHot RPh3) 300000 250309 300000 2000000 1749691 2000000 :=
  ph3_0
theorem ph3_root1 : Good (RHot RPh3) 200000 250309 800000 2000000 1749691 2000000 :=
  (Good.y ph3_1 (Good.x ph3_2 (Good.y ph3_3 (Good.x (Good.y ph3_4 (Good.y ph3_5 (Good.x ph3_6 ph3_7 rfl rfl rfl) rfl rfl rfl) rfl rfl rfl) (Good.y ph3_8 ph3_9 rfl rfl rfl) rfl rfl rfl) rfl rfl rfl) rfl rfl rfl) rfl rfl rfl)
theorem ph3_root2 : Good (RHot RPh3) 300000 250309 1300000 2000000 1749691 2000000 :=
  (Good.y ph3_10 (Good.x (Good.y ph3_11 (Good.x (Good.y ph3_12 ph3_13 rfl rfl rfl) (Good.y ph3_14 ph3_15 rfl rfl rfl) rfl rfl rfl) rfl rfl rfl) (Good.y ph3_16 ph3_17 rfl rfl rfl) rfl rfl rfl) rfl rfl rfl)
theorem ph3_root3 : Good (RHot RPh3) 400000 250309 2000000 2000000 1749691 2000000 :=
  (Good.y (Good.x ph3_18 (Good.y ph3_19 ph3_20 rfl rfl rfl) rfl rfl rfl) (Good.x (Good.y ph3_21 (Good.x ph3_22 ph3_23 rfl rfl rfl) rfl rfl rfl) (Good.y ph3_24 (Good.x ph3_25 (Good.y ph3_26 ph3_27 rfl rfl rfl) rfl rfl rfl) rfl rfl rfl) rfl rfl rfl) rfl rfl rfl)
theorem ph3_root4 : Good (RHot RPh3) 500000 250309 2900000 2000000 1749691 2000000 :=
  (Good.y (Good.x ph3_28 ph3_29 rfl rfl rfl) (Good.x (Good.y (Good.x ph3_30 ph3_31 rfl rfl rfl) (Good.x (Good.y (Good.x ph3_32 ph3_33 rfl rfl rfl) ph3_34 rfl rfl rfl) ph3_35 rfl rfl rfl) rfl rfl rfl) (Good.y ph3_36 ph3_37 rfl rfl rfl) rfl rfl rfl) rfl rfl rfl)
theorem ph3_root5 : Good (RHot RPh3) 800000 250309 4200000 2000000 1749691 2000000 :=
  (Good.y ph3_38 (Good.x (Good.y ph3_39 ph3_40 rfl rfl rfl) ph3_41 rfl rfl rfl) rfl rfl rfl)

end If97.Tm

/-! T and v from (p, h) in region 3, 350 to 373.946 degC: the whole bands. -/

namespace If97.Tm
set_option maxRecDepth 100000

theorem ph3l_0 : Good (RCold RPh3) 300000 38428 300000 2000000 2038428 2000000 := okPh3l ph3l_t0 ph3l_c0
theorem ph3l_1 : Good (RCold RPh3) 200000 38428 800000 2000000 2038428 2000000 := okPh3l ph3l_t1 ph3l_c1
theorem ph3l_2 : Good (RCold RPh3) 300000 38428 1300000 2000000 2038428 2000000 := okPh3l ph3l_t2 ph3l_c2
theorem ph3l_3 : Good (RCold RPh3) 400000 38428 2000000 2000000 2038428 2000000 := okPh3l ph3l_t3 ph3l_c3
theorem ph3l_4 : Good (RCold RPh3) 500000 38428 2900000 2000000 2038428 2000000 := okPh3l ph3l_t4 ph3l_c4
theorem ph3l_5 : Good (RCold RPh3) 800000 38428 7600000 4000000 4038428 4000000 := okPh3l ph3l_t5 ph3l_c5
theorem ph3l_6 : Good (RCold RPh3) 800000 38428 9200000 4000000 4038428 4000000 := okPh3l ph3l_t6 ph3l_c6
theorem ph3l_7 : Good (RCold RPh3) 800000 38428 4200000 2000000 4115284 4000000 := okPh3l ph3l_t7 ph3l_c7
theorem ph3l_root0 : Good (RCold RPh3) 300000 38428 300000 2000000 2038428 2000000 :=
  ph3l_0
theorem ph3l_root1 : Good (RCold RPh3) 200000 38428 800000 2000000 2038428 2000000 :=
  ph3l_1
theorem ph3l_root2 : Good (RCold RPh3) 300000 38428 1300000 2000000 2038428 2000000 :=
  ph3l_2
theorem ph3l_root3 : Good (RCold RPh3) 400000 38428 2000000 2000000 2038428 2000000 :=
  ph3l_3
theorem ph3l_root4 : Good (RCold RPh3) 500000 38428 2900000 2000000 2038428 2000000 :=
  ph3l_4
theorem ph3l_root5 : Good (RCold RPh3) 800000 38428 4200000 2000000 2038428 2000000 :=
  (Good.y (Good.x ph3l_5 ph3l_6 rfl rfl rfl) ph3l_7 rfl rfl rfl)

end If97.Tm

/-! T and v from (p, h) in region 3, liquid below 22.064 MPa: the whole bands. -/

namespace If97.Tm
set_option maxRecDepth 100000

theorem ph3q_0 : Good RPh3q 200000 38428 2200000 2000000 2038428 2000000 := okPh3q ph3q_t0 ph3q_c0
theorem ph3q_1 : Good RPh3q 500000 38428 5300000 4000000 2038428 2000000 := okPh3q ph3q_t1 ph3q_c1
theorem ph3q_2 : Good RPh3q 500000 38428 6300000 4000000 4038428 4000000 := okPh3q ph3q_t2 ph3q_c2
theorem ph3q_3 : Good RPh3q 500000 38428 6300000 4000000 4115284 4000000 := okPh3q ph3q_t3 ph3q_c3
theorem ph3q_4 : Good RPh3q 800000 38428 4200000 2000000 2038428 2000000 := okPh3q ph3q_t4 ph3q_c4
theorem ph3q_root0 : Good RPh3q 200000 38428 2200000 2000000 2038428 2000000 :=
  ph3q_0
theorem ph3q_root1 : Good RPh3q 500000 38428 2900000 2000000 2038428 2000000 :=
  (Good.x ph3q_1 (Good.y ph3q_2 ph3q_3 rfl rfl rfl) rfl rfl rfl)
theorem ph3q_root2 : Good RPh3q 800000 38428 4200000 2000000 2038428 2000000 :=
  ph3q_4

end If97.Tm

/-! T and v from (p, h) in region 3, vapour below 373.946 degC: the whole bands. -/

namespace If97.Tm
set_option maxRecDepth 100000

theorem ph3v_0 : Good RPh3v 300000 38428 300000 2000000 2038428 2000000 := okPh3v ph3v_t0 ph3v_c0
theorem ph3v_1 : Good RPh3v 200000 38428 1400000 4000000 2038428 2000000 := okPh3v ph3v_t1 ph3v_c1
theorem ph3v_2 : Good RPh3v 200000 38428 1800000 4000000 2038428 2000000 := okPh3v ph3v_t2 ph3v_c2
theorem ph3v_3 : Good RPh3v 300000 38428 2300000 4000000 2038428 2000000 := okPh3v ph3v_t3 ph3v_c3
theorem ph3v_4 : Good RPh3v 300000 38428 2900000 4000000 2038428 2000000 := okPh3v ph3v_t4 ph3v_c4
theorem ph3v_5 : Good RPh3v 200000 38428 1800000 2000000 2038428 2000000 := okPh3v ph3v_t5 ph3v_c5
theorem ph3v_root0 : Good RPh3v 300000 38428 300000 2000000 2038428 2000000 :=
  ph3v_0
theorem ph3v_root1 : Good RPh3v 200000 38428 800000 2000000 2038428 2000000 :=
  (Good.x ph3v_1 ph3v_2 rfl rfl rfl)
theorem ph3v_root2 : Good RPh3v 300000 38428 1300000 2000000 2038428 2000000 :=
  (Good.x ph3v_3 ph3v_4 rfl rfl rfl)
theorem ph3v_root3 : Good RPh3v 200000 38428 1800000 2000000 2038428 2000000 :=
  ph3v_5

end If97.Tm

/-! T and v from (p, s) in region 3, above 373.946 degC: the whole bands. -/

namespace If97.Tm
set_option maxRecDepth 100000

theorem ps3_0 : Good (RHot RPs3) 300000 250309 300000 2000000 1749691 2000000 := okPs3 lcR1_ok ps3_t0 ps3_c0
theorem ps3_1 : Good (RHot RPs3) 200000 250309 800000 2000000 3249073 4000000 := okPs3 lcR1_ok ps3_t1 ps3_c1
theorem ps3_2 : Good (RHot RPs3) 200000 250309 1400000 4000000 3749691 4000000 := okPs3 lcR1_ok ps3_t2 ps3_c2
theorem ps3_3 : Good (RHot RPs3) 200000 250309 1800000 4000000 3749691 4000000 := okPs3 lcR1_ok ps3_t3 ps3_c3
theorem ps3_4 : Good (RHot RPs3) 300000 250309 1300000 2000000 3249073 4000000 := okPs3 lcR2_ok ps3_t4 ps3_c4
theorem ps3_5 : Good (RHot RPs3) 300000 250309 2300000 4000000 7249073 8000000 := okPs3 lcR2_ok ps3_t5 ps3_c5
theorem ps3_6 : Good (RHot RPs3) 300000 250309 4300000 8000000 7749691 8000000 := okPs3 lcR2_ok ps3_t6 ps3_c6
theorem ps3_7 : Good (RHot RPs3) 300000 250309 4900000 8000000 7749691 8000000 := okPs3 lcR2_ok ps3_t7 ps3_c7
theorem ps3_8 : Good (RHot RPs3) 300000 250309 2900000 4000000 7249073 8000000 := okPs3 lcR2_ok ps3_t8 ps3_c8
theorem ps3_9 : Good (RHot RPs3) 300000 250309 2900000 4000000 7749691 8000000 := okPs3 lcR2_ok ps3_t9 ps3_c9
theorem ps3_10 : Good (RHot RPs3) 400000 250309 2000000 2000000 3249073 4000000 := okPs3 lcR3_ok ps3_t10 ps3_c10
theorem ps3_11 : Good (RHot RPs3) 400000 250309 3600000 4000000 3749691 4000000 := okPs3 lcR3_ok ps3_t11 ps3_c11
theorem ps3_12 : Good (RHot RPs3) 400000 250309 4400000 4000000 7249073 8000000 := okPs3 lcR3_ok ps3_t12 ps3_c12
theorem ps3_13 : Good (RHot RPs3) 400000 250309 8400000 8000000 15249073 16000000 := okPs3 lcR3_ok ps3_t13 ps3_c13
theorem ps3_14 : Good (RHot RPs3) 400000 250309 8400000 8000000 31249073 32000000 := okPs3 lcR3_ok ps3_t14 ps3_c14
theorem ps3_15 : Good (RHot RPs3) 400000 250309 16400000 16000000 31749691 32000000 := okPs3 lcR3_ok ps3_t15 ps3_c15
theorem ps3_16 : Good (RHot RPs3) 400000 250309 17200000 16000000 31749691 32000000 := okPs3 lcR3_ok ps3_t16 ps3_c16
theorem ps3_17 : Good (RHot RPs3) 400000 250309 9200000 8000000 15249073 16000000 := okPs3 lcR3_ok ps3_t17 ps3_c17
theorem ps3_18 : Good (RHot RPs3) 400000 250309 9200000 8000000 31249073 32000000 := okPs3 lcR3_ok ps3_t18 ps3_c18
theorem ps3_19 : Good (RHot RPs3) 400000 250309 9200000 8000000 31749691 32000000 := okPs3 lcR3_ok ps3_t19 ps3_c19
theorem ps3_20 : Good (RHot RPs3) 500000 250309 10100000 8000000 6247837 8000000 := okPs3 lcR4_ok ps3_t20 ps3_c20
theorem ps3_21 : Good (RHot RPs3) 500000 250309 11100000 8000000 12245365 16000000 := okPs3 lcR4_ok ps3_t21 ps3_c21
theorem ps3_22 : Good (RHot RPs3) 500000 250309 11100000 8000000 12745983 16000000 := okPs3 lcR4_ok ps3_t22 ps3_c22
theorem ps3_23 : Good (RHot RPs3) 500000 250309 5300000 4000000 6748455 8000000 := okPs3 lcR4_ok ps3_t23 ps3_c23
theorem ps3_24 : Good (RHot RPs3) 500000 250309 6300000 4000000 6247837 8000000 := okPs3 lcR4_ok ps3_t24 ps3_c24
theorem ps3_25 : Good (RHot RPs3) 500000 250309 12100000 8000000 6748455 8000000 := okPs3 lcR4_ok ps3_t25 ps3_c25
theorem ps3_26 : Good (RHot RPs3) 500000 250309 13100000 8000000 13246601 16000000 := okPs3 lcR4_ok ps3_t26 ps3_c26
theorem ps3_27 : Good (RHot RPs3) 500000 250309 25700000 16000000 13747219 16000000 := okPs3 lcR4_ok ps3_t27 ps3_c27
theorem ps3_28 : Good (RHot RPs3) 500000 250309 26700000 16000000 13747219 16000000 := okPs3 lcR4_ok ps3_t28 ps3_c28
theorem ps3_29 : Good (RHot RPs3) 500000 250309 10100000 8000000 7249073 8000000 := okPs3 lcR4_ok ps3_t29 ps3_c29
theorem ps3_30 : Good (RHot RPs3) 500000 250309 11100000 8000000 14247837 16000000 := okPs3 lcR4_ok ps3_t30 ps3_c30
theorem ps3_31 : Good (RHot RPs3) 500000 250309 11100000 8000000 29246601 32000000 := okPs3 lcR4_ok ps3_t31 ps3_c31
theorem ps3_32 : Good (RHot RPs3) 500000 250309 11100000 8000000 29747219 32000000 := okPs3 lcR4_ok ps3_t32 ps3_c32
theorem ps3_33 : Good (RHot RPs3) 500000 250309 10100000 8000000 30247837 32000000 := okPs3 lcR4_ok ps3_t33 ps3_c33
theorem ps3_34 : Good (RHot RPs3) 500000 250309 19700000 16000000 30748455 32000000 := okPs3 lcR4_ok ps3_t34 ps3_c34
theorem ps3_35 : Good (RHot RPs3) 500000 250309 20700000 16000000 30748455 32000000 := okPs3 lcR4_ok ps3_t35 ps3_c35
theorem ps3_36 : Good (RHot RPs3) 500000 250309 10100000 8000000 15749691 16000000 := okPs3 lcR4_ok ps3_t36 ps3_c36
theorem ps3_37 : Good (RHot RPs3) 500000 250309 11100000 8000000 15249073 16000000 := okPs3 lcR4_ok ps3_t37 ps3_c37
theorem ps3_38 : Good (RHot RPs3) 500000 250309 11100000 8000000 15749691 16000000 := okPs3 lcR4_ok ps3_t38 ps3_c38
theorem ps3_39 : Good (RHot RPs3) 500000 250309 12100000 8000000 28245365 32000000 := okPs3 lcR4_ok ps3_t39 ps3_c39
theorem ps3_40 : Good (RHot RPs3) 500000 250309 12100000 8000000 28745983 32000000 := okPs3 lcR4_ok ps3_t40 ps3_c40
theorem ps3_41 : Good (RHot RPs3) 500000 250309 12100000 8000000 14748455 16000000 := okPs3 lcR4_ok ps3_t41 ps3_c41
theorem ps3_42 : Good (RHot RPs3) 500000 250309 13100000 8000000 7249073 8000000 := okPs3 lcR4_ok ps3_t42 ps3_c42
theorem ps3_43 : Good (RHot RPs3) 500000 250309 12100000 8000000 15249073 16000000 := okPs3 lcR4_ok ps3_t43 ps3_c43
theorem ps3_44 : Good (RHot RPs3) 500000 250309 12100000 8000000 15749691 16000000 := okPs3 lcR4_ok ps3_t44 ps3_c44
theorem ps3_45 : Good (RHot RPs3) 500000 250309 13100000 8000000 7749691 8000000 := okPs3 lcR4_ok ps3_t45 ps3_c45
theorem ps3_46 : Good (RHot RPs3) 800000 250309 4200000 2000000 3249073 4000000 := okPs3 lcR5_ok ps3_t46 ps3_c46
theorem ps3_47 : Good (RHot RPs3) 800000 250309 14400000 8000000 7249073 8000000 := okPs3 lcR5_ok ps3_t47 ps3_c47
theorem ps3_48 : Good (RHot RPs3) 800000 250309 31200000 16000000 28245365 32000000 := okPs3 lcR5_ok ps3_t48 ps3_c48
theorem ps3_49 : Good (RHot RPs3) 800000 250309 61600000 32000000 57241657 64000000 := okPs3 lcR5_ok ps3_t49 ps3_c49
theorem ps3_50 : Good (RHot RPs3) 800000 250309 61600000 32000000 57742275 64000000 := okPs3 lcR5_ok ps3_t50 ps3_c50
theorem ps3_51 : Good (RHot RPs3) 800000 250309 63200000 32000000 28745983 32000000 := okPs3 lcR5_ok ps3_t51 ps3_c51
theorem ps3_52 : Good (RHot RPs3) 800000 250309 32800000 16000000 14247837 16000000 := okPs3 lcR5_ok ps3_t52 ps3_c52
theorem ps3_53 : Good (RHot RPs3) 800000 250309 61600000 32000000 29246601 32000000 := okPs3 lcR5_ok ps3_t53 ps3_c53
theorem ps3_54 : Good (RHot RPs3) 800000 250309 250400000 128000000 116235477 128000000 := okPs3 lcR5_ok ps3_t54 ps3_c54
theorem ps3_55 : Good (RHot RPs3) 800000 250309 252000000 128000000 116235477 128000000 := okPs3 lcR5_ok ps3_t55 ps3_c55
theorem ps3_56 : Good (RHot RPs3) 800000 250309 125600000 64000000 116736095 128000000 := okPs3 lcR5_ok ps3_t56 ps3_c56
theorem ps3_57 : Good (RHot RPs3) 800000 250309 127200000 64000000 58242893 64000000 := okPs3 lcR5_ok ps3_t57 ps3_c57
theorem ps3_58 : Good (RHot RPs3) 800000 250309 63200000 32000000 58743511 64000000 := okPs3 lcR5_ok ps3_t58 ps3_c58
theorem ps3_59 : Good (RHot RPs3) 800000 250309 31200000 16000000 29747219 32000000 := okPs3 lcR5_ok ps3_t59 ps3_c59
theorem ps3_60 : Good (RHot RPs3) 800000 250309 32800000 16000000 14748455 16000000 := okPs3 lcR5_ok ps3_t60 ps3_c60
theorem ps3_61 : Good (RHot RPs3) 800000 250309 14400000 8000000 7749691 8000000 := okPs3 lcR5_ok ps3_t61 ps3_c61
theorem ps3_62 : Good (RHot RPs3) 800000 250309 16000000 8000000 7749691 8000000 := okPs3 lcR5_ok ps3_t62 ps3_c62
theorem ps3_63 : Good (RHot RPs3) 800000 250309 9200000 4000000 7249073 8000000 := okPs3 lcR5_ok ps3_t63 ps3_c63
theorem ps3_64 : Good (RHot RPs3) 800000 250309 34400000 16000000 15249073 16000000 := okPs3 lcR5_ok ps3_t64 ps3_c64
theorem ps3_65 : Good (RHot RPs3) 800000 250309 34400000 16000000 15749691 16000000 := okPs3 lcR5_ok ps3_t65 ps3_c65
theorem ps3_66 : Good (RHot RPs3) 800000 250309 36000000 16000000 7749691 8000000 := okPs3 lcR5_ok ps3_t66 ps3_c66
theorem ps3_67 : Good (RHot RPs3) 800000 250309 19200000 8000000 7749691 8000000 := okPs3 lcR5_ok ps3_t67 ps3_c67
theorem ps3_root0 : Good (RHot RPs3) 300000 250309 300000 2000000 1749691 2000000 :=
  ps3_0
theorem ps3_root1 : Good (RHot RPs3) 200000 250309 800000 2000000 1749691 2000000 :=
  (Good.y ps3_1 (Good.x ps3_2 ps3_3 rfl rfl rfl) rfl rfl rfl)
theorem ps3_root2 : Good (RHot RPs3) 300000 250309 1300000 2000000 1749691 2000000 :=
  (Good.y ps3_4 (Good.x (Good.y ps3_5 (Good.x ps3_6 ps3_7 rfl rfl rfl) rfl rfl rfl) (Good.y ps3_8 ps3_9 rfl rfl rfl) rfl rfl rfl) rfl rfl rfl)
theorem ps3_root3 : Good (RHot RPs3) 400000 250309 2000000 2000000 1749691 2000000 :=
  (Good.y ps3_10 (Good.x ps3_11 (Good.y ps3_12 (Good.x (Good.y ps3_13 (Good.y ps3_14 (Good.x ps3_15 ps3_16 rfl rfl rfl) rfl rfl rfl) rfl rfl rfl) (Good.y ps3_17 (Good.y ps3_18 ps3_19 rfl rfl rfl) rfl rfl rfl) rfl rfl rfl) rfl rfl rfl) rfl rfl rfl) rfl rfl rfl)
theorem ps3_root4 : Good (RHot RPs3) 500000 250309 2900000 2000000 1749691 2000000 :=
  (Good.y (Good.x (Good.y (Good.x ps3_20 (Good.y ps3_21 ps3_22 rfl rfl rfl) rfl rfl rfl) ps3_23 rfl rfl rfl) (Good.y ps3_24 (Good.x ps3_25 (Good.y ps3_26 (Good.x ps3_27 ps3_28 rfl rfl rfl) rfl rfl rfl) rfl rfl rfl) rfl rfl rfl) rfl rfl rfl) (Good.x (Good.y (Good.x ps3_29 (Good.y ps3_30 (Good.y ps3_31 ps3_32 rfl rfl rfl) rfl rfl rfl) rfl rfl rfl) (Good.x (Good.y (Good.y ps3_33 (Good.x ps3_34 ps3_35 rfl rfl rfl) rfl rfl rfl) ps3_36 rfl rfl rfl) (Good.y ps3_37 ps3_38 rfl rfl rfl) rfl rfl rfl) rfl rfl rfl) (Good.y (Good.x (Good.y (Good.y ps3_39 ps3_40 rfl rfl rfl) ps3_41 rfl rfl rfl) ps3_42 rfl rfl rfl) (Good.x (Good.y ps3_43 ps3_44 rfl rfl rfl) ps3_45 rfl rfl rfl) rfl rfl rfl) rfl rfl rfl) rfl rfl rfl)
theorem ps3_root5 : Good (RHot RPs3) 800000 250309 4200000 2000000 1749691 2000000 :=
  (Good.y ps3_46 (Good.x (Good.y (Good.x ps3_47 (Good.y (Good.x (Good.y ps3_48 (Good.x (Good.y ps3_49 ps3_50 rfl rfl rfl) ps3_51 rfl rfl rfl) rfl rfl rfl) ps3_52 rfl rfl rfl) (Good.x (Good.y (Good.x ps3_53 (Good.y (Good.x (Good.y (Good.x ps3_54 ps3_55 rfl rfl rfl) ps3_56 rfl rfl rfl) ps3_57 rfl rfl rfl) ps3_58 rfl rfl rfl) rfl rfl rfl) ps3_59 rfl rfl rfl) ps3_60 rfl rfl rfl) rfl rfl rfl) rfl rfl rfl) (Good.x ps3_61 ps3_62 rfl rfl rfl) rfl rfl rfl) (Good.y ps3_63 (Good.x (Good.x (Good.y ps3_64 ps3_65 rfl rfl rfl) ps3_66 rfl rfl rfl) ps3_67 rfl rfl rfl) rfl rfl rfl) rfl rfl rfl) rfl rfl rfl)

end If97.Tm

/-! T and v from (p, s) in region 3, 350 to 373.946 degC: the whole bands. -/

namespace If97.Tm
set_option maxRecDepth 100000

theorem ps3l_0 : Good (RCold RPs3) 300000 38428 300000 2000000 2038428 2000000 := okPs3l lcR1_ok ps3l_t0 ps3l_c0
theorem ps3l_1 : Good (RCold RPs3) 200000 38428 800000 2000000 2038428 2000000 := okPs3l lcR1_ok ps3l_t1 ps3l_c1
theorem ps3l_2 : Good (RCold RPs3) 300000 38428 1300000 2000000 2038428 2000000 := okPs3l lcR2_ok ps3l_t2 ps3l_c2
theorem ps3l_3 : Good (RCold RPs3) 400000 38428 2000000 2000000 2038428 2000000 := okPs3l lcR3_ok ps3l_t3 ps3l_c3
theorem ps3l_4 : Good (RCold RPs3) 500000 38428 5300000 4000000 4038428 4000000 := okPs3l lcR4_ok ps3l_t4 ps3l_c4
theorem ps3l_5 : Good (RCold RPs3) 500000 38428 6300000 4000000 4038428 4000000 := okPs3l lcR4_ok ps3l_t5 ps3l_c5
theorem ps3l_6 : Good (RCold RPs3) 500000 38428 2900000 2000000 4115284 4000000 := okPs3l lcR4_ok ps3l_t6 ps3l_c6
theorem ps3l_7 : Good (RCold RPs3) 800000 38428 7600000 4000000 4038428 4000000 := okPs3l lcR5_ok ps3l_t7 ps3l_c7
theorem ps3l_8 : Good (RCold RPs3) 800000 38428 34400000 16000000 8038428 8000000 := okPs3l lcR5_ok ps3l_t8 ps3l_c8
theorem ps3l_9 : Good (RCold RPs3) 800000 38428 71200000 32000000 8038428 8000000 := okPs3l lcR5_ok ps3l_t9 ps3l_c9
theorem ps3l_10 : Good (RCold RPs3) 800000 38428 144800000 64000000 8038428 8000000 := okPs3l lcR5_ok ps3l_t10 ps3l_c10
theorem ps3l_11 : Good (RCold RPs3) 800000 38428 146400000 64000000 16038428 16000000 := okPs3l lcR5_ok ps3l_t11 ps3l_c11
theorem ps3l_12 : Good (RCold RPs3) 800000 38428 292000000 128000000 16115284 16000000 := okPs3l lcR5_ok ps3l_t12 ps3l_c12
theorem ps3l_13 : Good (RCold RPs3) 800000 38428 293600000 128000000 32192140 32000000 := okPs3l lcR5_ok ps3l_t13 ps3l_c13
theorem ps3l_14 : Good (RCold RPs3) 800000 38428 1172000000 512000000 32268996 32000000 := okPs3l lcR5_ok ps3l_t14 ps3l_c14
theorem ps3l_15 : Good (RCold RPs3) 800000 38428 1173600000 512000000 32268996 32000000 := okPs3l lcR5_ok ps3l_t15 ps3l_c15
theorem ps3l_16 : Good (RCold RPs3) 800000 38428 588000000 256000000 32268996 32000000 := okPs3l lcR5_ok ps3l_t16 ps3l_c16
theorem ps3l_17 : Good (RCold RPs3) 800000 38428 19200000 8000000 8038428 8000000 := okPs3l lcR5_ok ps3l_t17 ps3l_c17
theorem ps3l_18 : Good (RCold RPs3) 800000 38428 34400000 16000000 8115284 8000000 := okPs3l lcR5_ok ps3l_t18 ps3l_c18
theorem ps3l_19 : Good (RCold RPs3) 800000 38428 71200000 32000000 8115284 8000000 := okPs3l lcR5_ok ps3l_t19 ps3l_c19
theorem ps3l_20 : Good (RCold RPs3) 800000 38428 144800000 64000000 8115284 8000000 := okPs3l lcR5_ok ps3l_t20 ps3l_c20
theorem ps3l_21 : Good (RCold RPs3) 800000 38428 292000000 128000000 8115284 8000000 := okPs3l lcR5_ok ps3l_t21 ps3l_c21
theorem ps3l_22 : Good (RCold RPs3) 800000 38428 586400000 256000000 16192140 16000000 := okPs3l lcR5_ok ps3l_t22 ps3l_c22
theorem ps3l_23 : Good (RCold RPs3) 800000 38428 588000000 256000000 64653276 64000000 := okPs3l lcR5_ok ps3l_t23 ps3l_c23
theorem ps3l_24 : Good (RCold RPs3) 800000 38428 588000000 256000000 64730132 64000000 := okPs3l lcR5_ok ps3l_t24 ps3l_c24
theorem ps3l_25 : Good (RCold RPs3) 800000 38428 588000000 256000000 32422708 32000000 := okPs3l lcR5_ok ps3l_t25 ps3l_c25
theorem ps3l_26 : Good (RCold RPs3) 800000 38428 293600000 128000000 16268996 16000000 := okPs3l lcR5_ok ps3l_t26 ps3l_c26
theorem ps3l_27 : Good (RCold RPs3) 800000 38428 295200000 128000000 32345852 32000000 := okPs3l lcR5_ok ps3l_t27 ps3l_c27
theorem ps3l_28 : Good (RCold RPs3) 800000 38428 589600000 256000000 64806988 64000000 := okPs3l lcR5_ok ps3l_t28 ps3l_c28
theorem ps3l_29 : Good (RCold RPs3) 800000 38428 589600000 256000000 64883844 64000000 := okPs3l lcR5_ok ps3l_t29 ps3l_c29
theorem ps3l_30 : Good (RCold RPs3) 800000 38428 591200000 256000000 32422708 32000000 := okPs3l lcR5_ok ps3l_t30 ps3l_c30
theorem ps3l_31 : Good (RCold RPs3) 800000 38428 296800000 128000000 16192140 16000000 := okPs3l lcR5_ok ps3l_t31 ps3l_c31
theorem ps3l_32 : Good (RCold RPs3) 800000 38428 148000000 64000000 16268996 16000000 := okPs3l lcR5_ok ps3l_t32 ps3l_c32
theorem ps3l_33 : Good (RCold RPs3) 800000 38428 149600000 64000000 8115284 8000000 := okPs3l lcR5_ok ps3l_t33 ps3l_c33
theorem ps3l_34 : Good (RCold RPs3) 800000 38428 76000000 32000000 8115284 8000000 := okPs3l lcR5_ok ps3l_t34 ps3l_c34
theorem ps3l_35 : Good (RCold RPs3) 800000 38428 39200000 16000000 8115284 8000000 := okPs3l lcR5_ok ps3l_t35 ps3l_c35
theorem ps3l_36 : Good (RCold RPs3) 800000 38428 7600000 4000000 4115284 4000000 := okPs3l lcR5_ok ps3l_t36 ps3l_c36
theorem ps3l_37 : Good (RCold RPs3) 800000 38428 9200000 4000000 4115284 4000000 := okPs3l lcR5_ok ps3l_t37 ps3l_c37
theorem ps3l_n0 : Good (RCold RPs3) 500000 38428 2900000 2000000 4038428 4000000 := Good.x ps3l_4 ps3l_5 rfl rfl rfl
theorem ps3l_n1 : Good (RCold RPs3) 500000 38428 2900000 2000000 2038428 2000000 := Good.y ps3l_n0 ps3l_6 rfl rfl rfl
theorem ps3l_n2 : Good (RCold RPs3) 800000 38428 586400000 256000000 32268996 32000000 := Good.x ps3l_14 ps3l_15 rfl rfl rfl
theorem ps3l_n3 : Good (RCold RPs3) 800000 38428 293600000 128000000 32268996 32000000 := Good.x ps3l_n2 ps3l_16 rfl rfl rfl
theorem ps3l_n4 : Good (RCold RPs3) 800000 38428 293600000 128000000 16115284 16000000 := Good.y ps3l_13 ps3l_n3 rfl rfl rfl
theorem ps3l_n5 : Good (RCold RPs3) 800000 38428 146400000 64000000 16115284 16000000 := Good.x ps3l_12 ps3l_n4 rfl rfl rfl
theorem ps3l_n6 : Good (RCold RPs3) 800000 38428 146400000 64000000 8038428 8000000 := Good.y ps3l_11 ps3l_n5 rfl rfl rfl
theorem ps3l_n7 : Good (RCold RPs3) 800000 38428 72800000 32000000 8038428 8000000 := Good.x ps3l_10 ps3l_n6 rfl rfl rfl
theorem ps3l_n8 : Good (RCold RPs3) 800000 38428 36000000 16000000 8038428 8000000 := Good.x ps3l_9 ps3l_n7 rfl rfl rfl
theorem ps3l_n9 : Good (RCold RPs3) 800000 38428 17600000 8000000 8038428 8000000 := Good.x ps3l_8 ps3l_n8 rfl rfl rfl
theorem ps3l_n10 : Good (RCold RPs3) 800000 38428 9200000 4000000 8038428 8000000 := Good.x ps3l_n9 ps3l_17 rfl rfl rfl
theorem ps3l_n11 : Good (RCold RPs3) 800000 38428 588000000 256000000 32345852 32000000 := Good.y ps3l_23 ps3l_24 rfl rfl rfl
theorem ps3l_n12 : Good (RCold RPs3) 800000 38428 588000000 256000000 16192140 16000000 := Good.y ps3l_n11 ps3l_25 rfl rfl rfl
theorem ps3l_n13 : Good (RCold RPs3) 800000 38428 293600000 128000000 16192140 16000000 := Good.x ps3l_22 ps3l_n12 rfl rfl rfl
theorem ps3l_n14 : Good (RCold RPs3) 800000 38428 293600000 128000000 8115284 8000000 := Good.y ps3l_n13 ps3l_26 rfl rfl rfl
theorem ps3l_n15 : Good (RCold RPs3) 800000 38428 146400000 64000000 8115284 8000000 := Good.x ps3l_21 ps3l_n14 rfl rfl rfl
theorem ps3l_n16 : Good (RCold RPs3) 800000 38428 72800000 32000000 8115284 8000000 := Good.x ps3l_20 ps3l_n15 rfl rfl rfl
theorem ps3l_n17 : Good (RCold RPs3) 800000 38428 36000000 16000000 8115284 8000000 := Good.x ps3l_19 ps3l_n16 rfl rfl rfl
theorem ps3l_n18 : Good (RCold RPs3) 800000 38428 17600000 8000000 8115284 8000000 := Good.x ps3l_18 ps3l_n17 rfl rfl rfl
theorem ps3l_n19 : Good (RCold RPs3) 800000 38428 589600000 256000000 32422708 32000000 := Good.y ps3l_28 ps3l_29 rfl rfl rfl
theorem ps3l_n20 : Good (RCold RPs3) 800000 38428 295200000 128000000 32422708 32000000 := Good.x ps3l_n19 ps3l_30 rfl rfl rfl
theorem ps3l_n21 : Good (RCold RPs3) 800000 38428 295200000 128000000 16192140 16000000 := Good.y ps3l_27 ps3l_n20 rfl rfl rfl
theorem ps3l_n22 : Good (RCold RPs3) 800000 38428 148000000 64000000 16192140 16000000 := Good.x ps3l_n21 ps3l_31 rfl rfl rfl
theorem ps3l_n23 : Good (RCold RPs3) 800000 38428 148000000 64000000 8115284 8000000 := Good.y ps3l_n22 ps3l_32 rfl rfl rfl
theorem ps3l_n24 : Good (RCold RPs3) 800000 38428 74400000 32000000 8115284 8000000 := Good.x ps3l_n23 ps3l_33 rfl rfl rfl
theorem ps3l_n25 : Good (RCold RPs3) 800000 38428 37600000 16000000 8115284 8000000 := Good.x ps3l_n24 ps3l_34 rfl rfl rfl
theorem ps3l_n26 : Good (RCold RPs3) 800000 38428 19200000 8000000 8115284 8000000 := Good.x ps3l_n25 ps3l_35 rfl rfl rfl
theorem ps3l_n27 : Good (RCold RPs3) 800000 38428 9200000 4000000 8115284 8000000 := Good.x ps3l_n18 ps3l_n26 rfl rfl rfl
theorem ps3l_n28 : Good (RCold RPs3) 800000 38428 9200000 4000000 4038428 4000000 := Good.y ps3l_n10 ps3l_n27 rfl rfl rfl
theorem ps3l_n29 : Good (RCold RPs3) 800000 38428 4200000 2000000 4038428 4000000 := Good.x ps3l_7 ps3l_n28 rfl rfl rfl
theorem ps3l_n30 : Good (RCold RPs3) 800000 38428 4200000 2000000 4115284 4000000 := Good.x ps3l_36 ps3l_37 rfl rfl rfl
theorem ps3l_n31 : Good (RCold RPs3) 800000 38428 4200000 2000000 2038428 2000000 := Good.y ps3l_n29 ps3l_n30 rfl rfl rfl
theorem ps3l_root0 : Good (RCold RPs3) 300000 38428 300000 2000000 2038428 2000000 :=
  ps3l_0
theorem ps3l_root1 : Good (RCold RPs3) 200000 38428 800000 2000000 2038428 2000000 :=
  ps3l_1
theorem ps3l_root2 : Good (RCold RPs3) 300000 38428 1300000 2000000 2038428 2000000 :=
  ps3l_2
theorem ps3l_root3 : Good (RCold RPs3) 400000 38428 2000000 2000000 2038428 2000000 :=
  ps3l_3
theorem ps3l_root4 : Good (RCold RPs3) 500000 38428 2900000 2000000 2038428 2000000 :=
  ps3l_n1
theorem ps3l_root5 : Good (RCold RPs3) 800000 38428 4200000 2000000 2038428 2000000 :=
  ps3l_n31

end If97.Tm

/-! T and v from (p, s) in region 3, liquid below 22.064 MPa: the whole bands. -/

namespace If97.Tm
set_option maxRecDepth 100000

theorem ps3q_0 : Good RPs3q 200000 38428 2200000 2000000 2038428 2000000 := okPs3q lcR3_ok ps3q_t0 ps3q_c0
theorem ps3q_1 : Good RPs3q 500000 38428 5300000 4000000 2038428 2000000 := okPs3q lcR4_ok ps3q_t1 ps3q_c1
theorem ps3q_2 : Good RPs3q 500000 38428 6300000 4000000 4038428 4000000 := okPs3q lcR4_ok ps3q_t2 ps3q_c2
theorem ps3q_3 : Good RPs3q 500000 38428 6300000 4000000 4115284 4000000 := okPs3q lcR4_ok ps3q_t3 ps3q_c3
theorem ps3q_4 : Good RPs3q 800000 38428 7600000 4000000 4038428 4000000 := okPs3q lcR5_ok ps3q_t4 ps3q_c4
theorem ps3q_5 : Good RPs3q 800000 38428 7600000 4000000 4115284 4000000 := okPs3q lcR5_ok ps3q_t5 ps3q_c5
theorem ps3q_6 : Good RPs3q 800000 38428 9200000 4000000 2038428 2000000 := okPs3q lcR5_ok ps3q_t6 ps3q_c6
theorem ps3q_n0 : Good RPs3q 500000 38428 6300000 4000000 2038428 2000000 := Good.y ps3q_2 ps3q_3 rfl rfl rfl
theorem ps3q_n1 : Good RPs3q 500000 38428 2900000 2000000 2038428 2000000 := Good.x ps3q_1 ps3q_n0 rfl rfl rfl
theorem ps3q_n2 : Good RPs3q 800000 38428 7600000 4000000 2038428 2000000 := Good.y ps3q_4 ps3q_5 rfl rfl rfl
theorem ps3q_n3 : Good RPs3q 800000 38428 4200000 2000000 2038428 2000000 := Good.x ps3q_n2 ps3q_6 rfl rfl rfl
theorem ps3q_root0 : Good RPs3q 200000 38428 2200000 2000000 2038428 2000000 :=
  ps3q_0
theorem ps3q_root1 : Good RPs3q 500000 38428 2900000 2000000 2038428 2000000 :=
  ps3q_n1
theorem ps3q_root2 : Good RPs3q 800000 38428 4200000 2000000 2038428 2000000 :=
  ps3q_n3

end If97.Tm

/-! T and v from (p, s) in region 3, vapour below 373.946 degC: the whole bands. -/

namespace If97.Tm
set_option maxRecDepth 100000

theorem ps3v_0 : Good RPs3v 300000 38428 300000 2000000 2038428 2000000 := okPs3v lcR1_ok ps3v_t0 ps3v_c0
theorem ps3v_1 : Good RPs3v 200000 38428 800000 2000000 2038428 2000000 := okPs3v lcR1_ok ps3v_t1 ps3v_c1
theorem ps3v_2 : Good RPs3v 300000 38428 1300000 2000000 2038428 2000000 := okPs3v lcR2_ok ps3v_t2 ps3v_c2
theorem ps3v_3 : Good RPs3v 200000 38428 1800000 2000000 2038428 2000000 := okPs3v lcR3_ok ps3v_t3 ps3v_c3
theorem ps3v_root0 : Good RPs3v 300000 38428 300000 2000000 2038428 2000000 :=
  ps3v_0
theorem ps3v_root1 : Good RPs3v 200000 38428 800000 2000000 2038428 2000000 :=
  ps3v_1
theorem ps3v_root2 : Good RPs3v 300000 38428 1300000 2000000 2038428 2000000 :=
  ps3v_2
theorem ps3v_root3 : Good RPs3v 200000 38428 1800000 2000000 2038428 2000000 :=
  ps3v_3

end If97.Tm
