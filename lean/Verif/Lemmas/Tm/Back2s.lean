import Verif.Lemmas.Tm.Ps2a_0
import Verif.Lemmas.Tm.Ps2a_1
import Verif.Lemmas.Tm.Ps2a_2
import Verif.Lemmas.Tm.Ps2a_3
import Verif.Lemmas.Tm.Ps2a_4
import Verif.Lemmas.Tm.Ps2a_5
import Verif.Lemmas.Tm.Ps2a_6
import Verif.Lemmas.Tm.Ps2a_7
import Verif.Lemmas.Tm.Ps2a_8
import Verif.Lemmas.Tm.Ps2a_9
import Verif.Lemmas.Tm.Ps2a_10
import Verif.Lemmas.Tm.Ps2a_11
import Verif.Lemmas.Tm.Ps2a_12
import Verif.Lemmas.Tm.Ps2a_13
import Verif.Lemmas.Tm.Ps2a_14
import Verif.Lemmas.Tm.Ps2a_15
import Verif.Lemmas.Tm.Fans2s
import Verif.Lemmas.Tm.Scales
import Verif.Lemmas.Tm.Ps2b_0
import Verif.Lemmas.Tm.Ps2b_1
import Verif.Lemmas.Tm.Ps2b_2
import Verif.Lemmas.Tm.Ps2b_3
import Verif.Lemmas.Tm.Ps2b_4
import Verif.Lemmas.Tm.Ps2b_5
import Verif.Lemmas.Tm.Ps2c_0
import Verif.Lemmas.Tm.Ps2c_1
import Verif.Lemmas.Tm.Ps2c_2
import Verif.Lemmas.Tm.Ps2c_3
import Verif.Lemmas.Tm.Ps2c_4
import Verif.Lemmas.Tm.Ps2c_5
import Verif.Lemmas.Tm.Ps2c_6
import Verif.Lemmas.Tm.Ps2c_7
import Verif.Lemmas.Tm.Ps2c_8
import Verif.Lemmas.Tm.Ps2c_9
import Verif.Lemmas.Tm.Ps2c_10
import Verif.Lemmas.Tm.Ps2c_11
import Verif.Lemmas.Tm.Ps2c_12
import Verif.Lemmas.Tm.Ps2c_13
import Verif.Lemmas.Tm.Cover2

/-! T(p, s) in region 2a: the whole fans. -/

namespace If97.Tm
set_option maxRecDepth 100000

theorem ps2a_0 : Good (Rf RPs2a q0 q1) 92800 1 407200 2000000 1 4 := okPs2a sk0_ok q0 q1 lcA0_ok ps2a_t0 ps2a_c0
theorem ps2a_1 : Good (Rf RPs2a q0 q1) 92800 1 721600 4000000 5 8 := okPs2a sk0_ok q0 q1 lcA0_ok ps2a_t1 ps2a_c1
theorem ps2a_2 : Good (Rf RPs2a q0 q1) 92800 1 721600 4000000 13 16 := okPs2a sk0_ok q0 q1 lcA0_ok ps2a_t2 ps2a_c2
theorem ps2a_3 : Good (Rf RPs2a q0 q1) 92800 1 721600 4000000 15 16 := okPs2a sk0_ok q0 q1 lcA0_ok ps2a_t3 ps2a_c3
theorem ps2a_4 : Good (Rf RPs2a q0 q1) 92800 1 907200 4000000 5 8 := okPs2a sk0_ok q0 q1 lcA0_ok ps2a_t4 ps2a_c4
theorem ps2a_5 : Good (Rf RPs2a q0 q1) 92800 1 907200 4000000 13 16 := okPs2a sk0_ok q0 q1 lcA0_ok ps2a_t5 ps2a_c5
theorem ps2a_6 : Good (Rf RPs2a q0 q1) 92800 1 907200 4000000 15 16 := okPs2a sk0_ok q0 q1 lcA0_ok ps2a_t6 ps2a_c6
theorem ps2a_7 : Good (Rf RPs2a q0 q2) 150000 1 650000 2000000 1 4 := okPs2a sk1_ok q0 q2 lcA1_ok ps2a_t7 ps2a_c7
theorem ps2a_8 : Good (Rf RPs2a q0 q2) 150000 1 1150000 4000000 5 8 := okPs2a sk1_ok q0 q2 lcA1_ok ps2a_t8 ps2a_c8
theorem ps2a_9 : Good (Rf RPs2a q0 q2) 150000 1 1150000 4000000 13 16 := okPs2a sk1_ok q0 q2 lcA1_ok ps2a_t9 ps2a_c9
theorem ps2a_10 : Good (Rf RPs2a q0 q2) 150000 1 1150000 4000000 29 32 := okPs2a sk1_ok q0 q2 lcA1_ok ps2a_t10 ps2a_c10
theorem ps2a_11 : Good (Rf RPs2a q0 q2) 150000 1 1150000 4000000 61 64 := okPs2a sk1_ok q0 q2 lcA1_ok ps2a_t11 ps2a_c11
theorem ps2a_12 : Good (Rf RPs2a q0 q2) 150000 1 1150000 4000000 249 256 := okPs2a sk1_ok q0 q2 lcA1_ok ps2a_t12 ps2a_c12
theorem ps2a_13 : Good (Rf RPs2a q0 q2) 150000 1 1150000 4000000 501 512 := okPs2a sk1_ok q0 q2 lcA1_ok ps2a_t13 ps2a_c13
theorem ps2a_14 : Good (Rf RPs2a q0 q2) 150000 1 1150000 4000000 503 512 := okPs2a sk1_ok q0 q2 lcA1_ok ps2a_t14 ps2a_c14
theorem ps2a_15 : Good (Rf RPs2a q0 q2) 150000 1 1150000 4000000 1009 1024 := okPs2a sk1_ok q0 q2 lcA1_ok ps2a_t15 ps2a_c15
theorem ps2a_16 : Good (Rf RPs2a q0 q2) 150000 1 1150000 4000000 1011 1024 := okPs2a sk1_ok q0 q2 lcA1_ok ps2a_t16 ps2a_c16
theorem ps2a_17 : Good (Rf RPs2a q0 q2) 150000 1 1150000 4000000 507 512 := okPs2a sk1_ok q0 q2 lcA1_ok ps2a_t17 ps2a_c17
theorem ps2a_18 : Good (Rf RPs2a q0 q2) 150000 1 1150000 4000000 509 512 := okPs2a sk1_ok q0 q2 lcA1_ok ps2a_t18 ps2a_c18
theorem ps2a_19 : Good (Rf RPs2a q0 q2) 150000 1 1150000 4000000 511 512 := okPs2a sk1_ok q0 q2 lcA1_ok ps2a_t19 ps2a_c19
theorem ps2a_20 : Good (Rf RPs2a q0 q2) 150000 1 1450000 4000000 5 8 := okPs2a sk1_ok q0 q2 lcA1_ok ps2a_t20 ps2a_c20
theorem ps2a_21 : Good (Rf RPs2a q0 q2) 150000 1 1450000 4000000 13 16 := okPs2a sk1_ok q0 q2 lcA1_ok ps2a_t21 ps2a_c21
theorem ps2a_22 : Good (Rf RPs2a q0 q2) 150000 1 1450000 4000000 29 32 := okPs2a sk1_ok q0 q2 lcA1_ok ps2a_t22 ps2a_c22
theorem ps2a_23 : Good (Rf RPs2a q0 q2) 150000 1 1450000 4000000 61 64 := okPs2a sk1_ok q0 q2 lcA1_ok ps2a_t23 ps2a_c23
theorem ps2a_24 : Good (Rf RPs2a q0 q2) 150000 1 1450000 4000000 125 128 := okPs2a sk1_ok q0 q2 lcA1_ok ps2a_t24 ps2a_c24
theorem ps2a_25 : Good (Rf RPs2a q0 q2) 150000 1 1450000 4000000 253 256 := okPs2a sk1_ok q0 q2 lcA1_ok ps2a_t25 ps2a_c25
theorem ps2a_26 : Good (Rf RPs2a q0 q2) 150000 1 1450000 4000000 509 512 := okPs2a sk1_ok q0 q2 lcA1_ok ps2a_t26 ps2a_c26
theorem ps2a_27 : Good (Rf RPs2a q0 q2) 150000 1 1450000 4000000 511 512 := okPs2a sk1_ok q0 q2 lcA1_ok ps2a_t27 ps2a_c27
theorem ps2a_28 : Good (Rf RPs2a q0 q3) 200000 1 1000000 2000000 1 4 := okPs2a sk2_ok q0 q3 lcA2_ok ps2a_t28 ps2a_c28
theorem ps2a_29 : Good (Rf RPs2a q0 q3) 200000 1 1800000 4000000 5 8 := okPs2a sk2_ok q0 q3 lcA2_ok ps2a_t29 ps2a_c29
theorem ps2a_30 : Good (Rf RPs2a q0 q3) 200000 1 1800000 4000000 13 16 := okPs2a sk2_ok q0 q3 lcA2_ok ps2a_t30 ps2a_c30
theorem ps2a_31 : Good (Rf RPs2a q0 q3) 200000 1 1800000 4000000 29 32 := okPs2a sk2_ok q0 q3 lcA2_ok ps2a_t31 ps2a_c31
theorem ps2a_32 : Good (Rf RPs2a q0 q3) 200000 1 1800000 4000000 61 64 := okPs2a sk2_ok q0 q3 lcA2_ok ps2a_t32 ps2a_c32
theorem ps2a_33 : Good (Rf RPs2a q0 q3) 200000 1 1800000 4000000 125 128 := okPs2a sk2_ok q0 q3 lcA2_ok ps2a_t33 ps2a_c33
theorem ps2a_34 : Good (Rf RPs2a q0 q3) 200000 1 1800000 4000000 127 128 := okPs2a sk2_ok q0 q3 lcA2_ok ps2a_t34 ps2a_c34
theorem ps2a_35 : Good (Rf RPs2a q0 q3) 200000 1 2200000 4000000 5 8 := okPs2a sk2_ok q0 q3 lcA2_ok ps2a_t35 ps2a_c35
theorem ps2a_36 : Good (Rf RPs2a q0 q3) 200000 1 2200000 4000000 13 16 := okPs2a sk2_ok q0 q3 lcA2_ok ps2a_t36 ps2a_c36
theorem ps2a_37 : Good (Rf RPs2a q0 q3) 200000 1 2200000 4000000 29 32 := okPs2a sk2_ok q0 q3 lcA2_ok ps2a_t37 ps2a_c37
theorem ps2a_38 : Good (Rf RPs2a q0 q3) 200000 1 2200000 4000000 61 64 := okPs2a sk2_ok q0 q3 lcA2_ok ps2a_t38 ps2a_c38
theorem ps2a_39 : Good (Rf RPs2a q0 q3) 200000 1 2200000 4000000 125 128 := okPs2a sk2_ok q0 q3 lcA2_ok ps2a_t39 ps2a_c39
theorem ps2a_40 : Good (Rf RPs2a q0 q3) 200000 1 2200000 4000000 127 128 := okPs2a sk2_ok q0 q3 lcA2_ok ps2a_t40 ps2a_c40
theorem ps2a_41 : Good (Rf RPs2a q0 q4) 250000 1 1450000 2000000 1 4 := okPs2a sk3_ok q0 q4 lcA3_ok ps2a_t41 ps2a_c41
theorem ps2a_42 : Good (Rf RPs2a q0 q4) 250000 1 2650000 4000000 5 8 := okPs2a sk3_ok q0 q4 lcA3_ok ps2a_t42 ps2a_c42
theorem ps2a_43 : Good (Rf RPs2a q0 q4) 250000 1 2650000 4000000 13 16 := okPs2a sk3_ok q0 q4 lcA3_ok ps2a_t43 ps2a_c43
theorem ps2a_44 : Good (Rf RPs2a q0 q4) 250000 1 2650000 4000000 29 32 := okPs2a sk3_ok q0 q4 lcA3_ok ps2a_t44 ps2a_c44
theorem ps2a_45 : Good (Rf RPs2a q0 q4) 250000 1 2650000 4000000 61 64 := okPs2a sk3_ok q0 q4 lcA3_ok ps2a_t45 ps2a_c45
theorem ps2a_46 : Good (Rf RPs2a q0 q4) 250000 1 2650000 4000000 125 128 := okPs2a sk3_ok q0 q4 lcA3_ok ps2a_t46 ps2a_c46
theorem ps2a_47 : Good (Rf RPs2a q0 q4) 250000 1 2650000 4000000 127 128 := okPs2a sk3_ok q0 q4 lcA3_ok ps2a_t47 ps2a_c47
theorem ps2a_48 : Good (Rf RPs2a q0 q4) 250000 1 3150000 4000000 5 8 := okPs2a sk3_ok q0 q4 lcA3_ok ps2a_t48 ps2a_c48
theorem ps2a_49 : Good (Rf RPs2a q0 q4) 250000 1 3150000 4000000 25 32 := okPs2a sk3_ok q0 q4 lcA3_ok ps2a_t49 ps2a_c49
theorem ps2a_50 : Good (Rf RPs2a q0 q4) 250000 1 3150000 4000000 27 32 := okPs2a sk3_ok q0 q4 lcA3_ok ps2a_t50 ps2a_c50
theorem ps2a_51 : Good (Rf RPs2a q0 q4) 250000 1 3150000 4000000 29 32 := okPs2a sk3_ok q0 q4 lcA3_ok ps2a_t51 ps2a_c51
theorem ps2a_52 : Good (Rf RPs2a q0 q4) 250000 1 3150000 4000000 61 64 := okPs2a sk3_ok q0 q4 lcA3_ok ps2a_t52 ps2a_c52
theorem ps2a_53 : Good (Rf RPs2a q0 q4) 250000 1 3150000 4000000 125 128 := okPs2a sk3_ok q0 q4 lcA3_ok ps2a_t53 ps2a_c53
theorem ps2a_54 : Good (Rf RPs2a q0 q4) 250000 1 3150000 4000000 127 128 := okPs2a sk3_ok q0 q4 lcA3_ok ps2a_t54 ps2a_c54
theorem ps2a_55 : Good (Rf RPs2a q0 q5) 250000 1 1950000 2000000 1 4 := okPs2a sk4_ok q0 q5 lcA4_ok ps2a_t55 ps2a_c55
theorem ps2a_56 : Good (Rf RPs2a q0 q5) 250000 1 3650000 4000000 5 8 := okPs2a sk4_ok q0 q5 lcA4_ok ps2a_t56 ps2a_c56
theorem ps2a_57 : Good (Rf RPs2a q0 q5) 250000 1 3650000 4000000 13 16 := okPs2a sk4_ok q0 q5 lcA4_ok ps2a_t57 ps2a_c57
theorem ps2a_58 : Good (Rf RPs2a q0 q5) 250000 1 3650000 4000000 29 32 := okPs2a sk4_ok q0 q5 lcA4_ok ps2a_t58 ps2a_c58
theorem ps2a_59 : Good (Rf RPs2a q0 q5) 250000 1 3650000 4000000 61 64 := okPs2a sk4_ok q0 q5 lcA4_ok ps2a_t59 ps2a_c59
theorem ps2a_60 : Good (Rf RPs2a q0 q5) 250000 1 3650000 4000000 125 128 := okPs2a sk4_ok q0 q5 lcA4_ok ps2a_t60 ps2a_c60
theorem ps2a_61 : Good (Rf RPs2a q0 q5) 250000 1 3650000 4000000 253 256 := okPs2a sk4_ok q0 q5 lcA4_ok ps2a_t61 ps2a_c61
theorem ps2a_62 : Good (Rf RPs2a q0 q5) 250000 1 3650000 4000000 255 256 := okPs2a sk4_ok q0 q5 lcA4_ok ps2a_t62 ps2a_c62
theorem ps2a_63 : Good (Rf RPs2a q0 q5) 250000 1 4150000 4000000 5 8 := okPs2a sk4_ok q0 q5 lcA4_ok ps2a_t63 ps2a_c63
theorem ps2a_64 : Good (Rf RPs2a q0 q5) 250000 1 4150000 4000000 13 16 := okPs2a sk4_ok q0 q5 lcA4_ok ps2a_t64 ps2a_c64
theorem ps2a_65 : Good (Rf RPs2a q0 q5) 250000 1 4150000 4000000 57 64 := okPs2a sk4_ok q0 q5 lcA4_ok ps2a_t65 ps2a_c65
theorem ps2a_66 : Good (Rf RPs2a q0 q5) 250000 1 4150000 4000000 117 128 := okPs2a sk4_ok q0 q5 lcA4_ok ps2a_t66 ps2a_c66
theorem ps2a_67 : Good (Rf RPs2a q0 q5) 250000 1 4150000 4000000 237 256 := okPs2a sk4_ok q0 q5 lcA4_ok ps2a_t67 ps2a_c67
theorem ps2a_68 : Good (Rf RPs2a q0 q5) 250000 1 4150000 4000000 239 256 := okPs2a sk4_ok q0 q5 lcA4_ok ps2a_t68 ps2a_c68
theorem ps2a_69 : Good (Rf RPs2a q0 q5) 250000 1 4150000 4000000 121 128 := okPs2a sk4_ok q0 q5 lcA4_ok ps2a_t69 ps2a_c69
theorem ps2a_70 : Good (Rf RPs2a q0 q5) 250000 1 4150000 4000000 123 128 := okPs2a sk4_ok q0 q5 lcA4_ok ps2a_t70 ps2a_c70
theorem ps2a_71 : Good (Rf RPs2a q0 q5) 250000 1 4150000 4000000 63 64 := okPs2a sk4_ok q0 q5 lcA4_ok ps2a_t71 ps2a_c71
theorem ps2a_72 : Good (Rf RPs2a q0 q6) 314220 1 2514220 2000000 1 4 := okPs2a sk5_ok q0 q6 lcA5_ok ps2a_t72 ps2a_c72
theorem ps2a_73 : Good (Rf RPs2a q0 q6) 314220 1 4714220 4000000 5 8 := okPs2a sk5_ok q0 q6 lcA5_ok ps2a_t73 ps2a_c73
theorem ps2a_74 : Good (Rf RPs2a q0 q6) 314220 1 4714220 4000000 13 16 := okPs2a sk5_ok q0 q6 lcA5_ok ps2a_t74 ps2a_c74
theorem ps2a_75 : Good (Rf RPs2a q0 q6) 314220 1 4714220 4000000 29 32 := okPs2a sk5_ok q0 q6 lcA5_ok ps2a_t75 ps2a_c75
theorem ps2a_76 : Good (Rf RPs2a q0 q6) 314220 1 9114220 8000000 31 32 := okPs2a sk5_ok q0 q6 lcA5_ok ps2a_t76 ps2a_c76
theorem ps2a_77 : Good (Rf RPs2a q0 q6) 314220 1 9742660 8000000 61 64 := okPs2a sk5_ok q0 q6 lcA5_ok ps2a_t77 ps2a_c77
theorem ps2a_78 : Good (Rf RPs2a q0 q6) 314220 1 9742660 8000000 63 64 := okPs2a sk5_ok q0 q6 lcA5_ok ps2a_t78 ps2a_c78
theorem ps2a_79 : Good (Rf RPs2a q0 q6) 314220 1 5342660 4000000 5 8 := okPs2a sk5_ok q0 q6 lcA5_ok ps2a_t79 ps2a_c79
theorem ps2a_80 : Good (Rf RPs2a q0 q6) 314220 1 5342660 4000000 13 16 := okPs2a sk5_ok q0 q6 lcA5_ok ps2a_t80 ps2a_c80
theorem ps2a_81 : Good (Rf RPs2a q0 q6) 314220 1 10371100 8000000 29 32 := okPs2a sk5_ok q0 q6 lcA5_ok ps2a_t81 ps2a_c81
theorem ps2a_82 : Good (Rf RPs2a q0 q6) 314220 1 10999540 8000000 29 32 := okPs2a sk5_ok q0 q6 lcA5_ok ps2a_t82 ps2a_c82
theorem ps2a_83 : Good (Rf RPs2a q0 q6) 314220 1 10371100 8000000 61 64 := okPs2a sk5_ok q0 q6 lcA5_ok ps2a_t83 ps2a_c83
theorem ps2a_84 : Good (Rf RPs2a q0 q6) 314220 1 10371100 8000000 63 64 := okPs2a sk5_ok q0 q6 lcA5_ok ps2a_t84 ps2a_c84
theorem ps2a_85 : Good (Rf RPs2a q0 q6) 314220 1 10999540 8000000 31 32 := okPs2a sk5_ok q0 q6 lcA5_ok ps2a_t85 ps2a_c85
theorem ps2a_root0 : Good (Rf RPs2a q0 q1) 92800 1 407200 2000000 1 2 :=
  (Good.y ps2a_0 (Good.x (Good.y ps2a_1 (Good.y ps2a_2 ps2a_3 rfl rfl rfl) rfl rfl rfl) (Good.y ps2a_4 (Good.y ps2a_5 ps2a_6 rfl rfl rfl) rfl rfl rfl) rfl rfl rfl) rfl rfl rfl)
theorem ps2a_root1 : Good (Rf RPs2a q0 q2) 150000 1 650000 2000000 1 2 :=
  (Good.y ps2a_7 (Good.x (Good.y ps2a_8 (Good.y ps2a_9 (Good.y ps2a_10 (Good.y ps2a_11 (Good.y (Good.y ps2a_12 (Good.y ps2a_13 ps2a_14 rfl rfl rfl) rfl rfl rfl) (Good.y (Good.y (Good.y ps2a_15 ps2a_16 rfl rfl rfl) ps2a_17 rfl rfl rfl) (Good.y ps2a_18 ps2a_19 rfl rfl rfl) rfl rfl rfl) rfl rfl rfl) rfl rfl rfl) rfl rfl rfl) rfl rfl rfl) rfl rfl rfl) (Good.y ps2a_20 (Good.y ps2a_21 (Good.y ps2a_22 (Good.y ps2a_23 (Good.y ps2a_24 (Good.y ps2a_25 (Good.y ps2a_26 ps2a_27 rfl rfl rfl) rfl rfl rfl) rfl rfl rfl) rfl rfl rfl) rfl rfl rfl) rfl rfl rfl) rfl rfl rfl) rfl rfl rfl) rfl rfl rfl)
theorem ps2a_root2 : Good (Rf RPs2a q0 q3) 200000 1 1000000 2000000 1 2 :=
  (Good.y ps2a_28 (Good.x (Good.y ps2a_29 (Good.y ps2a_30 (Good.y ps2a_31 (Good.y ps2a_32 (Good.y ps2a_33 ps2a_34 rfl rfl rfl) rfl rfl rfl) rfl rfl rfl) rfl rfl rfl) rfl rfl rfl) (Good.y ps2a_35 (Good.y ps2a_36 (Good.y ps2a_37 (Good.y ps2a_38 (Good.y ps2a_39 ps2a_40 rfl rfl rfl) rfl rfl rfl) rfl rfl rfl) rfl rfl rfl) rfl rfl rfl) rfl rfl rfl) rfl rfl rfl)
theorem ps2a_root3 : Good (Rf RPs2a q0 q4) 250000 1 1450000 2000000 1 2 :=
  (Good.y ps2a_41 (Good.x (Good.y ps2a_42 (Good.y ps2a_43 (Good.y ps2a_44 (Good.y ps2a_45 (Good.y ps2a_46 ps2a_47 rfl rfl rfl) rfl rfl rfl) rfl rfl rfl) rfl rfl rfl) rfl rfl rfl) (Good.y ps2a_48 (Good.y (Good.y ps2a_49 ps2a_50 rfl rfl rfl) (Good.y ps2a_51 (Good.y ps2a_52 (Good.y ps2a_53 ps2a_54 rfl rfl rfl) rfl rfl rfl) rfl rfl rfl) rfl rfl rfl) rfl rfl rfl) rfl rfl rfl) rfl rfl rfl)
theorem ps2a_root4 : Good (Rf RPs2a q0 q5) 250000 1 1950000 2000000 1 2 :=
  (Good.y ps2a_55 (Good.x (Good.y ps2a_56 (Good.y ps2a_57 (Good.y ps2a_58 (Good.y ps2a_59 (Good.y ps2a_60 (Good.y ps2a_61 ps2a_62 rfl rfl rfl) rfl rfl rfl) rfl rfl rfl) rfl rfl rfl) rfl rfl rfl) rfl rfl rfl) (Good.y ps2a_63 (Good.y ps2a_64 (Good.y (Good.y ps2a_65 (Good.y ps2a_66 (Good.y ps2a_67 ps2a_68 rfl rfl rfl) rfl rfl rfl) rfl rfl rfl) (Good.y (Good.y ps2a_69 ps2a_70 rfl rfl rfl) ps2a_71 rfl rfl rfl) rfl rfl rfl) rfl rfl rfl) rfl rfl rfl) rfl rfl rfl) rfl rfl rfl)
theorem ps2a_root5 : Good (Rf RPs2a q0 q6) 314220 1 2514220 2000000 1 2 :=
  (Good.y ps2a_72 (Good.x (Good.y ps2a_73 (Good.y ps2a_74 (Good.y ps2a_75 (Good.x ps2a_76 (Good.y ps2a_77 ps2a_78 rfl rfl rfl) rfl rfl rfl) rfl rfl rfl) rfl rfl rfl) rfl rfl rfl) (Good.y ps2a_79 (Good.y ps2a_80 (Good.y (Good.x ps2a_81 ps2a_82 rfl rfl rfl) (Good.x (Good.y ps2a_83 ps2a_84 rfl rfl rfl) ps2a_85 rfl rfl rfl) rfl rfl rfl) rfl rfl rfl) rfl rfl rfl) rfl rfl rfl) rfl rfl rfl)

end If97.Tm

/-! T(p, s) in region 2b: the whole fans. -/

namespace If97.Tm
set_option maxRecDepth 100000

theorem ps2b_0 : Good (Rf RPs2b q0 q7) 185800 1 3014200 2000000 1 4 := okPs2b sk6_ok q0 q7 lcU0_ok ps2b_t0 ps2b_c0
theorem ps2b_1 : Good (Rf RPs2b q0 q7) 185800 1 5842600 4000000 3 4 := okPs2b sk6_ok q0 q7 lcU0_ok ps2b_t1 ps2b_c1
theorem ps2b_2 : Good (Rf RPs2b q0 q7) 185800 1 6214200 4000000 3 4 := okPs2b sk6_ok q0 q7 lcU0_ok ps2b_t2 ps2b_c2
theorem ps2b_3 : Good (Rf RPs2b q0 qs0) 200000 1 3400000 2000000 1 4 := okPs2b sk7_ok q0 qs0 lcU1_ok ps2b_t3 ps2b_c3
theorem ps2b_4 : Good (Rf RPs2b q0 qs0) 200000 1 6600000 4000000 5 8 := okPs2b sk7_ok q0 qs0 lcU1_ok ps2b_t4 ps2b_c4
theorem ps2b_5 : Good (Rf RPs2b q0 qs0) 200000 1 6600000 4000000 13 16 := okPs2b sk7_ok q0 qs0 lcU1_ok ps2b_t5 ps2b_c5
theorem ps2b_6 : Good (Rf RPs2b q0 qs0) 200000 1 6600000 4000000 29 32 := okPs2b sk7_ok q0 qs0 lcU1_ok ps2b_t6 ps2b_c6
theorem ps2b_7 : Good (Rf RPs2b q0 qs0) 200000 1 6600000 4000000 31 32 := okPs2b sk7_ok q0 qs0 lcU1_ok ps2b_t7 ps2b_c7
theorem ps2b_8 : Good (Rf RPs2b q0 qs0) 200000 1 7000000 4000000 5 8 := okPs2b sk7_ok q0 qs0 lcU1_ok ps2b_t8 ps2b_c8
theorem ps2b_9 : Good (Rf RPs2b q0 qs0) 200000 1 7000000 4000000 13 16 := okPs2b sk7_ok q0 qs0 lcU1_ok ps2b_t9 ps2b_c9
theorem ps2b_10 : Good (Rf RPs2b q0 qs0) 200000 1 7000000 4000000 29 32 := okPs2b sk7_ok q0 qs0 lcU1_ok ps2b_t10 ps2b_c10
theorem ps2b_11 : Good (Rf RPs2b q0 qs0) 200000 1 7000000 4000000 61 64 := okPs2b sk7_ok q0 qs0 lcU1_ok ps2b_t11 ps2b_c11
theorem ps2b_12 : Good (Rf RPs2b q0 qs0) 200000 1 7000000 4000000 63 64 := okPs2b sk7_ok q0 qs0 lcU1_ok ps2b_t12 ps2b_c12
theorem ps2b_13 : Good (Rf RPs2b qs0 q9) 200000 1 3400000 2000000 1 2 := okPs2b sk7_ok qs0 q9 lcU1_ok ps2b_t13 ps2b_c13
theorem ps2b_14 : Good (Rf RPs2b q0 qs1) 216300 1 3816300 2000000 1 4 := okPs2b sk8_ok q0 qs1 lcU2_ok ps2b_t14 ps2b_c14
theorem ps2b_15 : Good (Rf RPs2b q0 qs1) 216300 1 7416300 4000000 3 4 := okPs2b sk8_ok q0 qs1 lcU2_ok ps2b_t15 ps2b_c15
theorem ps2b_16 : Good (Rf RPs2b q0 qs1) 216300 1 7848900 4000000 3 4 := okPs2b sk8_ok q0 qs1 lcU2_ok ps2b_t16 ps2b_c16
theorem ps2b_17 : Good (Rf RPs2b qs1 q11) 216300 1 3816300 2000000 1 2 := okPs2b sk8_ok qs1 q11 lcU2_ok ps2b_t17 ps2b_c17
theorem ps2b_18 : Good (Rf RPs2b q0 qs2) 283700 1 4316300 2000000 1 4 := okPs2b sk9_ok q0 qs2 lcU3_ok ps2b_t18 ps2b_c18
theorem ps2b_19 : Good (Rf RPs2b q0 qs2) 283700 1 4316300 2000000 3 4 := okPs2b sk9_ok q0 qs2 lcU3_ok ps2b_t19 ps2b_c19
theorem ps2b_20 : Good (Rf RPs2b qs2 q13) 283700 1 4316300 2000000 1 2 := okPs2b sk9_ok qs2 q13 lcU3_ok ps2b_t20 ps2b_c20
theorem ps2b_21 : Good (Rf RPs2b q0 qs3) 400000 1 5000000 2000000 1 4 := okPs2b sk10_ok q0 qs3 lcU4_ok ps2b_t21 ps2b_c21
theorem ps2b_22 : Good (Rf RPs2b q0 qs3) 400000 1 5000000 2000000 3 4 := okPs2b sk10_ok q0 qs3 lcU4_ok ps2b_t22 ps2b_c22
theorem ps2b_23 : Good (Rf RPs2b qs3 q15) 400000 1 5000000 2000000 1 4 := okPs2b sk10_ok qs3 q15 lcU4_ok ps2b_t23 ps2b_c23
theorem ps2b_24 : Good (Rf RPs2b qs3 q15) 400000 1 5000000 2000000 3 4 := okPs2b sk10_ok qs3 q15 lcU4_ok ps2b_t24 ps2b_c24
theorem ps2b_25 : Good (Rf RPs2b q0 qs4) 462278 1 5862278 2000000 1 4 := okPs2b sk11_ok q0 qs4 lcU5_ok ps2b_t25 ps2b_c25
theorem ps2b_26 : Good (Rf RPs2b q0 qs4) 462278 1 5862278 2000000 3 4 := okPs2b sk11_ok q0 qs4 lcU5_ok ps2b_t26 ps2b_c26
theorem ps2b_27 : Good (Rf RPs2b qs4 q17) 462278 1 5862278 2000000 1 4 := okPs2b sk11_ok qs4 q17 lcU5_ok ps2b_t27 ps2b_c27
theorem ps2b_28 : Good (Rf RPs2b qs4 q17) 462278 1 5862278 2000000 3 4 := okPs2b sk11_ok qs4 q17 lcU5_ok ps2b_t28 ps2b_c28
theorem ps2b_root0 : Good (Rf RPs2b q0 q7) 185800 1 3014200 2000000 1 2 :=
  (Good.y ps2b_0 (Good.x ps2b_1 ps2b_2 rfl rfl rfl) rfl rfl rfl)
theorem ps2b_root1 : Good (Rf RPs2b q0 qs0) 200000 1 3400000 2000000 1 2 :=
  (Good.y ps2b_3 (Good.x (Good.y ps2b_4 (Good.y ps2b_5 (Good.y ps2b_6 ps2b_7 rfl rfl rfl) rfl rfl rfl) rfl rfl rfl) (Good.y ps2b_8 (Good.y ps2b_9 (Good.y ps2b_10 (Good.y ps2b_11 ps2b_12 rfl rfl rfl) rfl rfl rfl) rfl rfl rfl) rfl rfl rfl) rfl rfl rfl) rfl rfl rfl)
theorem ps2b_root2 : Good (Rf RPs2b qs0 q9) 200000 1 3400000 2000000 1 2 :=
  ps2b_13
theorem ps2b_root3 : Good (Rf RPs2b q0 qs1) 216300 1 3816300 2000000 1 2 :=
  (Good.y ps2b_14 (Good.x ps2b_15 ps2b_16 rfl rfl rfl) rfl rfl rfl)
theorem ps2b_root4 : Good (Rf RPs2b qs1 q11) 216300 1 3816300 2000000 1 2 :=
  ps2b_17
theorem ps2b_root5 : Good (Rf RPs2b q0 qs2) 283700 1 4316300 2000000 1 2 :=
  (Good.y ps2b_18 ps2b_19 rfl rfl rfl)
theorem ps2b_root6 : Good (Rf RPs2b qs2 q13) 283700 1 4316300 2000000 1 2 :=
  ps2b_20
theorem ps2b_root7 : Good (Rf RPs2b q0 qs3) 400000 1 5000000 2000000 1 2 :=
  (Good.y ps2b_21 ps2b_22 rfl rfl rfl)
theorem ps2b_root8 : Good (Rf RPs2b qs3 q15) 400000 1 5000000 2000000 1 2 :=
  (Good.y ps2b_23 ps2b_24 rfl rfl rfl)
theorem ps2b_root9 : Good (Rf RPs2b q0 qs4) 462278 1 5862278 2000000 1 2 :=
  (Good.y ps2b_25 ps2b_26 rfl rfl rfl)
theorem ps2b_root10 : Good (Rf RPs2b qs4 q17) 462278 1 5862278 2000000 1 2 :=
  (Good.y ps2b_27 ps2b_28 rfl rfl rfl)

end If97.Tm

/-! T(p, s) in region 2c: the whole fans. -/

namespace If97.Tm
set_option maxRecDepth 100000

theorem ps2c_0 : Good (Rf RPs2c q0 q7) 185800 1 3014200 2000000 1 2 := okPs2c sk6_ok q0 q7 lcU0_ok ps2c_t0 ps2c_c0
theorem ps2c_1 : Good (Rf RPs2c q0 qs0) 200000 1 3400000 2000000 1 2 := okPs2c sk7_ok q0 qs0 lcU1_ok ps2c_t1 ps2c_c1
theorem ps2c_2 : Good (Rf RPs2c qs0 q9) 200000 1 3400000 2000000 1 4 := okPs2c sk7_ok qs0 q9 lcU1_ok ps2c_t2 ps2c_c2
theorem ps2c_3 : Good (Rf RPs2c qs0 q9) 200000 1 6600000 4000000 3 4 := okPs2c sk7_ok qs0 q9 lcU1_ok ps2c_t3 ps2c_c3
theorem ps2c_4 : Good (Rf RPs2c qs0 q9) 200000 1 7000000 4000000 5 8 := okPs2c sk7_ok qs0 q9 lcU1_ok ps2c_t4 ps2c_c4
theorem ps2c_5 : Good (Rf RPs2c qs0 q9) 200000 1 7000000 4000000 13 16 := okPs2c sk7_ok qs0 q9 lcU1_ok ps2c_t5 ps2c_c5
theorem ps2c_6 : Good (Rf RPs2c qs0 q9) 200000 1 7000000 4000000 15 16 := okPs2c sk7_ok qs0 q9 lcU1_ok ps2c_t6 ps2c_c6
theorem ps2c_7 : Good (Rf RPs2c q0 qs1) 216300 1 3816300 2000000 1 2 := okPs2c sk8_ok q0 qs1 lcU2_ok ps2c_t7 ps2c_c7
theorem ps2c_8 : Good (Rf RPs2c qs1 q11) 216300 1 3816300 2000000 1 4 := okPs2c sk8_ok qs1 q11 lcU2_ok ps2c_t8 ps2c_c8
theorem ps2c_9 : Good (Rf RPs2c qs1 q11) 216300 1 7416300 4000000 5 8 := okPs2c sk8_ok qs1 q11 lcU2_ok ps2c_t9 ps2c_c9
theorem ps2c_10 : Good (Rf RPs2c qs1 q11) 216300 1 7416300 4000000 7 8 := okPs2c sk8_ok qs1 q11 lcU2_ok ps2c_t10 ps2c_c10
theorem ps2c_11 : Good (Rf RPs2c qs1 q11) 216300 1 7848900 4000000 9 16 := okPs2c sk8_ok qs1 q11 lcU2_ok ps2c_t11 ps2c_c11
theorem ps2c_12 : Good (Rf RPs2c qs1 q11) 216300 1 7848900 4000000 11 16 := okPs2c sk8_ok qs1 q11 lcU2_ok ps2c_t12 ps2c_c12
theorem ps2c_13 : Good (Rf RPs2c qs1 q11) 216300 1 7848900 4000000 13 16 := okPs2c sk8_ok qs1 q11 lcU2_ok ps2c_t13 ps2c_c13
theorem ps2c_14 : Good (Rf RPs2c qs1 q11) 216300 1 7848900 4000000 15 16 := okPs2c sk8_ok qs1 q11 lcU2_ok ps2c_t14 ps2c_c14
theorem ps2c_15 : Good (Rf RPs2c q0 qs2) 283700 1 4316300 2000000 1 2 := okPs2c sk9_ok q0 qs2 lcU3_ok ps2c_t15 ps2c_c15
theorem ps2c_16 : Good (Rf RPs2c qs2 q13) 283700 1 4316300 2000000 1 4 := okPs2c sk9_ok qs2 q13 lcU3_ok ps2c_t16 ps2c_c16
theorem ps2c_17 : Good (Rf RPs2c qs2 q13) 283700 1 8348900 4000000 5 8 := okPs2c sk9_ok qs2 q13 lcU3_ok ps2c_t17 ps2c_c17
theorem ps2c_18 : Good (Rf RPs2c qs2 q13) 283700 1 8348900 4000000 13 16 := okPs2c sk9_ok qs2 q13 lcU3_ok ps2c_t18 ps2c_c18
theorem ps2c_19 : Good (Rf RPs2c qs2 q13) 283700 1 16414100 8000000 15 16 := okPs2c sk9_ok qs2 q13 lcU3_ok ps2c_t19 ps2c_c19
theorem ps2c_20 : Good (Rf RPs2c qs2 q13) 283700 1 16981500 8000000 15 16 := okPs2c sk9_ok qs2 q13 lcU3_ok ps2c_t20 ps2c_c20
theorem ps2c_21 : Good (Rf RPs2c qs2 q13) 283700 1 8916300 4000000 5 8 := okPs2c sk9_ok qs2 q13 lcU3_ok ps2c_t21 ps2c_c21
theorem ps2c_22 : Good (Rf RPs2c qs2 q13) 283700 1 8916300 4000000 13 16 := okPs2c sk9_ok qs2 q13 lcU3_ok ps2c_t22 ps2c_c22
theorem ps2c_23 : Good (Rf RPs2c qs2 q13) 283700 1 8916300 4000000 15 16 := okPs2c sk9_ok qs2 q13 lcU3_ok ps2c_t23 ps2c_c23
theorem ps2c_24 : Good (Rf RPs2c q0 qs3) 400000 1 5000000 2000000 1 2 := okPs2c sk10_ok q0 qs3 lcU4_ok ps2c_t24 ps2c_c24
theorem ps2c_25 : Good (Rf RPs2c qs3 q15) 400000 1 5000000 2000000 1 4 := okPs2c sk10_ok qs3 q15 lcU4_ok ps2c_t25 ps2c_c25
theorem ps2c_26 : Good (Rf RPs2c qs3 q15) 400000 1 9600000 4000000 5 8 := okPs2c sk10_ok qs3 q15 lcU4_ok ps2c_t26 ps2c_c26
theorem ps2c_27 : Good (Rf RPs2c qs3 q15) 400000 1 18800000 8000000 13 16 := okPs2c sk10_ok qs3 q15 lcU4_ok ps2c_t27 ps2c_c27
theorem ps2c_28 : Good (Rf RPs2c qs3 q15) 400000 1 19600000 8000000 13 16 := okPs2c sk10_ok qs3 q15 lcU4_ok ps2c_t28 ps2c_c28
theorem ps2c_29 : Good (Rf RPs2c qs3 q15) 400000 1 18800000 8000000 15 16 := okPs2c sk10_ok qs3 q15 lcU4_ok ps2c_t29 ps2c_c29
theorem ps2c_30 : Good (Rf RPs2c qs3 q15) 400000 1 19600000 8000000 15 16 := okPs2c sk10_ok qs3 q15 lcU4_ok ps2c_t30 ps2c_c30
theorem ps2c_31 : Good (Rf RPs2c qs3 q15) 400000 1 10400000 4000000 5 8 := okPs2c sk10_ok qs3 q15 lcU4_ok ps2c_t31 ps2c_c31
theorem ps2c_32 : Good (Rf RPs2c qs3 q15) 400000 1 20400000 8000000 25 32 := okPs2c sk10_ok qs3 q15 lcU4_ok ps2c_t32 ps2c_c32
theorem ps2c_33 : Good (Rf RPs2c qs3 q15) 400000 1 21200000 8000000 25 32 := okPs2c sk10_ok qs3 q15 lcU4_ok ps2c_t33 ps2c_c33
theorem ps2c_34 : Good (Rf RPs2c qs3 q15) 400000 1 20400000 8000000 27 32 := okPs2c sk10_ok qs3 q15 lcU4_ok ps2c_t34 ps2c_c34
theorem ps2c_35 : Good (Rf RPs2c qs3 q15) 400000 1 21200000 8000000 53 64 := okPs2c sk10_ok qs3 q15 lcU4_ok ps2c_t35 ps2c_c35
theorem ps2c_36 : Good (Rf RPs2c qs3 q15) 400000 1 21200000 8000000 55 64 := okPs2c sk10_ok qs3 q15 lcU4_ok ps2c_t36 ps2c_c36
theorem ps2c_37 : Good (Rf RPs2c qs3 q15) 400000 1 10400000 4000000 29 32 := okPs2c sk10_ok qs3 q15 lcU4_ok ps2c_t37 ps2c_c37
theorem ps2c_38 : Good (Rf RPs2c qs3 q15) 400000 1 20400000 8000000 61 64 := okPs2c sk10_ok qs3 q15 lcU4_ok ps2c_t38 ps2c_c38
theorem ps2c_39 : Good (Rf RPs2c qs3 q15) 400000 1 21200000 8000000 61 64 := okPs2c sk10_ok qs3 q15 lcU4_ok ps2c_t39 ps2c_c39
theorem ps2c_40 : Good (Rf RPs2c qs3 q15) 400000 1 10400000 4000000 63 64 := okPs2c sk10_ok qs3 q15 lcU4_ok ps2c_t40 ps2c_c40
theorem ps2c_41 : Good (Rf RPs2c q0 qs4) 462278 1 5862278 2000000 1 2 := okPs2c sk11_ok q0 qs4 lcU5_ok ps2c_t41 ps2c_c41
theorem ps2c_42 : Good (Rf RPs2c qs4 q17) 462278 1 11262278 4000000 1 4 := okPs2c sk11_ok qs4 q17 lcU5_ok ps2c_t42 ps2c_c42
theorem ps2c_43 : Good (Rf RPs2c qs4 q17) 462278 1 12186834 4000000 1 4 := okPs2c sk11_ok qs4 q17 lcU5_ok ps2c_t43 ps2c_c43
theorem ps2c_44 : Good (Rf RPs2c qs4 q17) 462278 1 11262278 4000000 5 8 := okPs2c sk11_ok qs4 q17 lcU5_ok ps2c_t44 ps2c_c44
theorem ps2c_45 : Good (Rf RPs2c qs4 q17) 462278 1 22062278 8000000 13 16 := okPs2c sk11_ok qs4 q17 lcU5_ok ps2c_t45 ps2c_c45
theorem ps2c_46 : Good (Rf RPs2c qs4 q17) 462278 1 22986834 8000000 13 16 := okPs2c sk11_ok qs4 q17 lcU5_ok ps2c_t46 ps2c_c46
theorem ps2c_47 : Good (Rf RPs2c qs4 q17) 462278 1 11262278 4000000 29 32 := okPs2c sk11_ok qs4 q17 lcU5_ok ps2c_t47 ps2c_c47
theorem ps2c_48 : Good (Rf RPs2c qs4 q17) 462278 1 22062278 8000000 61 64 := okPs2c sk11_ok qs4 q17 lcU5_ok ps2c_t48 ps2c_c48
theorem ps2c_49 : Good (Rf RPs2c qs4 q17) 462278 1 22062278 8000000 63 64 := okPs2c sk11_ok qs4 q17 lcU5_ok ps2c_t49 ps2c_c49
theorem ps2c_50 : Good (Rf RPs2c qs4 q17) 462278 1 22986834 8000000 31 32 := okPs2c sk11_ok qs4 q17 lcU5_ok ps2c_t50 ps2c_c50
theorem ps2c_51 : Good (Rf RPs2c qs4 q17) 462278 1 12186834 4000000 5 8 := okPs2c sk11_ok qs4 q17 lcU5_ok ps2c_t51 ps2c_c51
theorem ps2c_52 : Good (Rf RPs2c qs4 q17) 462278 1 23911390 8000000 13 16 := okPs2c sk11_ok qs4 q17 lcU5_ok ps2c_t52 ps2c_c52
theorem ps2c_53 : Good (Rf RPs2c qs4 q17) 462278 1 24835946 8000000 13 16 := okPs2c sk11_ok qs4 q17 lcU5_ok ps2c_t53 ps2c_c53
theorem ps2c_54 : Good (Rf RPs2c qs4 q17) 462278 1 23911390 8000000 29 32 := okPs2c sk11_ok qs4 q17 lcU5_ok ps2c_t54 ps2c_c54
theorem ps2c_55 : Good (Rf RPs2c qs4 q17) 462278 1 23911390 8000000 31 32 := okPs2c sk11_ok qs4 q17 lcU5_ok ps2c_t55 ps2c_c55
theorem ps2c_56 : Good (Rf RPs2c qs4 q17) 462278 1 24835946 8000000 15 16 := okPs2c sk11_ok qs4 q17 lcU5_ok ps2c_t56 ps2c_c56
theorem ps2c_root0 : Good (Rf RPs2c q0 q7) 185800 1 3014200 2000000 1 2 :=
  ps2c_0
theorem ps2c_root1 : Good (Rf RPs2c q0 qs0) 200000 1 3400000 2000000 1 2 :=
  ps2c_1
theorem ps2c_root2 : Good (Rf RPs2c qs0 q9) 200000 1 3400000 2000000 1 2 :=
  (Good.y ps2c_2 (Good.x ps2c_3 (Good.y ps2c_4 (Good.y ps2c_5 ps2c_6 rfl rfl rfl) rfl rfl rfl) rfl rfl rfl) rfl rfl rfl)
theorem ps2c_root3 : Good (Rf RPs2c q0 qs1) 216300 1 3816300 2000000 1 2 :=
  ps2c_7
theorem ps2c_root4 : Good (Rf RPs2c qs1 q11) 216300 1 3816300 2000000 1 2 :=
  (Good.y ps2c_8 (Good.x (Good.y ps2c_9 ps2c_10 rfl rfl rfl) (Good.y (Good.y ps2c_11 ps2c_12 rfl rfl rfl) (Good.y ps2c_13 ps2c_14 rfl rfl rfl) rfl rfl rfl) rfl rfl rfl) rfl rfl rfl)
theorem ps2c_root5 : Good (Rf RPs2c q0 qs2) 283700 1 4316300 2000000 1 2 :=
  ps2c_15
theorem ps2c_root6 : Good (Rf RPs2c qs2 q13) 283700 1 4316300 2000000 1 2 :=
  (Good.y ps2c_16 (Good.x (Good.y ps2c_17 (Good.y ps2c_18 (Good.x ps2c_19 ps2c_20 rfl rfl rfl) rfl rfl rfl) rfl rfl rfl) (Good.y ps2c_21 (Good.y ps2c_22 ps2c_23 rfl rfl rfl) rfl rfl rfl) rfl rfl rfl) rfl rfl rfl)
theorem ps2c_root7 : Good (Rf RPs2c q0 qs3) 400000 1 5000000 2000000 1 2 :=
  ps2c_24
theorem ps2c_root8 : Good (Rf RPs2c qs3 q15) 400000 1 5000000 2000000 1 2 :=
  (Good.y ps2c_25 (Good.x (Good.y ps2c_26 (Good.y (Good.x ps2c_27 ps2c_28 rfl rfl rfl) (Good.x ps2c_29 ps2c_30 rfl rfl rfl) rfl rfl rfl) rfl rfl rfl) (Good.y ps2c_31 (Good.y (Good.y (Good.x ps2c_32 ps2c_33 rfl rfl rfl) (Good.x ps2c_34 (Good.y ps2c_35 ps2c_36 rfl rfl rfl) rfl rfl rfl) rfl rfl rfl) (Good.y ps2c_37 (Good.y (Good.x ps2c_38 ps2c_39 rfl rfl rfl) ps2c_40 rfl rfl rfl) rfl rfl rfl) rfl rfl rfl) rfl rfl rfl) rfl rfl rfl) rfl rfl rfl)
theorem ps2c_root9 : Good (Rf RPs2c q0 qs4) 462278 1 5862278 2000000 1 2 :=
  ps2c_41
theorem ps2c_root10 : Good (Rf RPs2c qs4 q17) 462278 1 5862278 2000000 1 2 :=
  (Good.y (Good.x ps2c_42 ps2c_43 rfl rfl rfl) (Good.x (Good.y ps2c_44 (Good.y (Good.x ps2c_45 ps2c_46 rfl rfl rfl) (Good.y ps2c_47 (Good.x (Good.y ps2c_48 ps2c_49 rfl rfl rfl) ps2c_50 rfl rfl rfl) rfl rfl rfl) rfl rfl rfl) rfl rfl rfl) (Good.y ps2c_51 (Good.y (Good.x ps2c_52 ps2c_53 rfl rfl rfl) (Good.x (Good.y ps2c_54 ps2c_55 rfl rfl rfl) ps2c_56 rfl rfl rfl) rfl rfl rfl) rfl rfl rfl) rfl rfl rfl) rfl rfl rfl)

end If97.Tm

/-! The equation T(p, s) of region 2 on the whole region. -/

namespace If97.Tm

variable {p T : ℝ} (h : InRange 2 p T) (hp : 0.000611212677444 ≤ p)

theorem eS2 {β τ : ℝ} : s2 β τ = G2.S (β ^ 4) (540 / τ) := by
  simp only [s2, s2R, Gibbs.S, gasR, G2, idealGibbs, div_one]
  rw [div_div_cancel₀ (by norm_num)]

include h hp

theorem ps2a_back (h4 : p ≤ 4) : |ps2T_reg2a p (G2.S p T) - T| ≤ 0.01 := by
  obtain ⟨β, τ, a, b, c, d, e, rfl, rfl, -, f, -⟩ := coords2 h hp
  have := cover2a ps2a_root0 ps2a_root1 ps2a_root2 ps2a_root3 ps2a_root4 ps2a_root5 e c d a (f h4)
  rw [RPs2a, eS2] at this
  exact this.trans (by norm_num)

theorem ps2b_back (h4 : 4 ≤ p) (hs : 5.85 ≤ G2.S p T) : |ps2T_reg2b p (G2.S p T) - T| ≤ 0.01 := by
  obtain ⟨β, τ, a, b, c, d, e, rfl, rfl, -, -, f⟩ := coords2 h hp
  have := cover2g (.one (by decide) ps2b_root0) (.two qs0 (by decide) ps2b_root1 ps2b_root2)
    (.two qs1 (by decide) ps2b_root3 ps2b_root4) (.two qs2 (by decide) ps2b_root5 ps2b_root6)
    (.two qs3 (by decide) ps2b_root7 ps2b_root8) (.two qs4 (by decide) ps2b_root9 ps2b_root10) e c d (f h4) b
  rw [RPs2b, eS2] at this
  exact (this (not_lt.2 hs)).trans (by norm_num)

theorem ps2c_back (h4 : 4 ≤ p) (hs : G2.S p T < 5.85) : |ps2T_reg2c p (G2.S p T) - T| ≤ 0.025 := by
  obtain ⟨β, τ, a, b, c, d, e, rfl, rfl, -, -, f⟩ := coords2 h hp
  have := cover2g (.one (by decide) ps2c_root0) (.two qs0 (by decide) ps2c_root1 ps2c_root2)
    (.two qs1 (by decide) ps2c_root3 ps2c_root4) (.two qs2 (by decide) ps2c_root5 ps2c_root6)
    (.two qs3 (by decide) ps2c_root7 ps2c_root8) (.two qs4 (by decide) ps2c_root9 ps2c_root10) e c d (f h4) b
  rw [RPs2c, eS2] at this
  exact (this hs).trans (by norm_num)

theorem ps2_back : |ps2T_reg2 p (G2.S p T) - T| ≤ 0.025 ∧
    (p ≤ 4 ∨ 5.85 ≤ G2.S p T → |ps2T_reg2 p (G2.S p T) - T| ≤ 0.01) := by
  have w : (0.01 : ℝ) ≤ 0.025 := by norm_num
  by_cases h4 : 4 < p
  · have h4' : (4.0 : ℝ) < p := by norm_num; exact h4
    by_cases hs : G2.S p T < 5.85
    · have e : ps2T_reg2 p (G2.S p T) = ps2T_reg2c p (G2.S p T) := by
        simp [ps2T_reg2, h4', hs]
      rw [e]
      exact ⟨ps2c_back h hp h4.le hs, fun k => k.elim (fun k => absurd k (not_le.2 h4)) fun k => absurd hs (not_lt.2 k)⟩
    · have e : ps2T_reg2 p (G2.S p T) = ps2T_reg2b p (G2.S p T) := by
        simp [ps2T_reg2, h4', hs]
      rw [e]
      have := ps2b_back h hp h4.le (not_lt.1 hs)
      exact ⟨this.trans w, fun _ => this⟩
  · have e : ps2T_reg2 p (G2.S p T) = ps2T_reg2a p (G2.S p T) := by
      have h4' : ¬ (4.0 : ℝ) < p := by norm_num; exact not_lt.1 h4
      simp [ps2T_reg2, h4']
    rw [e]
    have := ps2a_back h hp (not_lt.1 h4)
    exact ⟨this.trans w, fun _ => this⟩

end If97.Tm
