import Verif.Lemmas.Tm.Ph2a_0
import Verif.Lemmas.Tm.Ph2a_1
import Verif.Lemmas.Tm.Ph2a_2
import Verif.Lemmas.Tm.Ph2a_3
import Verif.Lemmas.Tm.Ph2a_4
import Verif.Lemmas.Tm.Ph2a_5
import Verif.Lemmas.Tm.Ph2a_6
import Verif.Lemmas.Tm.Chk2
import Verif.Lemmas.Tm.Scales
import Verif.Lemmas.Tm.Ph2b_0
import Verif.Lemmas.Tm.Ph2b_1
import Verif.Lemmas.Tm.Ph2b_2
import Verif.Lemmas.Tm.Ph2b_3
import Verif.Lemmas.Tm.Ph2b_4
import Verif.Lemmas.Tm.Ph2b_5
import Verif.Lemmas.Tm.Ph2b_6
import Verif.Lemmas.Tm.Ph2b_7
import Verif.Lemmas.Tm.Ph2b_8
import Verif.Lemmas.Tm.Ph2b_9
import Verif.Lemmas.Tm.Ph2c_0
import Verif.Lemmas.Tm.Ph2c_1
import Verif.Lemmas.Tm.Ph2c_2
import Verif.Lemmas.Tm.Ph2c_3
import Verif.Lemmas.Tm.Ph2c_4
import Verif.Lemmas.Tm.Ph2c_5
import Verif.Lemmas.Tm.Ph2c_6
import Verif.Lemmas.Tm.Ph2c_7
import Verif.Lemmas.Tm.Ph2c_8
import Verif.Lemmas.Tm.Ph2c_9
import Verif.Lemmas.Tm.Ph2c_10
import Verif.Lemmas.Tm.Ph2c_11
import Verif.Lemmas.Tm.Ph2c_12
import Verif.Lemmas.Tm.Ph2c_13
import Verif.Lemmas.Tm.Ph2c_14
import Verif.Lemmas.Tm.Cover2

/-! T(p, h) in region 2a: the whole fans. -/

namespace If97.Tm
set_option maxRecDepth 100000

theorem ph2a_0 : Good (Rf RPh2a q0 q1) 92800 1 407200 2000000 1 4 := okPh2a sk0_ok q0 q1 ph2a_t0 ph2a_c0
theorem ph2a_1 : Good (Rf RPh2a q0 q1) 92800 1 721600 4000000 3 4 := okPh2a sk0_ok q0 q1 ph2a_t1 ph2a_c1
theorem ph2a_2 : Good (Rf RPh2a q0 q1) 92800 1 907200 4000000 3 4 := okPh2a sk0_ok q0 q1 ph2a_t2 ph2a_c2
theorem ph2a_3 : Good (Rf RPh2a q0 q2) 150000 1 650000 2000000 1 4 := okPh2a sk1_ok q0 q2 ph2a_t3 ph2a_c3
theorem ph2a_4 : Good (Rf RPh2a q0 q2) 150000 1 1150000 4000000 5 8 := okPh2a sk1_ok q0 q2 ph2a_t4 ph2a_c4
theorem ph2a_5 : Good (Rf RPh2a q0 q2) 150000 1 1150000 4000000 13 16 := okPh2a sk1_ok q0 q2 ph2a_t5 ph2a_c5
theorem ph2a_6 : Good (Rf RPh2a q0 q2) 150000 1 1150000 4000000 29 32 := okPh2a sk1_ok q0 q2 ph2a_t6 ph2a_c6
theorem ph2a_7 : Good (Rf RPh2a q0 q2) 150000 1 1150000 4000000 61 64 := okPh2a sk1_ok q0 q2 ph2a_t7 ph2a_c7
theorem ph2a_8 : Good (Rf RPh2a q0 q2) 150000 1 1150000 4000000 125 128 := okPh2a sk1_ok q0 q2 ph2a_t8 ph2a_c8
theorem ph2a_9 : Good (Rf RPh2a q0 q2) 150000 1 1150000 4000000 505 512 := okPh2a sk1_ok q0 q2 ph2a_t9 ph2a_c9
theorem ph2a_10 : Good (Rf RPh2a q0 q2) 150000 1 1150000 4000000 507 512 := okPh2a sk1_ok q0 q2 ph2a_t10 ph2a_c10
theorem ph2a_11 : Good (Rf RPh2a q0 q2) 150000 1 1150000 4000000 255 256 := okPh2a sk1_ok q0 q2 ph2a_t11 ph2a_c11
theorem ph2a_12 : Good (Rf RPh2a q0 q2) 150000 1 1450000 4000000 3 4 := okPh2a sk1_ok q0 q2 ph2a_t12 ph2a_c12
theorem ph2a_13 : Good (Rf RPh2a q0 q3) 200000 1 1000000 2000000 1 4 := okPh2a sk2_ok q0 q3 ph2a_t13 ph2a_c13
theorem ph2a_14 : Good (Rf RPh2a q0 q3) 200000 1 1800000 4000000 3 4 := okPh2a sk2_ok q0 q3 ph2a_t14 ph2a_c14
theorem ph2a_15 : Good (Rf RPh2a q0 q3) 200000 1 2200000 4000000 3 4 := okPh2a sk2_ok q0 q3 ph2a_t15 ph2a_c15
theorem ph2a_16 : Good (Rf RPh2a q0 q4) 250000 1 1450000 2000000 1 4 := okPh2a sk3_ok q0 q4 ph2a_t16 ph2a_c16
theorem ph2a_17 : Good (Rf RPh2a q0 q4) 250000 1 2650000 4000000 5 8 := okPh2a sk3_ok q0 q4 ph2a_t17 ph2a_c17
theorem ph2a_18 : Good (Rf RPh2a q0 q4) 250000 1 2650000 4000000 13 16 := okPh2a sk3_ok q0 q4 ph2a_t18 ph2a_c18
theorem ph2a_19 : Good (Rf RPh2a q0 q4) 250000 1 2650000 4000000 15 16 := okPh2a sk3_ok q0 q4 ph2a_t19 ph2a_c19
theorem ph2a_20 : Good (Rf RPh2a q0 q4) 250000 1 3150000 4000000 5 8 := okPh2a sk3_ok q0 q4 ph2a_t20 ph2a_c20
theorem ph2a_21 : Good (Rf RPh2a q0 q4) 250000 1 3150000 4000000 13 16 := okPh2a sk3_ok q0 q4 ph2a_t21 ph2a_c21
theorem ph2a_22 : Good (Rf RPh2a q0 q4) 250000 1 3150000 4000000 29 32 := okPh2a sk3_ok q0 q4 ph2a_t22 ph2a_c22
theorem ph2a_23 : Good (Rf RPh2a q0 q4) 250000 1 3150000 4000000 61 64 := okPh2a sk3_ok q0 q4 ph2a_t23 ph2a_c23
theorem ph2a_24 : Good (Rf RPh2a q0 q4) 250000 1 3150000 4000000 125 128 := okPh2a sk3_ok q0 q4 ph2a_t24 ph2a_c24
theorem ph2a_25 : Good (Rf RPh2a q0 q4) 250000 1 3150000 4000000 253 256 := okPh2a sk3_ok q0 q4 ph2a_t25 ph2a_c25
theorem ph2a_26 : Good (Rf RPh2a q0 q4) 250000 1 3150000 4000000 255 256 := okPh2a sk3_ok q0 q4 ph2a_t26 ph2a_c26
theorem ph2a_27 : Good (Rf RPh2a q0 q5) 250000 1 1950000 2000000 1 4 := okPh2a sk4_ok q0 q5 ph2a_t27 ph2a_c27
theorem ph2a_28 : Good (Rf RPh2a q0 q5) 250000 1 3650000 4000000 5 8 := okPh2a sk4_ok q0 q5 ph2a_t28 ph2a_c28
theorem ph2a_29 : Good (Rf RPh2a q0 q5) 250000 1 3650000 4000000 13 16 := okPh2a sk4_ok q0 q5 ph2a_t29 ph2a_c29
theorem ph2a_30 : Good (Rf RPh2a q0 q5) 250000 1 3650000 4000000 29 32 := okPh2a sk4_ok q0 q5 ph2a_t30 ph2a_c30
theorem ph2a_31 : Good (Rf RPh2a q0 q5) 250000 1 3650000 4000000 61 64 := okPh2a sk4_ok q0 q5 ph2a_t31 ph2a_c31
theorem ph2a_32 : Good (Rf RPh2a q0 q5) 250000 1 3650000 4000000 125 128 := okPh2a sk4_ok q0 q5 ph2a_t32 ph2a_c32
theorem ph2a_33 : Good (Rf RPh2a q0 q5) 250000 1 3650000 4000000 253 256 := okPh2a sk4_ok q0 q5 ph2a_t33 ph2a_c33
theorem ph2a_34 : Good (Rf RPh2a q0 q5) 250000 1 3650000 4000000 255 256 := okPh2a sk4_ok q0 q5 ph2a_t34 ph2a_c34
theorem ph2a_35 : Good (Rf RPh2a q0 q5) 250000 1 4150000 4000000 3 4 := okPh2a sk4_ok q0 q5 ph2a_t35 ph2a_c35
theorem ph2a_36 : Good (Rf RPh2a q0 q6) 314220 1 2514220 2000000 1 4 := okPh2a sk5_ok q0 q6 ph2a_t36 ph2a_c36
theorem ph2a_37 : Good (Rf RPh2a q0 q6) 314220 1 4714220 4000000 5 8 := okPh2a sk5_ok q0 q6 ph2a_t37 ph2a_c37
theorem ph2a_38 : Good (Rf RPh2a q0 q6) 314220 1 4714220 4000000 7 8 := okPh2a sk5_ok q0 q6 ph2a_t38 ph2a_c38
theorem ph2a_39 : Good (Rf RPh2a q0 q6) 314220 1 5342660 4000000 5 8 := okPh2a sk5_ok q0 q6 ph2a_t39 ph2a_c39
theorem ph2a_40 : Good (Rf RPh2a q0 q6) 314220 1 5342660 4000000 13 16 := okPh2a sk5_ok q0 q6 ph2a_t40 ph2a_c40
theorem ph2a_41 : Good (Rf RPh2a q0 q6) 314220 1 5342660 4000000 29 32 := okPh2a sk5_ok q0 q6 ph2a_t41 ph2a_c41
theorem ph2a_42 : Good (Rf RPh2a q0 q6) 314220 1 5342660 4000000 61 64 := okPh2a sk5_ok q0 q6 ph2a_t42 ph2a_c42
theorem ph2a_43 : Good (Rf RPh2a q0 q6) 314220 1 10371100 8000000 63 64 := okPh2a sk5_ok q0 q6 ph2a_t43 ph2a_c43
theorem ph2a_44 : Good (Rf RPh2a q0 q6) 314220 1 21684860 16000000 63 64 := okPh2a sk5_ok q0 q6 ph2a_t44 ph2a_c44
theorem ph2a_45 : Good (Rf RPh2a q0 q6) 314220 1 22313300 16000000 63 64 := okPh2a sk5_ok q0 q6 ph2a_t45 ph2a_c45
theorem ph2a_root0 : Good (Rf RPh2a q0 q1) 92800 1 407200 2000000 1 2 :=
  (Good.y ph2a_0 (Good.x ph2a_1 ph2a_2 rfl rfl rfl) rfl rfl rfl)
theorem ph2a_root1 : Good (Rf RPh2a q0 q2) 150000 1 650000 2000000 1 2 :=
  (Good.y ph2a_3 (Good.x (Good.y ph2a_4 (Good.y ph2a_5 (Good.y ph2a_6 (Good.y ph2a_7 (Good.y ph2a_8 (Good.y (Good.y ph2a_9 ph2a_10 rfl rfl rfl) ph2a_11 rfl rfl rfl) rfl rfl rfl) rfl rfl rfl) rfl rfl rfl) rfl rfl rfl) rfl rfl rfl) ph2a_12 rfl rfl rfl) rfl rfl rfl)
theorem ph2a_root2 : Good (Rf RPh2a q0 q3) 200000 1 1000000 2000000 1 2 :=
  (Good.y ph2a_13 (Good.x ph2a_14 ph2a_15 rfl rfl rfl) rfl rfl rfl)
theorem ph2a_root3 : Good (Rf RPh2a q0 q4) 250000 1 1450000 2000000 1 2 :=
  (Good.y ph2a_16 (Good.x (Good.y ph2a_17 (Good.y ph2a_18 ph2a_19 rfl rfl rfl) rfl rfl rfl) (Good.y ph2a_20 (Good.y ph2a_21 (Good.y ph2a_22 (Good.y ph2a_23 (Good.y ph2a_24 (Good.y ph2a_25 ph2a_26 rfl rfl rfl) rfl rfl rfl) rfl rfl rfl) rfl rfl rfl) rfl rfl rfl) rfl rfl rfl) rfl rfl rfl) rfl rfl rfl)
theorem ph2a_root4 : Good (Rf RPh2a q0 q5) 250000 1 1950000 2000000 1 2 :=
  (Good.y ph2a_27 (Good.x (Good.y ph2a_28 (Good.y ph2a_29 (Good.y ph2a_30 (Good.y ph2a_31 (Good.y ph2a_32 (Good.y ph2a_33 ph2a_34 rfl rfl rfl) rfl rfl rfl) rfl rfl rfl) rfl rfl rfl) rfl rfl rfl) rfl rfl rfl) ph2a_35 rfl rfl rfl) rfl rfl rfl)
theorem ph2a_root5 : Good (Rf RPh2a q0 q6) 314220 1 2514220 2000000 1 2 :=
  (Good.y ph2a_36 (Good.x (Good.y ph2a_37 ph2a_38 rfl rfl rfl) (Good.y ph2a_39 (Good.y ph2a_40 (Good.y ph2a_41 (Good.y ph2a_42 (Good.x ph2a_43 (Good.x ph2a_44 ph2a_45 rfl rfl rfl) rfl rfl rfl) rfl rfl rfl) rfl rfl rfl) rfl rfl rfl) rfl rfl rfl) rfl rfl rfl) rfl rfl rfl)

end If97.Tm

/-! T(p, h) in region 2b: the whole fans. -/

namespace If97.Tm
set_option maxRecDepth 100000

theorem ph2b_0 : Good (Rf RPh2b q0 q7) 185800 1 3014200 2000000 1 4 := okPh2b sk6_ok q0 q7 ph2b_t0 ph2b_c0
theorem ph2b_1 : Good (Rf RPh2b q0 q7) 185800 1 5842600 4000000 3 4 := okPh2b sk6_ok q0 q7 ph2b_t1 ph2b_c1
theorem ph2b_2 : Good (Rf RPh2b q0 q7) 185800 1 6214200 4000000 3 4 := okPh2b sk6_ok q0 q7 ph2b_t2 ph2b_c2
theorem ph2b_3 : Good (Rf RPh2b q0 q8) 200000 1 3400000 2000000 1 4 := okPh2b sk7_ok q0 q8 ph2b_t3 ph2b_c3
theorem ph2b_4 : Good (Rf RPh2b q0 q8) 200000 1 6600000 4000000 5 8 := okPh2b sk7_ok q0 q8 ph2b_t4 ph2b_c4
theorem ph2b_5 : Good (Rf RPh2b q0 q8) 200000 1 6600000 4000000 13 16 := okPh2b sk7_ok q0 q8 ph2b_t5 ph2b_c5
theorem ph2b_6 : Good (Rf RPh2b q0 q8) 200000 1 6600000 4000000 29 32 := okPh2b sk7_ok q0 q8 ph2b_t6 ph2b_c6
theorem ph2b_7 : Good (Rf RPh2b q0 q8) 200000 1 6600000 4000000 61 64 := okPh2b sk7_ok q0 q8 ph2b_t7 ph2b_c7
theorem ph2b_8 : Good (Rf RPh2b q0 q8) 200000 1 6600000 4000000 63 64 := okPh2b sk7_ok q0 q8 ph2b_t8 ph2b_c8
theorem ph2b_9 : Good (Rf RPh2b q0 q8) 200000 1 7000000 4000000 5 8 := okPh2b sk7_ok q0 q8 ph2b_t9 ph2b_c9
theorem ph2b_10 : Good (Rf RPh2b q0 q8) 200000 1 7000000 4000000 13 16 := okPh2b sk7_ok q0 q8 ph2b_t10 ph2b_c10
theorem ph2b_11 : Good (Rf RPh2b q0 q8) 200000 1 7000000 4000000 15 16 := okPh2b sk7_ok q0 q8 ph2b_t11 ph2b_c11
theorem ph2b_12 : Good (Rf RPh2b q8 q9) 200000 1 3400000 2000000 1 4 := okPh2b sk7_ok q8 q9 ph2b_t12 ph2b_c12
theorem ph2b_13 : Good (Rf RPh2b q8 q9) 200000 1 3400000 2000000 3 4 := okPh2b sk7_ok q8 q9 ph2b_t13 ph2b_c13
theorem ph2b_14 : Good (Rf RPh2b q0 q10) 216300 1 3816300 2000000 1 4 := okPh2b sk8_ok q0 q10 ph2b_t14 ph2b_c14
theorem ph2b_15 : Good (Rf RPh2b q0 q10) 216300 1 7416300 4000000 5 8 := okPh2b sk8_ok q0 q10 ph2b_t15 ph2b_c15
theorem ph2b_16 : Good (Rf RPh2b q0 q10) 216300 1 7416300 4000000 13 16 := okPh2b sk8_ok q0 q10 ph2b_t16 ph2b_c16
theorem ph2b_17 : Good (Rf RPh2b q0 q10) 216300 1 7416300 4000000 29 32 := okPh2b sk8_ok q0 q10 ph2b_t17 ph2b_c17
theorem ph2b_18 : Good (Rf RPh2b q0 q10) 216300 1 7416300 4000000 61 64 := okPh2b sk8_ok q0 q10 ph2b_t18 ph2b_c18
theorem ph2b_19 : Good (Rf RPh2b q0 q10) 216300 1 7416300 4000000 125 128 := okPh2b sk8_ok q0 q10 ph2b_t19 ph2b_c19
theorem ph2b_20 : Good (Rf RPh2b q0 q10) 216300 1 7416300 4000000 127 128 := okPh2b sk8_ok q0 q10 ph2b_t20 ph2b_c20
theorem ph2b_21 : Good (Rf RPh2b q0 q10) 216300 1 7848900 4000000 3 4 := okPh2b sk8_ok q0 q10 ph2b_t21 ph2b_c21
theorem ph2b_22 : Good (Rf RPh2b q10 q11) 216300 1 3816300 2000000 1 2 := okPh2b sk8_ok q10 q11 ph2b_t22 ph2b_c22
theorem ph2b_23 : Good (Rf RPh2b q0 q12) 283700 1 4316300 2000000 1 4 := okPh2b sk9_ok q0 q12 ph2b_t23 ph2b_c23
theorem ph2b_24 : Good (Rf RPh2b q0 q12) 283700 1 8348900 4000000 3 4 := okPh2b sk9_ok q0 q12 ph2b_t24 ph2b_c24
theorem ph2b_25 : Good (Rf RPh2b q0 q12) 283700 1 8916300 4000000 3 4 := okPh2b sk9_ok q0 q12 ph2b_t25 ph2b_c25
theorem ph2b_26 : Good (Rf RPh2b q12 q13) 283700 1 4316300 2000000 1 2 := okPh2b sk9_ok q12 q13 ph2b_t26 ph2b_c26
theorem ph2b_27 : Good (Rf RPh2b q0 q14) 400000 1 5000000 2000000 1 4 := okPh2b sk10_ok q0 q14 ph2b_t27 ph2b_c27
theorem ph2b_28 : Good (Rf RPh2b q0 q14) 400000 1 9600000 4000000 5 8 := okPh2b sk10_ok q0 q14 ph2b_t28 ph2b_c28
theorem ph2b_29 : Good (Rf RPh2b q0 q14) 400000 1 9600000 4000000 7 8 := okPh2b sk10_ok q0 q14 ph2b_t29 ph2b_c29
theorem ph2b_30 : Good (Rf RPh2b q0 q14) 400000 1 10400000 4000000 5 8 := okPh2b sk10_ok q0 q14 ph2b_t30 ph2b_c30
theorem ph2b_31 : Good (Rf RPh2b q0 q14) 400000 1 10400000 4000000 13 16 := okPh2b sk10_ok q0 q14 ph2b_t31 ph2b_c31
theorem ph2b_32 : Good (Rf RPh2b q0 q14) 400000 1 10400000 4000000 15 16 := okPh2b sk10_ok q0 q14 ph2b_t32 ph2b_c32
theorem ph2b_33 : Good (Rf RPh2b q14 q15) 400000 1 5000000 2000000 1 4 := okPh2b sk10_ok q14 q15 ph2b_t33 ph2b_c33
theorem ph2b_34 : Good (Rf RPh2b q14 q15) 400000 1 5000000 2000000 3 4 := okPh2b sk10_ok q14 q15 ph2b_t34 ph2b_c34
theorem ph2b_35 : Good (Rf RPh2b q0 q16) 462278 1 11262278 4000000 1 4 := okPh2b sk11_ok q0 q16 ph2b_t35 ph2b_c35
theorem ph2b_36 : Good (Rf RPh2b q0 q16) 462278 1 12186834 4000000 1 8 := okPh2b sk11_ok q0 q16 ph2b_t36 ph2b_c36
theorem ph2b_37 : Good (Rf RPh2b q0 q16) 462278 1 12186834 4000000 3 8 := okPh2b sk11_ok q0 q16 ph2b_t37 ph2b_c37
theorem ph2b_38 : Good (Rf RPh2b q0 q16) 462278 1 11262278 4000000 5 8 := okPh2b sk11_ok q0 q16 ph2b_t38 ph2b_c38
theorem ph2b_39 : Good (Rf RPh2b q0 q16) 462278 1 11262278 4000000 13 16 := okPh2b sk11_ok q0 q16 ph2b_t39 ph2b_c39
theorem ph2b_40 : Good (Rf RPh2b q0 q16) 462278 1 11262278 4000000 15 16 := okPh2b sk11_ok q0 q16 ph2b_t40 ph2b_c40
theorem ph2b_41 : Good (Rf RPh2b q0 q16) 462278 1 12186834 4000000 5 8 := okPh2b sk11_ok q0 q16 ph2b_t41 ph2b_c41
theorem ph2b_42 : Good (Rf RPh2b q0 q16) 462278 1 12186834 4000000 13 16 := okPh2b sk11_ok q0 q16 ph2b_t42 ph2b_c42
theorem ph2b_43 : Good (Rf RPh2b q0 q16) 462278 1 12186834 4000000 29 32 := okPh2b sk11_ok q0 q16 ph2b_t43 ph2b_c43
theorem ph2b_44 : Good (Rf RPh2b q0 q16) 462278 1 12186834 4000000 31 32 := okPh2b sk11_ok q0 q16 ph2b_t44 ph2b_c44
theorem ph2b_45 : Good (Rf RPh2b q16 q17) 462278 1 5862278 2000000 1 4 := okPh2b sk11_ok q16 q17 ph2b_t45 ph2b_c45
theorem ph2b_46 : Good (Rf RPh2b q16 q17) 462278 1 5862278 2000000 3 4 := okPh2b sk11_ok q16 q17 ph2b_t46 ph2b_c46
theorem ph2b_root0 : Good (Rf RPh2b q0 q7) 185800 1 3014200 2000000 1 2 :=
  (Good.y ph2b_0 (Good.x ph2b_1 ph2b_2 rfl rfl rfl) rfl rfl rfl)
theorem ph2b_root1 : Good (Rf RPh2b q0 q8) 200000 1 3400000 2000000 1 2 :=
  (Good.y ph2b_3 (Good.x (Good.y ph2b_4 (Good.y ph2b_5 (Good.y ph2b_6 (Good.y ph2b_7 ph2b_8 rfl rfl rfl) rfl rfl rfl) rfl rfl rfl) rfl rfl rfl) (Good.y ph2b_9 (Good.y ph2b_10 ph2b_11 rfl rfl rfl) rfl rfl rfl) rfl rfl rfl) rfl rfl rfl)
theorem ph2b_root2 : Good (Rf RPh2b q8 q9) 200000 1 3400000 2000000 1 2 :=
  (Good.y ph2b_12 ph2b_13 rfl rfl rfl)
theorem ph2b_root3 : Good (Rf RPh2b q0 q10) 216300 1 3816300 2000000 1 2 :=
  (Good.y ph2b_14 (Good.x (Good.y ph2b_15 (Good.y ph2b_16 (Good.y ph2b_17 (Good.y ph2b_18 (Good.y ph2b_19 ph2b_20 rfl rfl rfl) rfl rfl rfl) rfl rfl rfl) rfl rfl rfl) rfl rfl rfl) ph2b_21 rfl rfl rfl) rfl rfl rfl)
theorem ph2b_root4 : Good (Rf RPh2b q10 q11) 216300 1 3816300 2000000 1 2 :=
  ph2b_22
theorem ph2b_root5 : Good (Rf RPh2b q0 q12) 283700 1 4316300 2000000 1 2 :=
  (Good.y ph2b_23 (Good.x ph2b_24 ph2b_25 rfl rfl rfl) rfl rfl rfl)
theorem ph2b_root6 : Good (Rf RPh2b q12 q13) 283700 1 4316300 2000000 1 2 :=
  ph2b_26
theorem ph2b_root7 : Good (Rf RPh2b q0 q14) 400000 1 5000000 2000000 1 2 :=
  (Good.y ph2b_27 (Good.x (Good.y ph2b_28 ph2b_29 rfl rfl rfl) (Good.y ph2b_30 (Good.y ph2b_31 ph2b_32 rfl rfl rfl) rfl rfl rfl) rfl rfl rfl) rfl rfl rfl)
theorem ph2b_root8 : Good (Rf RPh2b q14 q15) 400000 1 5000000 2000000 1 2 :=
  (Good.y ph2b_33 ph2b_34 rfl rfl rfl)
theorem ph2b_root9 : Good (Rf RPh2b q0 q16) 462278 1 5862278 2000000 1 2 :=
  (Good.y (Good.x ph2b_35 (Good.y ph2b_36 ph2b_37 rfl rfl rfl) rfl rfl rfl) (Good.x (Good.y ph2b_38 (Good.y ph2b_39 ph2b_40 rfl rfl rfl) rfl rfl rfl) (Good.y ph2b_41 (Good.y ph2b_42 (Good.y ph2b_43 ph2b_44 rfl rfl rfl) rfl rfl rfl) rfl rfl rfl) rfl rfl rfl) rfl rfl rfl)
theorem ph2b_root10 : Good (Rf RPh2b q16 q17) 462278 1 5862278 2000000 1 2 :=
  (Good.y ph2b_45 ph2b_46 rfl rfl rfl)

end If97.Tm

/-! T(p, h) in region 2c: the whole fans. -/

namespace If97.Tm
set_option maxRecDepth 100000

theorem ph2c_0 : Good (Rf RPh2c q0 q7) 185800 1 3014200 2000000 1 2 := okPh2c sk6_ok q0 q7 ph2c_t0 ph2c_c0
theorem ph2c_1 : Good (Rf RPh2c q0 q8) 200000 1 3400000 2000000 1 2 := okPh2c sk7_ok q0 q8 ph2c_t1 ph2c_c1
theorem ph2c_2 : Good (Rf RPh2c q8 q9) 200000 1 3400000 2000000 1 4 := okPh2c sk7_ok q8 q9 ph2c_t2 ph2c_c2
theorem ph2c_3 : Good (Rf RPh2c q8 q9) 200000 1 6600000 4000000 3 4 := okPh2c sk7_ok q8 q9 ph2c_t3 ph2c_c3
theorem ph2c_4 : Good (Rf RPh2c q8 q9) 200000 1 7000000 4000000 5 8 := okPh2c sk7_ok q8 q9 ph2c_t4 ph2c_c4
theorem ph2c_5 : Good (Rf RPh2c q8 q9) 200000 1 7000000 4000000 7 8 := okPh2c sk7_ok q8 q9 ph2c_t5 ph2c_c5
theorem ph2c_6 : Good (Rf RPh2c q0 q10) 216300 1 3816300 2000000 1 2 := okPh2c sk8_ok q0 q10 ph2c_t6 ph2c_c6
theorem ph2c_7 : Good (Rf RPh2c q10 q11) 216300 1 7416300 4000000 1 4 := okPh2c sk8_ok q10 q11 ph2c_t7 ph2c_c7
theorem ph2c_8 : Good (Rf RPh2c q10 q11) 216300 1 7848900 4000000 1 4 := okPh2c sk8_ok q10 q11 ph2c_t8 ph2c_c8
theorem ph2c_9 : Good (Rf RPh2c q10 q11) 216300 1 7416300 4000000 5 8 := okPh2c sk8_ok q10 q11 ph2c_t9 ph2c_c9
theorem ph2c_10 : Good (Rf RPh2c q10 q11) 216300 1 7416300 4000000 13 16 := okPh2c sk8_ok q10 q11 ph2c_t10 ph2c_c10
theorem ph2c_11 : Good (Rf RPh2c q10 q11) 216300 1 7416300 4000000 15 16 := okPh2c sk8_ok q10 q11 ph2c_t11 ph2c_c11
theorem ph2c_12 : Good (Rf RPh2c q10 q11) 216300 1 7848900 4000000 5 8 := okPh2c sk8_ok q10 q11 ph2c_t12 ph2c_c12
theorem ph2c_13 : Good (Rf RPh2c q10 q11) 216300 1 7848900 4000000 7 8 := okPh2c sk8_ok q10 q11 ph2c_t13 ph2c_c13
theorem ph2c_14 : Good (Rf RPh2c q0 q12) 283700 1 4316300 2000000 1 2 := okPh2c sk9_ok q0 q12 ph2c_t14 ph2c_c14
theorem ph2c_15 : Good (Rf RPh2c q12 q13) 283700 1 8348900 4000000 1 4 := okPh2c sk9_ok q12 q13 ph2c_t15 ph2c_c15
theorem ph2c_16 : Good (Rf RPh2c q12 q13) 283700 1 8916300 4000000 1 8 := okPh2c sk9_ok q12 q13 ph2c_t16 ph2c_c16
theorem ph2c_17 : Good (Rf RPh2c q12 q13) 283700 1 8916300 4000000 3 8 := okPh2c sk9_ok q12 q13 ph2c_t17 ph2c_c17
theorem ph2c_18 : Good (Rf RPh2c q12 q13) 283700 1 8348900 4000000 5 8 := okPh2c sk9_ok q12 q13 ph2c_t18 ph2c_c18
theorem ph2c_19 : Good (Rf RPh2c q12 q13) 283700 1 8348900 4000000 13 16 := okPh2c sk9_ok q12 q13 ph2c_t19 ph2c_c19
theorem ph2c_20 : Good (Rf RPh2c q12 q13) 283700 1 16414100 8000000 15 16 := okPh2c sk9_ok q12 q13 ph2c_t20 ph2c_c20
theorem ph2c_21 : Good (Rf RPh2c q12 q13) 283700 1 16981500 8000000 15 16 := okPh2c sk9_ok q12 q13 ph2c_t21 ph2c_c21
theorem ph2c_22 : Good (Rf RPh2c q12 q13) 283700 1 8916300 4000000 5 8 := okPh2c sk9_ok q12 q13 ph2c_t22 ph2c_c22
theorem ph2c_23 : Good (Rf RPh2c q12 q13) 283700 1 8916300 4000000 13 16 := okPh2c sk9_ok q12 q13 ph2c_t23 ph2c_c23
theorem ph2c_24 : Good (Rf RPh2c q12 q13) 283700 1 8916300 4000000 15 16 := okPh2c sk9_ok q12 q13 ph2c_t24 ph2c_c24
theorem ph2c_25 : Good (Rf RPh2c q0 q14) 400000 1 5000000 2000000 1 2 := okPh2c sk10_ok q0 q14 ph2c_t25 ph2c_c25
theorem ph2c_26 : Good (Rf RPh2c q14 q15) 400000 1 9600000 4000000 1 4 := okPh2c sk10_ok q14 q15 ph2c_t26 ph2c_c26
theorem ph2c_27 : Good (Rf RPh2c q14 q15) 400000 1 10400000 4000000 1 4 := okPh2c sk10_ok q14 q15 ph2c_t27 ph2c_c27
theorem ph2c_28 : Good (Rf RPh2c q14 q15) 400000 1 9600000 4000000 5 8 := okPh2c sk10_ok q14 q15 ph2c_t28 ph2c_c28
theorem ph2c_29 : Good (Rf RPh2c q14 q15) 400000 1 9600000 4000000 13 16 := okPh2c sk10_ok q14 q15 ph2c_t29 ph2c_c29
theorem ph2c_30 : Good (Rf RPh2c q14 q15) 400000 1 18800000 8000000 15 16 := okPh2c sk10_ok q14 q15 ph2c_t30 ph2c_c30
theorem ph2c_31 : Good (Rf RPh2c q14 q15) 400000 1 19600000 8000000 15 16 := okPh2c sk10_ok q14 q15 ph2c_t31 ph2c_c31
theorem ph2c_32 : Good (Rf RPh2c q14 q15) 400000 1 10400000 4000000 5 8 := okPh2c sk10_ok q14 q15 ph2c_t32 ph2c_c32
theorem ph2c_33 : Good (Rf RPh2c q14 q15) 400000 1 10400000 4000000 13 16 := okPh2c sk10_ok q14 q15 ph2c_t33 ph2c_c33
theorem ph2c_34 : Good (Rf RPh2c q14 q15) 400000 1 20400000 8000000 29 32 := okPh2c sk10_ok q14 q15 ph2c_t34 ph2c_c34
theorem ph2c_35 : Good (Rf RPh2c q14 q15) 400000 1 20400000 8000000 61 64 := okPh2c sk10_ok q14 q15 ph2c_t35 ph2c_c35
theorem ph2c_36 : Good (Rf RPh2c q14 q15) 400000 1 20400000 8000000 125 128 := okPh2c sk10_ok q14 q15 ph2c_t36 ph2c_c36
theorem ph2c_37 : Good (Rf RPh2c q14 q15) 400000 1 20400000 8000000 127 128 := okPh2c sk10_ok q14 q15 ph2c_t37 ph2c_c37
theorem ph2c_38 : Good (Rf RPh2c q14 q15) 400000 1 21200000 8000000 15 16 := okPh2c sk10_ok q14 q15 ph2c_t38 ph2c_c38
theorem ph2c_39 : Good (Rf RPh2c q0 q16) 462278 1 5862278 2000000 1 2 := okPh2c sk11_ok q0 q16 ph2c_t39 ph2c_c39
theorem ph2c_40 : Good (Rf RPh2c q16 q17) 462278 1 11262278 4000000 1 4 := okPh2c sk11_ok q16 q17 ph2c_t40 ph2c_c40
theorem ph2c_41 : Good (Rf RPh2c q16 q17) 462278 1 12186834 4000000 1 4 := okPh2c sk11_ok q16 q17 ph2c_t41 ph2c_c41
theorem ph2c_42 : Good (Rf RPh2c q16 q17) 462278 1 11262278 4000000 5 8 := okPh2c sk11_ok q16 q17 ph2c_t42 ph2c_c42
theorem ph2c_43 : Good (Rf RPh2c q16 q17) 462278 1 22062278 8000000 13 16 := okPh2c sk11_ok q16 q17 ph2c_t43 ph2c_c43
theorem ph2c_44 : Good (Rf RPh2c q16 q17) 462278 1 22986834 8000000 13 16 := okPh2c sk11_ok q16 q17 ph2c_t44 ph2c_c44
theorem ph2c_45 : Good (Rf RPh2c q16 q17) 462278 1 11262278 4000000 29 32 := okPh2c sk11_ok q16 q17 ph2c_t45 ph2c_c45
theorem ph2c_46 : Good (Rf RPh2c q16 q17) 462278 1 22062278 8000000 61 64 := okPh2c sk11_ok q16 q17 ph2c_t46 ph2c_c46
theorem ph2c_47 : Good (Rf RPh2c q16 q17) 462278 1 22062278 8000000 125 128 := okPh2c sk11_ok q16 q17 ph2c_t47 ph2c_c47
theorem ph2c_48 : Good (Rf RPh2c q16 q17) 462278 1 22062278 8000000 127 128 := okPh2c sk11_ok q16 q17 ph2c_t48 ph2c_c48
theorem ph2c_49 : Good (Rf RPh2c q16 q17) 462278 1 22986834 8000000 61 64 := okPh2c sk11_ok q16 q17 ph2c_t49 ph2c_c49
theorem ph2c_50 : Good (Rf RPh2c q16 q17) 462278 1 22986834 8000000 63 64 := okPh2c sk11_ok q16 q17 ph2c_t50 ph2c_c50
theorem ph2c_51 : Good (Rf RPh2c q16 q17) 462278 1 12186834 4000000 5 8 := okPh2c sk11_ok q16 q17 ph2c_t51 ph2c_c51
theorem ph2c_52 : Good (Rf RPh2c q16 q17) 462278 1 23911390 8000000 13 16 := okPh2c sk11_ok q16 q17 ph2c_t52 ph2c_c52
theorem ph2c_53 : Good (Rf RPh2c q16 q17) 462278 1 24835946 8000000 13 16 := okPh2c sk11_ok q16 q17 ph2c_t53 ph2c_c53
theorem ph2c_54 : Good (Rf RPh2c q16 q17) 462278 1 12186834 4000000 29 32 := okPh2c sk11_ok q16 q17 ph2c_t54 ph2c_c54
theorem ph2c_55 : Good (Rf RPh2c q16 q17) 462278 1 23911390 8000000 31 32 := okPh2c sk11_ok q16 q17 ph2c_t55 ph2c_c55
theorem ph2c_56 : Good (Rf RPh2c q16 q17) 462278 1 24835946 8000000 31 32 := okPh2c sk11_ok q16 q17 ph2c_t56 ph2c_c56
theorem ph2c_root0 : Good (Rf RPh2c q0 q7) 185800 1 3014200 2000000 1 2 :=
  ph2c_0
theorem ph2c_root1 : Good (Rf RPh2c q0 q8) 200000 1 3400000 2000000 1 2 :=
  ph2c_1
theorem ph2c_root2 : Good (Rf RPh2c q8 q9) 200000 1 3400000 2000000 1 2 :=
  (Good.y ph2c_2 (Good.x ph2c_3 (Good.y ph2c_4 ph2c_5 rfl rfl rfl) rfl rfl rfl) rfl rfl rfl)
theorem ph2c_root3 : Good (Rf RPh2c q0 q10) 216300 1 3816300 2000000 1 2 :=
  ph2c_6
theorem ph2c_root4 : Good (Rf RPh2c q10 q11) 216300 1 3816300 2000000 1 2 :=
  (Good.y (Good.x ph2c_7 ph2c_8 rfl rfl rfl) (Good.x (Good.y ph2c_9 (Good.y ph2c_10 ph2c_11 rfl rfl rfl) rfl rfl rfl) (Good.y ph2c_12 ph2c_13 rfl rfl rfl) rfl rfl rfl) rfl rfl rfl)
theorem ph2c_root5 : Good (Rf RPh2c q0 q12) 283700 1 4316300 2000000 1 2 :=
  ph2c_14
theorem ph2c_root6 : Good (Rf RPh2c q12 q13) 283700 1 4316300 2000000 1 2 :=
  (Good.y (Good.x ph2c_15 (Good.y ph2c_16 ph2c_17 rfl rfl rfl) rfl rfl rfl) (Good.x (Good.y ph2c_18 (Good.y ph2c_19 (Good.x ph2c_20 ph2c_21 rfl rfl rfl) rfl rfl rfl) rfl rfl rfl) (Good.y ph2c_22 (Good.y ph2c_23 ph2c_24 rfl rfl rfl) rfl rfl rfl) rfl rfl rfl) rfl rfl rfl)
theorem ph2c_root7 : Good (Rf RPh2c q0 q14) 400000 1 5000000 2000000 1 2 :=
  ph2c_25
theorem ph2c_root8 : Good (Rf RPh2c q14 q15) 400000 1 5000000 2000000 1 2 :=
  (Good.y (Good.x ph2c_26 ph2c_27 rfl rfl rfl) (Good.x (Good.y ph2c_28 (Good.y ph2c_29 (Good.x ph2c_30 ph2c_31 rfl rfl rfl) rfl rfl rfl) rfl rfl rfl) (Good.y ph2c_32 (Good.y ph2c_33 (Good.x (Good.y ph2c_34 (Good.y ph2c_35 (Good.y ph2c_36 ph2c_37 rfl rfl rfl) rfl rfl rfl) rfl rfl rfl) ph2c_38 rfl rfl rfl) rfl rfl rfl) rfl rfl rfl) rfl rfl rfl) rfl rfl rfl)
theorem ph2c_root9 : Good (Rf RPh2c q0 q16) 462278 1 5862278 2000000 1 2 :=
  ph2c_39
theorem ph2c_root10 : Good (Rf RPh2c q16 q17) 462278 1 5862278 2000000 1 2 :=
  (Good.y (Good.x ph2c_40 ph2c_41 rfl rfl rfl) (Good.x (Good.y ph2c_42 (Good.y (Good.x ph2c_43 ph2c_44 rfl rfl rfl) (Good.y ph2c_45 (Good.x (Good.y ph2c_46 (Good.y ph2c_47 ph2c_48 rfl rfl rfl) rfl rfl rfl) (Good.y ph2c_49 ph2c_50 rfl rfl rfl) rfl rfl rfl) rfl rfl rfl) rfl rfl rfl) rfl rfl rfl) (Good.y ph2c_51 (Good.y (Good.x ph2c_52 ph2c_53 rfl rfl rfl) (Good.y ph2c_54 (Good.x ph2c_55 ph2c_56 rfl rfl rfl) rfl rfl rfl) rfl rfl rfl) rfl rfl rfl) rfl rfl rfl) rfl rfl rfl)

end If97.Tm

/-! The equation T(p, h) of region 2 on the whole region. -/

namespace If97.Tm

variable {p T : ℝ} (h : InRange 2 p T) (hp : 0.000611212677444 ≤ p)

theorem eH2 {β τ : ℝ} : h2 β τ = G2.H (β ^ 4) (540 / τ) := by
  simp only [h2, Gibbs.H, gasR, G2, idealGibbs, div_one]
  rw [div_div_cancel₀ (by norm_num)]

include h hp

theorem ph2a_back (h4 : p ≤ 4) : |ph2T_reg2a p (G2.H p T) - T| ≤ 0.01 := by
  obtain ⟨β, τ, a, b, c, d, e, rfl, rfl, -, f, -⟩ := coords2 h hp
  have := cover2a ph2a_root0 ph2a_root1 ph2a_root2 ph2a_root3 ph2a_root4 ph2a_root5 e c d a (f h4)
  rw [RPh2a, eH2] at this
  exact this.trans (by norm_num)

theorem ph2b_back (h4 : 4 ≤ p) (hs : enthalpy_2bc p ≤ G2.H p T) : |ph2T_reg2b p (G2.H p T) - T| ≤ 0.01 := by
  obtain ⟨β, τ, a, b, c, d, e, rfl, rfl, -, -, f⟩ := coords2 h hp
  have := cover2u ph2b_root0 ph2b_root1 ph2b_root2 ph2b_root3 ph2b_root4 ph2b_root5 ph2b_root6 ph2b_root7 ph2b_root8
    ph2b_root9 ph2b_root10 e c d (f h4) b
  rw [RPh2b, eH2] at this
  exact (this (not_lt.2 hs)).trans (by norm_num)

theorem ph2c_back (h4 : 4 ≤ p) (hs : G2.H p T < enthalpy_2bc p) : |ph2T_reg2c p (G2.H p T) - T| ≤ 0.025 := by
  obtain ⟨β, τ, a, b, c, d, e, rfl, rfl, -, -, f⟩ := coords2 h hp
  have := cover2u ph2c_root0 ph2c_root1 ph2c_root2 ph2c_root3 ph2c_root4 ph2c_root5 ph2c_root6 ph2c_root7 ph2c_root8
    ph2c_root9 ph2c_root10 e c d (f h4) b
  rw [RPh2c, eH2] at this
  exact (this hs).trans (by norm_num)

theorem ph2_back : |ph2T_reg2 p (G2.H p T) - T| ≤ 0.025 ∧
    (p ≤ 4 ∨ enthalpy_2bc p ≤ G2.H p T → |ph2T_reg2 p (G2.H p T) - T| ≤ 0.01) := by
  have w : (0.01 : ℝ) ≤ 0.025 := by norm_num
  by_cases h4 : 4 < p
  · by_cases hs : G2.H p T < enthalpy_2bc p
    · have e : ph2T_reg2 p (G2.H p T) = ph2T_reg2c p (G2.H p T) := by
        have h4' : (4.0 : ℝ) < p := by norm_num; exact h4
        simp [ph2T_reg2, h4', hs]
      rw [e]
      exact ⟨ph2c_back h hp h4.le hs, fun k => k.elim (fun k => absurd k (not_le.2 h4)) fun k => absurd hs (not_lt.2 k)⟩
    · have e : ph2T_reg2 p (G2.H p T) = ph2T_reg2b p (G2.H p T) := by
        have h4' : (4.0 : ℝ) < p := by norm_num; exact h4
        simp [ph2T_reg2, h4', hs]
      rw [e]
      have := ph2b_back h hp h4.le (not_lt.1 hs)
      exact ⟨this.trans w, fun _ => this⟩
  · have e : ph2T_reg2 p (G2.H p T) = ph2T_reg2a p (G2.H p T) := by
      have h4' : ¬ (4.0 : ℝ) < p := by norm_num; exact not_lt.1 h4
      simp [ph2T_reg2, h4']
    rw [e]
    have := ph2a_back h hp (not_lt.1 h4)
    exact ⟨this.trans w, fun _ => this⟩

end If97.Tm
