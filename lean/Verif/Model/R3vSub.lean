/-
Generated by tools/rs2lean.py from the Rust sources cited below.
Number type `F` is abstract; see Verif/Model/Num.lean for the conventions.
-/
import Verif.Model.Sat
import Verif.Model.Para
set_option linter.unusedVariables false

namespace If97
open Flt
variable {F : Type} [Add F] [Sub F] [Mul F] [Div F] [Neg F] [OfScientific F] [Flt F]

/-! ### src/r3/region3_v_subregion_pT.rs -/

/-- `src/r3/region3_v_subregion_pT.rs:18-23` pT2v_sum -/
def pT2v_sum (p : F) (T : F) (IJn : List (Int × Int × F)) (d : Para F) : F :=
  let p1 : F := powf (p / d.PS - d.a) d.c
  let t1 : F := powf (T / d.TS - d.b) d.d
  let v : F := poly_powi p1 t1 IJn
  powf v d.e * d.VS

/-- `src/r3/region3_v_subregion_pT.rs:26-31` pT2v_sum_steps -/
def pT2v_sum_steps (p : F) (T : F) (IJn : List (Int × Int × F)) (d : Para F) (steps : List (Nat × Nat)) : F :=
  let p1 : F := powf (p / d.PS - d.a) d.c
  let t1 : F := powf (T / d.TS - d.b) d.d
  let v : F := poly_powi_steps p1 t1 IJn steps
  powf v d.e * d.VS

/-- `src/r3/region3_v_subregion_pT.rs`:34-65 -/
def pT2v_3a_IJn : List (Int × Int × F) :=
  [ (-12, 5, 0.110879558823853e-2),
    (-12, 10, 0.572616740810616e3),
    (-12, 12, -0.767051948380852e5),
    (-10, 5, -0.253321069529674e-1),
    (-10, 10, 0.628008049345689e4),
    (-10, 12, 0.234105654131876e6),
    (-8, 5, 0.216867826045856),
    (-8, 8, -0.156237904341963e3),
    (-8, 10, -0.269893956176613e5),
    (-6, 1, -0.180407100085505e-3),
    (-5, 1, 0.116732227668261e-2),
    (-5, 5, 0.266987040856040e2),
    (-5, 10, 0.282776617243286e5),
    (-4, 8, -0.242431520029523e4),
    (-3, 0, 0.435217323022733e-3),
    (-3, 1, -0.122494831387441e-1),
    (-3, 3, 0.179357604019989e1),
    (-3, 6, 0.442729521058314e2),
    (-2, 0, -0.593223489018342e-2),
    (-2, 2, 0.453186261685774),
    (-2, 3, 0.135825703129140e1),
    (-1, 0, 0.408748415856745e-1),
    (-1, 1, 0.474686397863312),
    (-1, 2, 0.118646814997915e1),
    (0, 0, 0.546987265727549),
    (0, 1, 0.195266770452643),
    (1, 0, -0.502268790869663e-1),
    (1, 2, -0.369645308193377),
    (2, 0, 0.633828037528420e-2),
    (2, 2, 0.797441793901017e-1) ]

/-- `src/r3/region3_v_subregion_pT.rs:33-70` pT2v_3a -/
def pT2v_3a (p : F) (T : F) : F :=
  let d := { PS := 100.0, TS := 760.0, VS := 0.0024, a := 0.085, b := 0.817, c := 1.0, d := 1.0, e := 1.0 }
  pT2v_sum p T pT2v_3a_IJn d

/-- `src/r3/region3_v_subregion_pT.rs`:73-106 -/
def pT2v_3b_IJn : List (Int × Int × F) :=
  [ (-12, 10, -0.827670470003621e-1),
    (-12, 12, 0.416887126010565e2),
    (-10, 8, 0.483651982197059e-1),
    (-10, 14, -0.291032084950276e5),
    (-8, 8, -0.111422582236948e3),
    (-6, 5, -0.202300083904014e-1),
    (-6, 6, 0.294002509338515e3),
    (-6, 8, 0.140244997609658e3),
    (-5, 5, -0.344384158811459e3),
    (-5, 8, 0.361182452612149e3),
    (-5, 10, -0.140699677420738e4),
    (-4, 2, -0.202023902676481e-2),
    (-4, 4, 0.171346792457471e3),
    (-4, 5, -0.425597804058632e1),
    (-3, 0, 0.691346085000334e-5),
    (-3, 1, 0.151140509678925e-2),
    (-3, 2, -0.416375290166236e-1),
    (-3, 3, -0.413754957011042e2),
    (-3, 5, -0.506673295721637e2),
    (-2, 0, -0.572212965569023e-3),
    (-2, 2, 0.608817368401785e1),
    (-2, 5, 0.239600660256161e2),
    (-1, 0, 0.122261479925384e-1),
    (-1, 2, 0.216356057692938e1),
    (0, 0, 0.398198903368642),
    (0, 1, -0.116892827834085),
    (1, 0, -0.102845919373532),
    (1, 2, -0.492676637589284),
    (2, 0, 0.655540456406790e-1),
    (3, 2, -0.240462535078530),
    (4, 0, -0.269798180310075e-1),
    (4, 1, 0.128369435967012) ]

/-- `src/r3/region3_v_subregion_pT.rs:72-111` pT2v_3b -/
def pT2v_3b (p : F) (T : F) : F :=
  let d : Para F := { PS := 100.0, TS := 860.0, VS := 0.0041, a := 0.280, b := 0.779, c := 1.0, d := 1.0, e := 1.0 }
  pT2v_sum p T pT2v_3b_IJn d

/-- `src/r3/region3_v_subregion_pT.rs`:114-150 -/
def pT2v_3c_IJn : List (Int × Int × F) :=
  [ (-12, 6, 3.11967788763030),
    (-12, 8, 2.76713458847564e4),
    (-12, 10, 3.22583103403269e7),
    (-10, 6, -3.42416065095363e2),
    (-10, 8, -8.99732529907377e5),
    (-10, 10, -7.93892049821251e7),
    (-8, 5, 9.53193003217388e1),
    (-8, 6, 2.29784742345072e3),
    (-8, 7, 1.75336675322499e5),
    (-6, 8, 7.91214365222792e6),
    (-5, 1, 3.19933345844209e-5),
    (-5, 4, -6.59508863555767e1),
    (-5, 7, -8.33426563212851e5),
    (-4, 2, 6.45734680583292e-2),
    (-4, 8, -3.82031020570813e6),
    (-3, 0, 4.06398848470079e-5),
    (-3, 3, 3.10327498492008e1),
    (-2, 0, -8.92996718483724e-4),
    (-2, 4, 2.34604891591616e2),
    (-2, 5, 3.77515668966951e3),
    (-1, 0, 1.58646812591361e-2),
    (-1, 1, 7.07906336241843e-1),
    (-1, 2, 1.26016225146570e1),
    (0, 0, 7.36143655772152e-1),
    (0, 1, 6.76544268999101e-1),
    (0, 2, -1.78100588189137e1),
    (1, 0, -1.56531975531713e-1),
    (1, 2, 1.17707430048158e1),
    (2, 0, 8.40143653860447e-2),
    (2, 1, -1.86442467471949e-1),
    (2, 3, -4.40170203949645e1),
    (2, 7, 1.23290423502494e6),
    (3, 0, -2.40650039730845e-2),
    (3, 7, -1.07077716660869e6),
    (8, 1, 4.38319858566475e-2) ]

/-- `src/r3/region3_v_subregion_pT.rs:113-156` pT2v_3c -/
def pT2v_3c (p : F) (T : F) : F :=
  let d : Para F := { PS := 40.0, TS := 690.0, VS := 0.0022, a := 0.259, b := 0.903, c := 1.0, d := 1.0, e := 1.0 }
  pT2v_sum p T pT2v_3c_IJn d

/-- `src/r3/region3_v_subregion_pT.rs`:159-198 -/
def pT2v_3d_IJn : List (Int × Int × F) :=
  [ (-12, 4, -4.52484847171645e-10),
    (-12, 6, 3.15210389538801e-5),
    (-12, 7, -2.14991352047545e-3),
    (-12, 10, 5.08058874808345e2),
    (-12, 12, -1.27123036845932e7),
    (-12, 16, 1.15371133120497e12),
    (-10, 0, -1.97805728776273e-16),
    (-10, 2, 2.41554806033972e-11),
    (-10, 4, -1.56481703640525e-6),
    (-10, 6, 2.77211346836625e-3),
    (-10, 8, -2.03578994462286e1),
    (-10, 10, 1.44369489909053e6),
    (-10, 14, -4.11254217946539e10),
    (-8, 3, 6.23449786243773e-6),
    (-8, 7, -2.21774281146038e1),
    (-8, 8, -6.89315087933158e4),
    (-8, 10, -1.95419525060713e7),
    (-6, 6, 3.16373510564015e3),
    (-6, 8, 2.24040754426988e6),
    (-5, 1, -4.36701347922356e-6),
    (-5, 2, -4.04213852833996e-4),
    (-5, 5, -3.48153203414663e2),
    (-5, 7, -3.85294213555289e5),
    (-4, 0, 1.35203700099403e-7),
    (-4, 1, 1.34648383271089e-4),
    (-4, 7, 1.25031835351736e5),
    (-3, 2, 9.68123678455841e-2),
    (-3, 4, 2.25660517512438e2),
    (-2, 0, -1.90102435341872e-4),
    (-2, 1, -2.99628410819229e-2),
    (-1, 0, 5.00833915372121e-3),
    (-1, 1, 3.87842482998411e-1),
    (-1, 5, -1.38535367777182e3),
    (0, 0, 8.70745245971773e-1),
    (0, 2, 1.71946252068742),
    (1, 0, -3.26650121426383e-2),
    (1, 6, 4.98044171727877e3),
    (3, 0, 5.51478022765087e-3) ]

/-- `src/r3/region3_v_subregion_pT.rs` -/
def pT2v_3d_steps : List (Nat × Nat) := [(0, 17), (17, 38)]

/-- `src/r3/region3_v_subregion_pT.rs:158-204` pT2v_3d -/
def pT2v_3d (p : F) (T : F) : F :=
  let d : Para F := { PS := 40.0, TS := 690.0, VS := 0.0029, a := 0.559, b := 0.939, c := 1.0, d := 1.0, e := 4.0 }
  pT2v_sum_steps p T pT2v_3d_IJn d pT2v_3d_steps

/-- `src/r3/region3_v_subregion_pT.rs`:207-237 -/
def pT2v_3e_IJn : List (Int × Int × F) :=
  [ (-12, 14, 7.15815808404721e8),
    (-12, 16, -1.14328360753449e11),
    (-10, 3, 3.76531002015720e-12),
    (-10, 6, -9.03983668691157e-5),
    (-10, 10, 6.65695908836252e5),
    (-10, 14, 5.35364174960127e9),
    (-10, 16, 7.94977402335603e10),
    (-8, 7, 9.22230563421437e1),
    (-8, 8, -1.42586073991215e5),
    (-8, 10, -1.11796381424162e6),
    (-6, 6, 8.96121629640760e3),
    (-5, 6, -6.69989239070491e3),
    (-4, 2, 4.51242538486834e-3),
    (-4, 4, -3.39731325977713e1),
    (-3, 2, -1.20523111552278),
    (-3, 6, 4.75992667717124e4),
    (-3, 7, -2.66627750390341e5),
    (-2, 0, -1.53314954386524e-4),
    (-2, 1, 3.05638404828265e-1),
    (-2, 3, 1.23654999499486e2),
    (-2, 4, -1.04390794213011e3),
    (-1, 0, -1.57496516174308e-2),
    (0, 0, 6.85331118940253e-1),
    (0, 1, 1.78373462873903),
    (1, 0, -5.44674124878910e-1),
    (1, 4, 2.04529931318843e3),
    (1, 6, -2.28342359328752e4),
    (2, 0, 4.13197481515899e-1),
    (2, 2, -3.41931835910405e1) ]

/-- `src/r3/region3_v_subregion_pT.rs:206-242` pT2v_3e -/
def pT2v_3e (p : F) (T : F) : F :=
  let d : Para F := { PS := 40.0, TS := 710.0, VS := 0.0032, a := 0.587, b := 0.918, c := 1.0, d := 1.0, e := 1.0 }
  pT2v_sum p T pT2v_3e_IJn d

/-- `src/r3/region3_v_subregion_pT.rs`:245-288 -/
def pT2v_3f_IJn : List (Int × Int × F) :=
  [ (0, -3, -2.51756547792325e-8),
    (0, -2, 6.01307193668763e-6),
    (0, -1, -1.00615977450049e-3),
    (0, 0, 9.99969140252192e-1),
    (0, 1, 2.14107759236486),
    (0, 2, -1.65175571959086e1),
    (1, -1, -1.41987303638727e-3),
    (1, 1, 2.69251915156554),
    (1, 2, 3.49741815858722e1),
    (1, 3, -3.00208695771783e1),
    (2, 0, -1.31546288252539),
    (2, 1, -8.39091277286169),
    (3, -5, 1.81545608337015e-10),
    (3, -2, -5.91099206478909e-4),
    (3, 0, 1.52115067087106),
    (4, -3, 2.52956470663225e-5),
    (5, -8, 1.00726265203786e-15),
    (5, 1, -1.49774533860650),
    (6, -6, -7.93940970562969e-10),
    (7, -4, -1.50290891264717e-4),
    (7, 1, 1.51205531275133),
    (10, -6, 4.70942606221652e-6),
    (12, -10, 1.95049710391712e-13),
    (12, -8, -9.11627886266077e-9),
    (12, -4, 6.04374640201265e-4),
    (14, -12, -2.25132933900136e-16),
    (14, -10, 6.10916973582981e-12),
    (14, -8, -3.03063908043404e-7),
    (14, -6, -1.37796070798409e-5),
    (14, -4, -9.19296736666106e-4),
    (16, -10, 6.39288223132545e-10),
    (16, -8, 7.53259479898699e-7),
    (18, -12, -4.00321478682929e-13),
    (18, -10, 7.56140294351614e-9),
    (20, -12, -9.12082054034891e-12),
    (20, -10, -2.37612381140539e-8),
    (20, -6, 2.69586010591874e-5),
    (22, -12, -7.32828135157839e-11),
    (24, -12, 2.41995578306660e-10),
    (24, -4, -4.05735532730322e-4),
    (28, -12, 1.89424143498011e-10),
    (32, -12, -4.86632965074563e-10) ]

/-- `src/r3/region3_v_subregion_pT.rs` -/
def pT2v_3f_steps : List (Nat × Nat) := [(0, 17), (17, 30), (30, 42)]

/-- `src/r3/region3_v_subregion_pT.rs:244-294` pT2v_3f -/
def pT2v_3f (p : F) (T : F) : F :=
  let d : Para F := { PS := 40.0, TS := 730.0, VS := 0.0064, a := 0.587, b := 0.891, c := 0.5, d := 1.0, e := 4.0 }
  pT2v_sum_steps p T pT2v_3f_IJn d pT2v_3f_steps

/-- `src/r3/region3_v_subregion_pT.rs`:297-336 -/
def pT2v_3g_IJn : List (Int × Int × F) :=
  [ (-12, 7, 4.12209020652996e-5),
    (-12, 12, -1.14987238280587e6),
    (-12, 14, 9.48180885032080e9),
    (-12, 18, -1.95788865718971e17),
    (-12, 22, 4.96250704871300e24),
    (-12, 24, -1.05549884548496e28),
    (-10, 14, -7.58642165988278e11),
    (-10, 20, -9.22172769596101e22),
    (-10, 24, 7.25379072059348e29),
    (-8, 7, -6.17718249205859e1),
    (-8, 8, 1.07555033344858e4),
    (-8, 10, -3.79545802336487e7),
    (-8, 12, 2.28646846221831e11),
    (-6, 8, -4.99741093010619e6),
    (-6, 22, -2.80214310054101e30),
    (-5, 7, 1.04915406769586e6),
    (-5, 20, 6.13754229168619e27),
    (-4, 22, 8.02056715528378e31),
    (-3, 7, -2.98617819828065e7),
    (-2, 3, -9.10782540134681e1),
    (-2, 5, 1.35033227281565e5),
    (-2, 14, -7.12949383408211e18),
    (-2, 24, -1.04578785289542e36),
    (-1, 2, 3.04331584444093e1),
    (-1, 8, 5.93250797959445e9),
    (-1, 18, -3.64174062110798e27),
    (0, 0, 9.21791403532461e-1),
    (0, 1, -3.37693609657471e-1),
    (0, 2, -7.24644143758508e1),
    (1, 0, -1.10480239272601e-1),
    (1, 1, 5.36516031875059),
    (1, 3, -2.91441872156205e3),
    (3, 24, 6.16338176535305e39),
    (5, 22, -1.20889175861180e38),
    (6, 12, 8.18396024524612e22),
    (8, 3, 9.40781944835829e8),
    (10, 0, -3.67279669545448e4),
    (10, 6, -8.37513931798655e15) ]

/-- `src/r3/region3_v_subregion_pT.rs` -/
def pT2v_3g_steps : List (Nat × Nat) := [(0, 19), (19, 38)]

/-- `src/r3/region3_v_subregion_pT.rs:296-342` pT2v_3g -/
def pT2v_3g (p : F) (T : F) : F :=
  let d : Para F := { PS := 25.0, TS := 660.0, VS := 0.0027, a := 0.872, b := 0.971, c := 1.0, d := 1.0, e := 4.0 }
  pT2v_sum_steps p T pT2v_3g_IJn d pT2v_3g_steps

/-- `src/r3/region3_v_subregion_pT.rs`:345-375 -/
def pT2v_3h_IJn : List (Int × Int × F) :=
  [ (-12, 8, 5.61379678887577e-2),
    (-12, 12, 7.74135421587083e9),
    (-10, 4, 1.11482975877938e-9),
    (-10, 6, -1.43987128208183e-3),
    (-10, 8, 1.93696558764920e3),
    (-10, 10, -6.05971823585005e8),
    (-10, 14, 1.71951568124337e13),
    (-10, 16, -1.85461154985145e16),
    (-8, 0, 3.87851168078010e-17),
    (-8, 1, -3.95464327846105e-14),
    (-8, 6, -1.70875935679023e2),
    (-8, 7, -2.12010620701220e3),
    (-8, 8, 1.77683337348191e7),
    (-6, 4, 1.10177443629575e1),
    (-6, 6, -2.34396091693313e5),
    (-6, 8, -6.56174421999594e6),
    (-5, 2, 1.56362212977396e-5),
    (-5, 3, -2.12946257021400),
    (-5, 4, 1.35249306374858e1),
    (-4, 2, 1.77189164145813e-1),
    (-4, 4, 1.39499167345464e3),
    (-3, 1, -7.03670932036388e-3),
    (-3, 2, -1.52011044389648e-1),
    (-2, 0, 9.81916922991113e-5),
    (-1, 0, 1.47199658618076e-3),
    (-1, 2, 2.02618487025578e1),
    (0, 0, 8.99345518944240e-1),
    (1, 0, -2.11346402240858e-1),
    (1, 2, 2.49971752957491e1) ]

/-- `src/r3/region3_v_subregion_pT.rs:344-380` pT2v_3h -/
def pT2v_3h (p : F) (T : F) : F :=
  let d : Para F := { PS := 25.0, TS := 660.0, VS := 0.0032, a := 0.898, b := 0.983, c := 1.0, d := 1.0, e := 4.0 }
  pT2v_sum p T pT2v_3h_IJn d

/-- `src/r3/region3_v_subregion_pT.rs`:383-426 -/
def pT2v_3i_IJn : List (Int × Int × F) :=
  [ (0, 0, 1.06905684359136),
    (0, 1, -1.48620857922333),
    (0, 10, 2.59862256980408e14),
    (1, -4, -4.46352055678749e-12),
    (1, -2, -5.66620757170032e-7),
    (1, -1, -2.35302885736849e-3),
    (1, 0, -2.69226321968839e-1),
    (2, 0, 9.22024992944392),
    (3, -5, 3.57633505503772e-12),
    (3, 0, -1.73942565562222e1),
    (4, -3, 7.00681785556229e-6),
    (4, -2, -2.67050351075768e-4),
    (4, -1, -2.31779669675624),
    (5, -6, -7.53533046979752e-13),
    (5, -1, 4.81337131452891),
    (5, 12, -2.23286270422356e21),
    (7, -4, -1.18746004987383e-5),
    (7, -3, 6.46412934136496e-3),
    (8, -6, -4.10588536330937e-10),
    (8, 10, 4.22739537057241e19),
    (10, -8, 3.13698180473812e-13),
    (12, -12, 1.64395334345040e-24),
    (12, -6, -3.39823323754373e-6),
    (12, -4, -1.35268639905021e-2),
    (14, -10, -7.23252514211625e-15),
    (14, -8, 1.84386437538366e-9),
    (14, -4, -4.63959533752385e-2),
    (14, 5, -9.92263100376750e13),
    (18, -12, 6.88169154439335e-17),
    (18, -10, -2.22620998452197e-11),
    (18, -8, -5.40843018624083e-8),
    (18, -6, 3.45570606200257e-3),
    (18, 2, 4.22275800304086e10),
    (20, -12, -1.26974478770487e-15),
    (20, -10, 9.27237985153679e-10),
    (22, -12, 6.12670812016489e-14),
    (24, -12, -7.22693924063497e-12),
    (24, -8, -3.83669502636822e-4),
    (32, -10, 3.74684572410204e-4),
    (32, -5, -9.31976897511086e4),
    (36, -10, -2.47690616026922e-2),
    (36, -8, 6.58110546759474e1) ]

/-- `src/r3/region3_v_subregion_pT.rs` -/
def pT2v_3i_steps : List (Nat × Nat) := [(0, 17), (17, 30), (30, 42)]

/-- `src/r3/region3_v_subregion_pT.rs:382-432` pT2v_3i -/
def pT2v_3i (p : F) (T : F) : F :=
  let d : Para F := { PS := 25.0, TS := 660.0, VS := 0.0041, a := 0.910, b := 0.984, c := 0.5, d := 1.0, e := 4.0 }
  pT2v_sum_steps p T pT2v_3i_IJn d pT2v_3i_steps

/-- `src/r3/region3_v_subregion_pT.rs`:435-465 -/
def pT2v_3j_IJn : List (Int × Int × F) :=
  [ (0, -1, -1.11371317395540e-4),
    (0, 0, 1.00342892423685),
    (0, 1, 5.30615581928979),
    (1, -2, 1.79058760078792e-6),
    (1, -1, -7.28541958464774e-4),
    (1, 1, -1.87576133371704e1),
    (2, -1, 1.99060874071849e-3),
    (2, 1, 2.43574755377290e1),
    (3, -2, -1.77040785499444e-4),
    (4, -2, -2.59680385227130e-3),
    (4, 2, -1.98704578406823e2),
    (5, -3, 7.38627790224287e-5),
    (5, -2, -2.36264692844138e-3),
    (5, 0, -1.61023121314333),
    (6, 3, 6.22322971786473e3),
    (10, -6, -9.60754116701669e-9),
    (12, -8, -5.10572269720488e-11),
    (12, -3, 7.67373781404211e-3),
    (14, -10, 6.63855469485254e-15),
    (14, -8, -7.17590735526745e-10),
    (14, -5, 1.46564542926508e-5),
    (16, -10, 3.09029474277013e-12),
    (18, -12, -4.64216300971708e-16),
    (20, -12, -3.90499637961161e-14),
    (20, -10, -2.36716126781431e-10),
    (24, -12, 4.54652854268717e-12),
    (24, -6, -4.22271787482497e-3),
    (28, -12, 2.83911742354706e-11),
    (28, -5, 2.70929002720228) ]

/-- `src/r3/region3_v_subregion_pT.rs:434-470` pT2v_3j -/
def pT2v_3j (p : F) (T : F) : F :=
  let d : Para F := { PS := 25.0, TS := 670.0, VS := 0.0054, a := 0.875, b := 0.964, c := 0.5, d := 1.0, e := 4.0 }
  pT2v_sum p T pT2v_3j_IJn d

/-- `src/r3/region3_v_subregion_pT.rs`:473-508 -/
def pT2v_3k_IJn : List (Int × Int × F) :=
  [ (-2, 10, -4.01215699576099e8),
    (-2, 12, 4.84501478318406e10),
    (-1, -5, 3.94721471363678e-15),
    (-1, 6, 3.72629967374147e4),
    (0, -12, -3.69794374168666e-30),
    (0, -6, -3.80436407012452e-15),
    (0, -2, 4.75361629970233e-7),
    (0, -1, -8.79148916140706e-4),
    (0, 0, 8.44317863844331e-1),
    (0, 1, 1.22433162656600e1),
    (0, 2, -1.04529634830279e2),
    (0, 3, 5.89702771277429e2),
    (0, 14, -2.91026851164444e13),
    (1, -3, 1.70343072841850e-6),
    (1, -2, -2.77617606975748e-4),
    (1, 0, -3.44709605486686),
    (1, 1, 2.21333862447095e1),
    (1, 2, -1.94646110037079e2),
    (2, -8, 8.08354639772825e-16),
    (2, -6, -1.80845209145470e-11),
    (2, -3, -6.96664158132412e-6),
    (2, -2, -1.81057560300994e-3),
    (2, 0, 2.55830298579027),
    (2, 4, 3.28913873658481e3),
    (5, -12, -1.73270241249904e-19),
    (5, -6, -6.61876792558034e-7),
    (5, -3, -3.95688923421250e-3),
    (6, -12, 6.04203299819132e-18),
    (6, -10, -4.00879935920517e-14),
    (6, -8, 1.60751107464958e-9),
    (6, -5, 3.83719409025556e-5),
    (8, -12, -6.49565446702457e-15),
    (10, -12, -1.49095328506000e-12),
    (12, -10, 5.41449377329581e-9) ]

/-- `src/r3/region3_v_subregion_pT.rs:472-513` pT2v_3k -/
def pT2v_3k (p : F) (T : F) : F :=
  let d : Para F := { PS := 25.0, TS := 680.0, VS := 0.0077, a := 0.802, b := 0.935, c := 1.0, d := 1.0, e := 1.0 }
  pT2v_sum p T pT2v_3k_IJn d

/-- `src/r3/region3_v_subregion_pT.rs`:516-560 -/
def pT2v_3l_IJn : List (Int × Int × F) :=
  [ (-12, 14, 2.60702058647537e9),
    (-12, 16, -1.88277213604704e14),
    (-12, 18, 5.54923870289667e18),
    (-12, 20, -7.58966946387758e22),
    (-12, 22, 4.13865186848908e26),
    (-10, 14, -8.15038000738060e11),
    (-10, 24, -3.81458260489955e32),
    (-8, 6, -1.23239564600519e-2),
    (-8, 10, 2.26095631437174e7),
    (-8, 12, -4.95017809506720e11),
    (-8, 14, 5.29482996422863e15),
    (-8, 18, -4.44359478746295e22),
    (-8, 24, 5.21635864527315e34),
    (-8, 36, -4.87095672740742e54),
    (-6, 8, -7.14430209937547e5),
    (-5, 4, 1.27868634615495e-1),
    (-5, 5, -1.00752127917598e1),
    (-4, 7, 7.77451437960990e6),
    (-4, 16, -1.08105480796471e24),
    (-3, 1, -3.57578581169659e-6),
    (-3, 3, -2.12857169423484),
    (-3, 18, 2.70706111085238e29),
    (-3, 20, -6.95953622348829e32),
    (-2, 2, 1.10609027472280e-1),
    (-2, 3, 7.21559163361354e1),
    (-2, 10, -3.06367307532219e14),
    (-1, 0, 2.65839618885530e-5),
    (-1, 1, 2.53392392889754e-2),
    (-1, 3, -2.14443041836579e2),
    (0, 0, 9.37846601489667e-1),
    (0, 1, 2.23184043101700),
    (0, 2, 3.38401222509191e1),
    (0, 12, 4.94237237179718e20),
    (1, 0, -1.98068404154428e-1),
    (1, 16, -1.41415349881140e30),
    (2, 1, -9.93862421613651e1),
    (4, 0, 1.25070534142731e2),
    (5, 0, -9.96473529004439e2),
    (5, 1, 4.73137909872765e4),
    (6, 14, 1.16662121219322e32),
    (10, 4, -3.15874976271533e15),
    (10, 12, -4.45703369196945e32),
    (14, 10, 6.42794932373694e32) ]

/-- `src/r3/region3_v_subregion_pT.rs` -/
def pT2v_3l_steps : List (Nat × Nat) := [(0, 17), (17, 30), (30, 42)]

/-- `src/r3/region3_v_subregion_pT.rs:515-566` pT2v_3l -/
def pT2v_3l (p : F) (T : F) : F :=
  let d : Para F := { PS := 24.0, TS := 650.0, VS := 0.0026, a := 0.908, b := 0.989, c := 1.0, d := 1.0, e := 4.0 }
  pT2v_sum_steps p T pT2v_3l_IJn d pT2v_3l_steps

/-- `src/r3/region3_v_subregion_pT.rs`:569-610 -/
def pT2v_3m_IJn : List (Int × Int × F) :=
  [ (0, 0, 8.11384363481847e-1),
    (3, 0, -5.68199310990094e3),
    (8, 0, -1.78657198172556e10),
    (20, 2, 7.95537657613427e31),
    (1, 5, -8.14568209346872e4),
    (3, 5, -6.59774567602874e7),
    (4, 5, -1.52861148659302e10),
    (5, 5, -5.60165667510446e11),
    (1, 6, 4.58384828593949e5),
    (6, 6, -3.85754000383848e13),
    (2, 7, 4.53735800004273e7),
    (4, 8, 9.39454935735563e11),
    (14, 8, 2.66572856432938e27),
    (2, 10, -5.47578313899097e9),
    (5, 10, 2.00725701112386e14),
    (3, 12, 1.85007245563239e12),
    (0, 14, 1.85135446828337e8),
    (1, 14, -1.70451090076385e11),
    (1, 18, 1.57890366037614e14),
    (1, 20, -2.02530509748774e15),
    (28, 20, 3.68193926183570e59),
    (2, 22, 1.70215539458936e17),
    (16, 22, 6.39234909918741e41),
    (0, 24, -8.21698160721956e14),
    (5, 24, -7.95260241872306e23),
    (0, 28, 2.33415869478510e17),
    (3, 28, -6.00079934586803e22),
    (4, 28, 5.94584382273384e24),
    (12, 28, 1.89461279349492e39),
    (16, 28, -8.10093428842645e45),
    (1, 32, 1.88813911076809e21),
    (8, 32, 1.11052244098768e35),
    (14, 32, 2.91133958602503e45),
    (0, 36, -3.29421923951460e21),
    (2, 36, -1.37570282536696e25),
    (3, 36, 1.81508996303902e27),
    (4, 36, -3.46865122768353e29),
    (8, 36, -2.11961148774260e37),
    (14, 36, -1.28617899887675e48),
    (24, 36, 4.79817895699239e64) ]

/-- `src/r3/region3_v_subregion_pT.rs` -/
def pT2v_3m_steps : List (Nat × Nat) := [(0, 17), (17, 40)]

/-- `src/r3/region3_v_subregion_pT.rs:568-616` pT2v_3m -/
def pT2v_3m (p : F) (T : F) : F :=
  let d : Para F := { PS := 23.0, TS := 650.0, VS := 0.0028, a := 1.0, b := 0.997, c := 1.0, d := 0.25, e := 1.0 }
  pT2v_sum_steps p T pT2v_3m_IJn d pT2v_3m_steps

/-- `src/r3/region3_v_subregion_pT.rs`:620-660 -/
def pT2v_3n_IJn : List (Int × Int × F) :=
  [ (0, -12, 2.80967799943151e-39),
    (3, -12, 6.14869006573609e-31),
    (4, -12, 5.82238667048942e-28),
    (6, -12, 3.90628369238462e-23),
    (7, -12, 8.21445758255119e-21),
    (10, -12, 4.02137961842776e-15),
    (12, -12, 6.51718171878301e-13),
    (14, -12, -2.11773355803058e-8),
    (18, -12, 2.64953354380072e-3),
    (0, -10, -1.35031446451331e-32),
    (3, -10, -6.07246643970893e-24),
    (5, -10, -4.02352115234494e-19),
    (6, -10, -7.44938506925544e-17),
    (8, -10, 1.89917206526237e-13),
    (12, -10, 3.64975183508473e-6),
    (0, -8, 1.77274872361946e-26),
    (3, -8, -3.34952758812999e-19),
    (7, -8, -4.21537726098389e-9),
    (12, -8, -3.91048167929649e-2),
    (2, -6, 5.41276911564176e-14),
    (3, -6, 7.05412100773699e-12),
    (4, -6, 2.58585887897486e-9),
    (2, -5, -4.93111362030162e-11),
    (4, -5, -1.58649699894543e-6),
    (7, -5, -5.25037427886100e-1),
    (4, -4, 2.20019901729615e-3),
    (3, -3, -6.43064132636925e-3),
    (5, -3, 6.29154149015048e1),
    (6, -3, 1.35147318617061e2),
    (0, -2, 2.40560808321713e-7),
    (0, -1, -8.90763306701305e-4),
    (3, -1, -4.40209599407714e3),
    (1, 0, -3.02807107747776e2),
    (0, 1, 1.59158748314599e3),
    (1, 1, 2.32534272709876e5),
    (0, 2, -7.92681207132600e5),
    (1, 4, -8.69871364662769e10),
    (0, 5, 3.54542769185671e11),
    (1, 6, 4.00849240129329e14) ]

/-- `src/r3/region3_v_subregion_pT.rs` -/
def pT2v_3n_steps : List (Nat × Nat) := [(0, 19), (19, 39)]

/-- `src/r3/region3_v_subregion_pT.rs:618-666` pT2v_3n -/
def pT2v_3n (p : F) (T : F) : F :=
  let p1 : F := p / 23.0 - 0.976
  let t1 : F := T / 650.0 - 0.997
  let v : F := poly_powi_steps p1 t1 pT2v_3n_IJn pT2v_3n_steps
  fexp v * 0.0031

/-- `src/r3/region3_v_subregion_pT.rs`:669-694 -/
def pT2v_3o_IJn : List (Int × Int × F) :=
  [ (0, -12, 1.28746023979718e-35),
    (0, -4, -7.35234770382342e-12),
    (0, -1, 2.89078692149150e-3),
    (2, -1, 2.44482731907223e-1),
    (3, -10, 1.41733492030985e-24),
    (4, -12, -3.54533853059476e-29),
    (4, -8, -5.94539202901431e-18),
    (4, -5, -5.85188401782779e-9),
    (4, -4, 2.01377325411803e-6),
    (4, -1, 1.38647388209306),
    (5, -4, -1.73959365084772e-5),
    (5, -3, 1.37680878349369e-3),
    (6, -8, 8.14897605805513e-15),
    (7, -12, 4.25596631351839e-26),
    (8, -10, -3.87449113787755e-18),
    (8, -8, 1.39814747930240e-13),
    (8, -4, -1.71849638951521e-3),
    (10, -12, 6.41890529513296e-22),
    (10, -8, 1.18960578072018e-11),
    (14, -12, -1.55282762571611e-18),
    (14, -8, 2.33907907347507e-8),
    (20, -12, -1.74093247766213e-13),
    (20, -10, 3.77682649089149e-9),
    (24, -12, -5.16720236575302e-11) ]

/-- `src/r3/region3_v_subregion_pT.rs:668-699` pT2v_3o -/
def pT2v_3o (p : F) (T : F) : F :=
  let d : Para F := { PS := 23.0, TS := 650.0, VS := 0.0034, a := 0.974, b := 0.996, c := 0.5, d := 1.0, e := 1.0 }
  pT2v_sum p T pT2v_3o_IJn d

/-- `src/r3/region3_v_subregion_pT.rs`:702-730 -/
def pT2v_3p_IJn : List (Int × Int × F) :=
  [ (0, -1, -9.82825342010366e-5),
    (0, 0, 1.05145700850612),
    (0, 1, 1.16033094095084e2),
    (0, 2, 3.24664750281543e3),
    (1, 1, -1.23592348610137e3),
    (2, -1, -5.61403450013495e-2),
    (3, -3, 8.56677401640869e-8),
    (3, 0, 2.36313425393924e2),
    (4, -2, 9.72503292350109e-3),
    (6, -2, -1.03001994531927),
    (7, -5, -1.49653706199162e-9),
    (7, -4, -2.15743778861592e-5),
    (8, -2, -8.34452198291445),
    (10, -3, 5.86602660564988e-1),
    (12, -12, 3.43480022104968e-26),
    (12, -6, 8.16256095947021e-6),
    (12, -5, 2.94985697916798e-3),
    (14, -10, 7.11730466276584e-17),
    (14, -8, 4.00954763806941e-10),
    (14, -3, 1.07766027032853e1),
    (16, -8, -4.09449599138182e-7),
    (18, -8, -7.29121307758902e-6),
    (20, -10, 6.77107970938909e-9),
    (22, -10, 6.02745973022975e-8),
    (24, -12, -3.82323011855257e-11),
    (24, -8, 1.79946628317437e-3),
    (36, -12, -3.45042834640005e-4) ]

/-- `src/r3/region3_v_subregion_pT.rs:701-735` pT2v_3p -/
def pT2v_3p (p : F) (T : F) : F :=
  let d : Para F := { PS := 23.0, TS := 650.0, VS := 0.0041, a := 0.972, b := 0.997, c := 0.5, d := 1.0, e := 1.0 }
  pT2v_sum p T pT2v_3p_IJn d

/-- `src/r3/region3_v_subregion_pT.rs`:738-763 -/
def pT2v_3q_IJn : List (Int × Int × F) :=
  [ (-12, 10, -8.20433843259950e4),
    (-12, 12, 4.73271518461586e10),
    (-10, 6, -8.05950021005413e-2),
    (-10, 7, 3.28600025435980e1),
    (-10, 8, -3.56617029982490e3),
    (-10, 10, -1.72985781433335e9),
    (-8, 8, 3.51769232729192e7),
    (-6, 6, -7.75489259985144e5),
    (-5, 2, 7.10346691966018e-5),
    (-5, 5, 9.93499883820274e4),
    (-4, 3, -6.42094171904570e-1),
    (-4, 4, -6.12842816820083e3),
    (-3, 3, 2.32808472983776e2),
    (-2, 0, -1.42808220416837e-5),
    (-2, 1, -6.43596060678456e-3),
    (-2, 2, -4.28577227475614),
    (-2, 4, 2.25689939161918e3),
    (-1, 0, 1.00355651721510e-3),
    (-1, 1, 3.33491455143516e-1),
    (-1, 2, 1.09697576888873),
    (0, 0, 9.61917379376452e-1),
    (1, 0, -8.38165632204598e-2),
    (1, 1, 2.47795908411492),
    (1, 3, -3.19114969006533e3) ]

/-- `src/r3/region3_v_subregion_pT.rs:737-768` pT2v_3q -/
def pT2v_3q (p : F) (T : F) : F :=
  let d : Para F := { PS := 23.0, TS := 650.0, VS := 0.0022, a := 0.848, b := 0.983, c := 1.0, d := 1.0, e := 4.0 }
  pT2v_sum p T pT2v_3q_IJn d

/-- `src/r3/region3_v_subregion_pT.rs`:771-799 -/
def pT2v_3r_IJn : List (Int × Int × F) :=
  [ (-8, 6, 1.44165955660863e-3),
    (-8, 14, -7.01438599628258e12),
    (-3, -3, -8.30946716459219e-17),
    (-3, 3, 2.61975135368109e-1),
    (-3, 4, 3.93097214706245e2),
    (-3, 5, -1.04334030654021e4),
    (-3, 8, 4.90112654154211e8),
    (0, -1, -1.47104222772069e-4),
    (0, 0, 1.03602748043408),
    (0, 1, 3.05308890065089),
    (0, 5, -3.99745276971264e6),
    (3, -6, 5.69233719593750e-12),
    (3, -2, -4.64923504407778e-2),
    (8, -12, -5.35400396512906e-18),
    (8, -10, 3.99988795693162e-13),
    (8, -8, -5.36479560201811e-7),
    (8, -5, 1.59536722411202e-2),
    (10, -12, 2.70303248860217e-15),
    (10, -10, 2.44247453858506e-8),
    (10, -8, -9.83430636716454e-6),
    (10, -6, 6.63513144224454e-2),
    (10, -5, -9.93456957845006),
    (10, -4, 5.46491323528491e2),
    (10, -3, -1.43365406393758e4),
    (10, -2, 1.50764974125511e5),
    (12, -12, -3.37209709340105e-10),
    (14, -12, 3.77501980025469e-9) ]

/-- `src/r3/region3_v_subregion_pT.rs:770-804` pT2v_3r -/
def pT2v_3r (p : F) (T : F) : F :=
  let d : Para F := { PS := 23.0, TS := 650.0, VS := 0.0054, a := 0.874, b := 0.982, c := 1.0, d := 1.0, e := 1.0 }
  pT2v_sum p T pT2v_3r_IJn d

/-- `src/r3/region3_v_subregion_pT.rs`:807-837 -/
def pT2v_3s_IJn : List (Int × Int × F) :=
  [ (-12, 20, -5.32466612140254e22),
    (-12, 24, 1.00415480000824e31),
    (-10, 22, -1.91540001821367e29),
    (-8, 14, 1.05618377808847e16),
    (-6, 36, 2.02281884477061e58),
    (-5, 8, 8.84585472596134e7),
    (-5, 16, 1.66540181638363e22),
    (-4, 6, -3.13563197669111e5),
    (-4, 32, -1.85662327545324e53),
    (-3, 3, -6.24942093918942e-2),
    (-3, 8, -5.04160724132590e9),
    (-2, 4, 1.87514491833092e4),
    (-1, 1, 1.21399979993217e-3),
    (-1, 2, 1.88317043049455),
    (-1, 3, -1.67073503962060e3),
    (0, 0, 9.65961650599775e-1),
    (0, 1, 2.94885696802488),
    (0, 4, -6.53915627346115e4),
    (0, 28, 6.04012200163444e49),
    (1, 0, -1.98339358557937e-1),
    (1, 32, -1.75984090163501e57),
    (3, 0, 3.56314881403987),
    (3, 1, -5.75991255144384e2),
    (3, 2, 4.56213415338071e4),
    (4, 3, -1.09174044987829e7),
    (4, 18, 4.37796099975134e33),
    (4, 24, -6.16552611135792e45),
    (5, 4, 1.93568768917797e9),
    (14, 24, 9.50898170425042e53) ]

/-- `src/r3/region3_v_subregion_pT.rs:806-842` pT2v_3s -/
def pT2v_3s (p : F) (T : F) : F :=
  let d : Para F := { PS := 21.0, TS := 640.0, VS := 0.0022, a := 0.886, b := 0.990, c := 1.0, d := 1.0, e := 4.0 }
  pT2v_sum p T pT2v_3s_IJn d

/-- `src/r3/region3_v_subregion_pT.rs`:845-879 -/
def pT2v_3t_IJn : List (Int × Int × F) :=
  [ (0, 0, 1.55287249586268),
    (0, 1, 6.64235115009031),
    (0, 4, -2.89366236727210e3),
    (0, 12, -3.85923202309848e12),
    (1, 0, -2.91002915783761),
    (1, 10, -8.29088246858083e11),
    (2, 0, 1.76814899675218),
    (2, 6, -5.34686695713469e8),
    (2, 14, 1.60464608687834e17),
    (3, 3, 1.96435366560186e5),
    (3, 8, 1.56637427541729e12),
    (4, 0, -1.78154560260006),
    (4, 10, -2.29746237623692e15),
    (7, 3, 3.85659001648006e7),
    (7, 4, 1.10554446790543e9),
    (7, 7, -6.77073830687349e13),
    (7, 20, -3.27910592086523e30),
    (7, 36, -3.41552040860644e50),
    (10, 10, -5.27251339709047e20),
    (10, 12, 2.45375640937055e23),
    (10, 14, -1.68776617209269e26),
    (10, 16, 3.58958955867578e28),
    (10, 22, -6.56475280339411e35),
    (18, 18, 3.55286045512301e38),
    (20, 32, 5.69021454413270e57),
    (22, 22, -7.00584546433113e47),
    (22, 36, -7.05772623326374e64),
    (24, 24, 1.66861176200148e52),
    (28, 28, -3.00475129680486e60),
    (32, 22, -6.68481295196808e50),
    (32, 32, 4.28432338620678e68),
    (32, 36, -4.44227367758304e71),
    (36, 36, -2.81396013562745e76) ]

/-- `src/r3/region3_v_subregion_pT.rs:844-884` pT2v_3t -/
def pT2v_3t (p : F) (T : F) : F :=
  let d : Para F := { PS := 20.0, TS := 650.0, VS := 0.0088, a := 0.803, b := 1.02, c := 1.0, d := 1.0, e := 1.0 }
  pT2v_sum p T pT2v_3t_IJn d

/-- `src/r3/region3_v_subregion_pT.rs`:887-926 -/
def pT2v_3u_IJn : List (Int × Int × F) :=
  [ (-12, 14, 1.22088349258355e17),
    (-10, 10, 1.04216468608488e9),
    (-10, 12, -8.82666931564652e15),
    (-10, 14, 2.59929510849499e19),
    (-8, 10, 2.22612779142211e14),
    (-8, 12, -8.78473585050085e17),
    (-8, 14, -3.14432577551552e21),
    (-6, 8, -2.16934916996285e12),
    (-6, 12, 1.59079648196849e20),
    (-5, 4, -3.39567617303423e2),
    (-5, 8, 8.84387651337836e12),
    (-5, 12, -8.43405926846418e20),
    (-3, 2, 1.14178193518022e1),
    (-1, -1, -1.22708229235641e-4),
    (-1, 1, -1.06201671767107e2),
    (-1, 12, 9.03443213959313e24),
    (-1, 14, -6.93996270370852e27),
    (0, -3, 6.48916718965575e-9),
    (0, 1, 7.18957567127851e3),
    (1, -2, 1.05581745346187e-3),
    (2, 5, -6.51903203602581e14),
    (2, 10, -1.60116813274676e24),
    (3, -5, -5.10254294237837e-9),
    (5, -4, -1.52355388953402e-1),
    (5, 2, 6.77143292290144e11),
    (5, 3, 2.76378438378930e14),
    (6, -5, 1.16862983141686e-2),
    (6, 2, -3.01426947980171e13),
    (8, -8, 1.69719813884840e-8),
    (8, 8, 1.04674840020929e26),
    (10, -4, -1.08016904560140e4),
    (12, -12, -9.90623601934295e-13),
    (12, -4, 5.36116483602738e6),
    (12, 4, 2.26145963747881e21),
    (14, -12, -4.88731565776210e-10),
    (14, -10, 1.51001548880670e-5),
    (14, -6, -2.27700464643920e4),
    (14, 6, -7.81754507698846e27) ]

/-- `src/r3/region3_v_subregion_pT.rs` -/
def pT2v_3u_steps : List (Nat × Nat) := [(0, 19), (19, 38)]

/-- `src/r3/region3_v_subregion_pT.rs:886-932` pT2v_3u -/
def pT2v_3u (p : F) (T : F) : F :=
  let d := { PS := 23.0, TS := 650.0, VS := 0.0026, a := 0.902, b := 0.988, c := 1.0, d := 1.0, e := 1.0 }
  pT2v_sum_steps p T pT2v_3u_IJn d pT2v_3u_steps

/-- `src/r3/region3_v_subregion_pT.rs`:935-975 -/
def pT2v_3v_IJn : List (Int × Int × F) :=
  [ (-10, -8, -4.15652812061591e-55),
    (-8, -12, 1.77441742924043e-61),
    (-6, -12, -3.57078668203377e-55),
    (-6, -3, 3.59252213604114e-26),
    (-6, 5, -2.59123736380269e1),
    (-6, 6, 5.94619766193460e4),
    (-6, 8, -6.24184007103158e10),
    (-6, 10, 3.13080299915944e16),
    (-5, 1, 1.05006446192036e-9),
    (-5, 2, -1.92824336984852e-6),
    (-5, 6, 6.54144373749937e5),
    (-5, 8, 5.13117462865044e12),
    (-5, 10, -6.97595750347391e18),
    (-5, 14, -1.03977184454767e28),
    (-4, -12, 1.19563135540666e-48),
    (-4, -10, -4.36677034051655e-42),
    (-4, -6, 9.26990036530639e-30),
    (-4, 10, 5.87793105620748e20),
    (-3, -3, 2.80375725094731e-18),
    (-3, 10, -1.92359972440634e22),
    (-3, 12, 7.42705723302738e26),
    (-2, 2, -5.17429682450605e1),
    (-2, 4, 8.20612048645469e6),
    (-1, -2, -1.88214882341448e-9),
    (-1, 0, 1.84587261114837e-2),
    (0, -2, -1.35830407782663e-6),
    (0, 6, -7.23681885626348e16),
    (0, 10, -2.23449194054124e26),
    (1, -12, -1.11526741826431e-35),
    (1, -10, 2.76032601145151e-29),
    (3, 3, 1.34856491567853e14),
    (4, -6, 6.52440293345860e-10),
    (4, 3, 5.10655119774360e16),
    (4, 10, -4.68138358908732e31),
    (5, 2, -7.60667491183279e15),
    (8, -12, -4.17247986986821e-19),
    (10, -2, 3.12545677756104e13),
    (12, -3, -1.00375333864186e14),
    (14, 1, 2.47761392329058e26) ]

/-- `src/r3/region3_v_subregion_pT.rs` -/
def pT2v_3v_steps : List (Nat × Nat) := [(0, 19), (19, 39)]

/-- `src/r3/region3_v_subregion_pT.rs:934-981` pT2v_3v -/
def pT2v_3v (p : F) (T : F) : F :=
  let d : Para F := { PS := 23.0, TS := 650.0, VS := 0.0031, a := 0.960, b := 0.995, c := 1.0, d := 1.0, e := 1.0 }
  pT2v_sum_steps p T pT2v_3v_IJn d pT2v_3v_steps

/-- `src/r3/region3_v_subregion_pT.rs`:984-1020 -/
def pT2v_3w_IJn : List (Int × Int × F) :=
  [ (-12, 8, -5.86219133817016e-8),
    (-12, 14, -8.94460355005526e10),
    (-10, -1, 5.31168037519774e-31),
    (-10, 8, 1.09892402329239e-1),
    (-8, 6, -5.75368389425212e-2),
    (-8, 8, 2.28276853990249e4),
    (-8, 14, -1.58548609655002e18),
    (-6, -4, 3.29865748576503e-28),
    (-6, -3, -6.34987981190669e-25),
    (-6, 2, 6.15762068640611e-9),
    (-6, 8, -9.61109240985747e7),
    (-5, -10, -4.06274286652625e-45),
    (-4, -1, -4.71103725498077e-13),
    (-4, 3, 7.25937724828145e-1),
    (-3, -10, 1.87768525763682e-39),
    (-3, 3, -1.03308436323771e3),
    (-2, 1, -6.62552816342168e-2),
    (-2, 2, 5.79514041765710e2),
    (-1, -8, 2.37416732616644e-27),
    (-1, -4, 2.71700235739893e-15),
    (-1, 1, -9.07886213483600e1),
    (0, -12, -1.71242509570207e-37),
    (0, 1, 1.56792067854621e2),
    (1, -1, 9.23261357901470e-1),
    (2, -1, -5.97865988422577),
    (2, 2, 3.21988767636389e6),
    (3, -12, -3.99441390042203e-30),
    (3, -5, 4.93429086046981e-8),
    (5, -10, 8.12036983370565e-20),
    (5, -8, -2.07610284654137e-12),
    (5, -6, -3.40821291419719e-7),
    (8, -12, 5.42000573372233e-18),
    (8, -10, -8.56711586510214e-13),
    (10, -12, 2.66170454405981e-14),
    (10, -8, 8.58133791857099e-6) ]

/-- `src/r3/region3_v_subregion_pT.rs:983-1025` pT2v_3w -/
def pT2v_3w (p : F) (T : F) : F :=
  let d : Para F := { PS := 23.0, TS := 650.0, VS := 0.0039, a := 0.959, b := 0.995, c := 1.0, d := 1.0, e := 4.0 }
  pT2v_sum p T pT2v_3w_IJn d

/-- `src/r3/region3_v_subregion_pT.rs`:1028-1065 -/
def pT2v_3x_IJn : List (Int × Int × F) :=
  [ (-8, 14, 3.77373741298151e18),
    (-6, 10, -5.07100883722913e12),
    (-5, 10, -1.03363225598860e15),
    (-4, 1, 1.84790814320773e-6),
    (-4, 2, -9.24729378390945e-4),
    (-4, 14, -4.25999562292738e23),
    (-3, -2, -4.62307771873973e-13),
    (-3, 12, 1.07319065855767e21),
    (-1, 5, 6.48662492280682e10),
    (0, 0, 2.44200600688281),
    (0, 4, -8.51535733484258e9),
    (0, 10, 1.69894481433592e21),
    (1, -10, 2.15780222509020e-27),
    (1, -1, -3.20850551367334e-1),
    (2, 6, -3.82642448458610e16),
    (3, -12, -2.75386077674421e-29),
    (3, 0, -5.63199253391666e5),
    (3, 8, -3.26068646279314e20),
    (4, 3, 3.97949001553184e13),
    (5, -6, 1.00824008584757e-7),
    (5, -2, 1.62234569738433e4),
    (5, 1, -4.32355225319745e10),
    (6, 1, -5.92874245598610e11),
    (8, -6, 1.33061647281106),
    (8, -3, 1.57338197797544e6),
    (8, 1, 2.58189614270853e13),
    (8, 8, 2.62413209706358e24),
    (10, -8, -9.20011937431142e-2),
    (12, -10, 2.20213765905426e-3),
    (12, -8, -1.10433759109547e1),
    (12, -5, 8.47004870612087e6),
    (12, -4, -5.92910695762536e8),
    (14, -12, -1.83027173269660e-5),
    (14, -10, 1.81339603516302e-1),
    (14, -8, -1.19228759669889e3),
    (14, -6, 4.30867658061468e6) ]

/-- `src/r3/region3_v_subregion_pT.rs:1027-1070` pT2v_3x -/
def pT2v_3x (p : F) (T : F) : F :=
  let d : Para F := { PS := 23.0, TS := 650.0, VS := 0.0049, a := 0.910, b := 0.988, c := 1.0, d := 1.0, e := 1.0 }
  pT2v_sum p T pT2v_3x_IJn d

/-- `src/r3/region3_v_subregion_pT.rs`:1073-1094 -/
def pT2v_3y_IJn : List (Int × Int × F) :=
  [ (0, -3, -5.25597995024633e-10),
    (0, 1, 5.83441305228407e3),
    (0, 5, -1.34778968457925e16),
    (0, 8, 1.18973500934212e25),
    (1, 8, -1.59096490904708e26),
    (2, -4, -3.15839902302021e-7),
    (2, -1, 4.96212197158239e2),
    (2, 4, 3.27777227273171e18),
    (2, 5, -5.27114657850696e21),
    (3, -8, 2.10017506281863e-17),
    (3, 4, 7.05106224399834e20),
    (3, 8, -2.66713136106469e30),
    (4, -6, -1.45370512554562e-8),
    (4, 6, 1.49333917053130e27),
    (5, -2, -1.49795620287641e7),
    (5, 1, -3.81881906271100e15),
    (8, -8, 7.24660165585797e-5),
    (8, -2, -9.37808169550193e13),
    (10, -5, 5.14411468376383e9),
    (12, -8, -8.28198594040141e4) ]

/-- `src/r3/region3_v_subregion_pT.rs:1072-1099` pT2v_3y -/
def pT2v_3y (p : F) (T : F) : F :=
  let d : Para F := { PS := 22.0, TS := 650.0, VS := 0.0031, a := 0.996, b := 0.994, c := 1.0, d := 1.0, e := 4.0 }
  pT2v_sum p T pT2v_3y_IJn d

/-- `src/r3/region3_v_subregion_pT.rs`:1102-1126 -/
def pT2v_3z_IJn : List (Int × Int × F) :=
  [ (-8, 3, 2.4400789229065e-11),
    (-6, 6, -4.6305743033124e6),
    (-5, 6, 7.2880327477771e9),
    (-5, 8, 3.2777630285886e15),
    (-4, 5, -1.1059817011841e9),
    (-4, 6, -3.2389991572996e12),
    (-4, 8, 9.2381400702325e15),
    (-3, -2, 8.4225008041371e-13),
    (-3, 5, 6.6322143624551e11),
    (-3, 6, -1.6717018667214e14),
    (-2, 2, 2.5374935870139e3),
    (-1, -6, -8.1973155961052e-21),
    (0, 3, 3.2838058789066e11),
    (1, 1, -6.2500479117154e7),
    (2, 6, 8.0319795746202e20),
    (3, -6, -2.0439701133835e-11),
    (3, -2, -3.7839104705594e3),
    (6, -6, 9.7287654593862e-3),
    (6, -5, 1.5435572168146e1),
    (6, -4, -3.7396286292864e3),
    (6, -1, -6.8285901137457e10),
    (8, -8, -2.4848801561454e-4),
    (8, -4, 3.9453604949707e6) ]

/-- `src/r3/region3_v_subregion_pT.rs:1101-1131` pT2v_3z -/
def pT2v_3z (p : F) (T : F) : F :=
  let d : Para F := { PS := 22.0, TS := 650.0, VS := 0.0038, a := 0.993, b := 0.994, c := 1.0, d := 1.0, e := 4.0 }
  pT2v_sum p T pT2v_3z_IJn d

/-- `src/r3/region3_v_subregion_pT.rs:1133-1163` pT2v_3subreg -/
def pT2v_3subreg (p : F) (T : F) (sub_region : Char) : F :=
  if sub_region == 'a' then
    pT2v_3a p T
  else if sub_region == 'b' then
    pT2v_3b p T
  else if sub_region == 'c' then
    pT2v_3c p T
  else if sub_region == 'd' then
    pT2v_3d p T
  else if sub_region == 'e' then
    pT2v_3e p T
  else if sub_region == 'f' then
    pT2v_3f p T
  else if sub_region == 'g' then
    pT2v_3g p T
  else if sub_region == 'h' then
    pT2v_3h p T
  else if sub_region == 'i' then
    pT2v_3i p T
  else if sub_region == 'j' then
    pT2v_3j p T
  else if sub_region == 'k' then
    pT2v_3k p T
  else if sub_region == 'l' then
    pT2v_3l p T
  else if sub_region == 'm' then
    pT2v_3m p T
  else if sub_region == 'n' then
    pT2v_3n p T
  else if sub_region == 'o' then
    pT2v_3o p T
  else if sub_region == 'p' then
    pT2v_3p p T
  else if sub_region == 'q' then
    pT2v_3q p T
  else if sub_region == 'r' then
    pT2v_3r p T
  else if sub_region == 's' then
    pT2v_3s p T
  else if sub_region == 't' then
    pT2v_3t p T
  else if sub_region == 'u' then
    pT2v_3u p T
  else if sub_region == 'v' then
    pT2v_3v p T
  else if sub_region == 'w' then
    pT2v_3w p T
  else if sub_region == 'x' then
    pT2v_3x p T
  else if sub_region == 'y' then
    pT2v_3y p T
  else if sub_region == 'z' then
    pT2v_3z p T
  else
    ofI32 INVALID_VALUE

end If97
