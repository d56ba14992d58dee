import Verif.Lemmas.Tm.R3h

/-! The tables of T(p, h), T(p, s), v(p, s) of region 3 in the form the Taylor models use. -/

namespace If97.Tm
set_option maxRecDepth 100000

/-- the table for the variable k y -/
def SameS (k : ℝ) (a : Int × Int × Co) (e : Int × Int × ℝ) : Prop :=
  a.1 = e.1 ∧ a.2.1 = e.2.1 ∧ a.2.2.val * k ^ e.2.1 = e.2.2

/-! ### T(p, h) in 3a -/

def exT3a : List Int := [-12, -10, -8, -5, -3, -2, 12, 10, 5, 4, 3, 2, -1, 1, 0]
def eyT3a : List Int := [22, 20, 16, 14, 12, 10, 6, 5, 4, 3, 2, 1, 0]
theorem exT3a_eq : powE chxT3a [-1, 1, 0] = exT3a := by decide +kernel
theorem eyT3a_eq : powE chyT3a [1, 0] = eyT3a := by decide +kernel
def flT3a : List (Int × Int × Co) := [(-12, 0, ⟨true, 26729133562243, 200000000000000000000⟩), (-12, 1, ⟨false, 227956328401489, 50000000000000000000⟩), (-12, 2, ⟨true, 146294640700979, 10000000000000000000⟩), (-12, 6, ⟨false, 3995883206063, 625000000000000⟩), (-12, 14, ⟨false, 372783927268847, 1000000000000⟩), (-12, 16, ⟨true, 718654377460447, 100000000000⟩), (-12, 20, ⟨false, 2867473760517, 5000000⟩), (-12, 22, ⟨true, 267569329111439, 100000000⟩), (-10, 1, ⟨true, 167033141651307, 5000000000000000000⟩), (-10, 5, ⟨true, 245479214069597, 10000000000000000⟩), (-10, 12, ⟨false, 119521961941249, 2500000000000⟩), (-8, 0, ⟨false, 95583016477363, 12500000000000000000⟩), (-8, 2, ⟨false, 32087656919243, 25000000000000000⟩), (-8, 4, ⟨false, 171219081377331, 10000000000000000⟩), (-8, 10, ⟨true, 851007304583213, 100000000000000⟩), (-5, 2, ⟨true, 136513461629781, 10000000000000000⟩), (-3, 0, ⟨true, 384460997596657, 100000000000000000000⟩), (-2, 1, ⟨false, 67484761582331, 20000000000000000⟩), (-2, 3, ⟨true, 551624873066791, 1000000000000000⟩), (-2, 4, ⟨false, 72920227710747, 100000000000000⟩), (-1, 0, ⟨true, 992522757376041, 100000000000000000⟩), (-1, 2, ⟨true, 14913603925911, 125000000000000⟩), (0, 0, ⟨false, 793929190615421, 1000000000000000⟩), (0, 1, ⟨false, 227135365899693, 500000000000000⟩), (1, 1, ⟨false, 20999859125991, 100000000000000⟩), (3, 0, ⟨true, 321054911952369, 50000000000000000⟩), (3, 1, ⟨true, 11757793430227, 500000000000000⟩), (4, 0, ⟨false, 63058277085403, 25000000000000000⟩), (4, 3, ⟨true, 764885133368119, 100000000000000000⟩), (10, 4, ⟨false, 136176427574291, 10000000000000000⟩), (12, 5, ⟨true, 133027883575669, 10000000000000000⟩)]
theorem flT3a_eq : flat exT3a eyT3a tbT3a = flT3a := by decide +kernel
theorem tbT3a_ok : tbOk tbT3a exT3a.length eyT3a.length = true := by decide +kernel
theorem T3a_same : List.Forall₂ SameT flT3a (ph2T_3a_reg3_IJn : List (Int × Int × ℝ)) := by
  unfold flT3a ph2T_3a_reg3_IJn
  repeat' first | exact .nil | refine .cons ⟨by norm_num, by norm_num, by norm_num [Co.val]⟩ ?_

/-! ### T(p, h) in 3b -/

def exT3b : List Int := [-12, -10, -8, -6, -4, -3, -2, 8, 6, 5, 3, 2, -1, 1, 0]
def eyT3b : List Int := [16, 14, 12, 10, 6, 5, 4, 2, 1, 0]
theorem exT3b_eq : powE chxT3b [-1, 1, 0] = exT3b := by decide +kernel
theorem eyT3b_eq : powE chyT3b [1, 0] = eyT3b := by decide +kernel
def flT3b : List (Int × Int × Co) := [(-12, 0, ⟨false, 8081364341123, 250000000000000000⟩), (-12, 1, ⟨true, 127575556587181, 1000000000000000000⟩), (-10, 0, ⟨true, 118962969339017, 250000000000000000⟩), (-10, 1, ⟨false, 78091507090801, 50000000000000000⟩), (-10, 5, ⟨false, 105724860113781, 1000000000000000⟩), (-10, 10, ⟨true, 429257110566267, 5000000000000⟩), (-10, 12, ⟨false, 724140095480911, 1000000000000⟩), (-8, 0, ⟨false, 296475810273257, 100000000000000000⟩), (-8, 1, ⟨true, 148180495841497, 25000000000000000⟩), (-8, 2, ⟨true, 63152711409333, 5000000000000000⟩), (-8, 4, ⟨true, 115716196364853, 1000000000000000⟩), (-8, 10, ⟨false, 169800193947919, 2000000000000⟩), (-6, 0, ⟨true, 21720452017323, 2000000000000000⟩), (-6, 1, ⟨false, 154304475328851, 10000000000000000⟩), (-6, 2, ⟨false, 375227720762233, 5000000000000000⟩), (-4, 0, ⟨false, 126260486806491, 5000000000000000⟩), (-4, 1, ⟨true, 150626975308249, 2500000000000000⟩), (-3, 5, ⟨true, 307622221350501, 100000000000000⟩), (-2, 0, ⟨true, 574011959864879, 10000000000000000⟩), (-2, 4, ⟨false, 503471360939849, 100000000000000⟩), (-1, 2, ⟨true, 462540944292417, 500000000000000⟩), (-1, 4, ⟨false, 195866941458773, 50000000000000⟩), (-1, 6, ⟨true, 77314600713019, 1000000000000⟩), (-1, 10, ⟨false, 949308762098587, 100000000000⟩), (-1, 14, ⟨true, 141043719679409, 100000000⟩), (-1, 16, ⟨false, 424583115409513, 50000000⟩), (0, 0, ⟨false, 53818483090419, 62500000000000⟩), (0, 2, ⟨false, 8083661070293, 25000000000000⟩), (1, 1, ⟨false, 873281936020439, 1000000000000000⟩), (3, 1, ⟨true, 436653048526683, 1000000000000000⟩), (5, 1, ⟨false, 286596714529479, 1000000000000000⟩), (6, 1, ⟨true, 32944582819057, 250000000000000⟩), (8, 1, ⟨false, 27067282573211, 4000000000000000⟩)]
theorem flT3b_eq : flat exT3b eyT3b tbT3b = flT3b := by decide +kernel
theorem tbT3b_ok : tbOk tbT3b exT3b.length eyT3b.length = true := by decide +kernel
theorem T3b_same : List.Forall₂ SameT flT3b (ph2T_3b_reg3_IJn : List (Int × Int × ℝ)) := by
  unfold flT3b ph2T_3b_reg3_IJn
  repeat' first | exact .nil | refine .cons ⟨by norm_num, by norm_num, by norm_num [Co.val]⟩ ?_

/-! ### T(p, s) in 3a -/

def exTs3a : List Int := [-12, -10, -8, -6, -5, -4, -2, 10, 8, 4, 3, 2, -1, 1, 0]
def eyTs3a : List Int := [36, 32, 28, 14, 12, 10, 8, 7, 6, 5, 4, 3, 2, 1, 0]
theorem exTs3a_eq : powE chxTs3a [-1, 1, 0] = exTs3a := by decide +kernel
theorem eyTs3a_eq : powE chyTs3a [1, 0] = eyTs3a := by decide +kernel
def flTs3a : List (Int × Int × Co) := [(-12, 28, ⟨false, 1200336066111, 57646075230342348800⟩), (-12, 32, ⟨true, 19924657310053, 2305843009213693952000⟩), (-10, 4, ⟨false, 20087245608719, 10240000000000000000⟩), (-10, 10, ⟨true, 336028883927733, 5242880000000000000⟩), (-10, 12, ⟨false, 18132318175557, 209715200000000000⟩), (-10, 14, ⟨true, 82388953488889, 2684354560000000000⟩), (-8, 5, ⟨true, 154852214233853, 1024000000000000000⟩), (-8, 7, ⟨false, 22461009349339, 32768000000000000⟩), (-8, 8, ⟨true, 148500106741411, 327680000000000000⟩), (-8, 28, ⟨false, 87713026527099, 144115188075855872000⟩), (-6, 2, ⟨false, 17229729829433, 200000000000000000⟩), (-6, 6, ⟨true, 148739263578731, 204800000000000000⟩), (-6, 32, ⟨false, 971777947349413, 1844674407370955161600⟩), (-5, 0, ⟨true, 285763883526199, 5000000000000000000⟩), (-5, 14, ⟨false, 14415397488921, 134217728000000000⟩), (-5, 32, ⟨true, 744428289262703, 184467440737095516160⟩), (-4, 6, ⟨false, 128017324848921, 40960000000000000⟩), (-4, 10, ⟨true, 368275545889071, 1048576000000000000⟩), (-4, 36, ⟨false, 3323844523895885, 2361183241434822606848⟩), (-2, 1, ⟨false, 2808495324743, 250000000000000⟩), (-2, 4, ⟨true, 84579567219931, 5120000000000000⟩), (-1, 1, ⟨true, 240614376434179, 4000000000000000⟩), (-1, 6, ⟨true, 118585341313731, 102400000000000000⟩), (0, 0, ⟨false, 72409399912611, 100000000000000⟩), (0, 1, ⟨false, 923874349695897, 4000000000000000⟩), (0, 4, ⟨false, 79808731056203, 5120000000000000⟩), (1, 0, ⟨false, 384066651868009, 10000000000000000⟩), (2, 0, ⟨true, 44918045696481, 12500000000000000⟩), (2, 3, ⟨true, 735196448821653, 64000000000000000⟩), (3, 2, ⟨false, 188367048396131, 16000000000000000⟩), (8, 0, ⟨false, 8816516676169, 62500000000000000⟩), (8, 1, ⟨true, 257418501496337, 400000000000000000⟩), (10, 2, ⟨false, 24644004970311, 320000000000000000⟩)]
theorem flTs3a_eq : flat exTs3a eyTs3a tbTs3a = flTs3a := by decide +kernel
theorem tbTs3a_ok : tbOk tbTs3a exTs3a.length eyTs3a.length = true := by decide +kernel
theorem Ts3a_same : List.Forall₂ (SameS 4) flTs3a (ps2T_3a_reg3_IJn : List (Int × Int × ℝ)) := by
  unfold flTs3a ps2T_3a_reg3_IJn
  repeat' first | exact .nil | refine .cons ⟨by norm_num, by norm_num, by norm_num [Co.val]⟩ ?_

/-! ### T(p, s) in 3b -/

def exTs3b : List Int := [-12, -8, -6, -5, -4, -3, -2, 14, 12, 8, 6, 5, 4, 3, 2, -1, 1, 0]
def eyTs3b : List Int := [24, 12, 7, 6, 4, 3, 2, 1, 0]
theorem exTs3b_eq : powE chxTs3b [-1, 1, 0] = exTs3b := by decide +kernel
theorem eyTs3b_eq : powE chyTs3b [1, 0] = eyTs3b := by decide +kernel
def flTs3b : List (Int × Int × Co) := [(-12, 1, ⟨false, 26355585080083, 200000000000000⟩), (-12, 3, ⟨true, 200658915026371, 320000000000000⟩), (-12, 4, ⟨false, 38255018283621, 64000000000000⟩), (-12, 7, ⟨true, 224799398218827, 1638400000000000⟩), (-8, 0, ⟨true, 24249185583631, 125000000000000⟩), (-8, 1, ⟨true, 17558444736721, 50000000000000⟩), (-8, 3, ⟨false, 53349984764253, 80000000000000⟩), (-6, 0, ⟨false, 752810643416743, 1000000000000000⟩), (-6, 2, ⟨false, 226657238616417, 160000000000000⟩), (-6, 4, ⟨true, 155718389227483, 64000000000000⟩), (-5, 0, ⟨true, 165205916983849, 250000000000000⟩), (-5, 1, ⟨false, 420633543635829, 2000000000000000⟩), (-5, 2, ⟨true, 253717501764397, 160000000000000⟩), (-5, 4, ⟨false, 121427240883237, 64000000000000⟩), (-5, 6, ⟨false, 176106303498111, 819200000000000⟩), (-4, 12, ⟨false, 132507796397313, 838860800000000⟩), (-3, 1, ⟨true, 359287150025783, 4000000000000000⟩), (-3, 6, ⟨true, 656991567673753, 4096000000000000⟩), (-2, 2, ⟨false, 241768149185367, 1600000000000000⟩), (0, 0, ⟨false, 214218365305647, 250000000000000⟩), (2, 1, ⟨false, 327571837656729, 2000000000000000⟩), (3, 1, ⟨true, 106767606603203, 2000000000000000⟩), (4, 0, ⟨false, 140743739401587, 25000000000000000⟩), (5, 24, ⟨true, 316955725450471, 281474976710656⟩), (6, 0, ⟨true, 699997000152457, 1000000000000000000⟩), (8, 3, ⟨false, 119845803210767, 640000000000000000⟩), (12, 1, ⟨false, 38769624404419, 8000000000000000000⟩), (14, 2, ⟨true, 215095749182309, 160000000000000000000⟩)]
theorem flTs3b_eq : flat exTs3b eyTs3b tbTs3b = flTs3b := by decide +kernel
theorem tbTs3b_ok : tbOk tbTs3b exTs3b.length eyTs3b.length = true := by decide +kernel
theorem Ts3b_same : List.Forall₂ (SameS 4) flTs3b (ps2T_3b_reg3_IJn : List (Int × Int × ℝ)) := by
  unfold flTs3b ps2T_3b_reg3_IJn
  repeat' first | exact .nil | refine .cons ⟨by norm_num, by norm_num, by norm_num [Co.val]⟩ ?_

/-! ### v(p, s) in 3a -/

def exVs3a : List Int := [-12, -10, -8, -6, -5, -4, -3, -2, 6, 5, 4, 2, -1, 1, 0]
def eyVs3a : List Int := [28, 20, 16, 14, 12, 10, 8, 6, 5, 4, 3, 2, 1, 0]
theorem exVs3a_eq : powE chxVs3a [-1, 1, 0] = exVs3a := by decide +kernel
theorem eyVs3a_eq : powE chyVs3a [1, 0] = eyVs3a := by decide +kernel
def flVs3a : List (Int × Int × Co) := [(-12, 10, ⟨false, 31821762963759, 419430400000000000⟩), (-12, 12, ⟨true, 23826124298459, 167772160000000000⟩), (-12, 14, ⟨false, 176813100617787, 2684354560000000000⟩), (-10, 4, ⟨true, 110524727080379, 25600000000000000000⟩), (-10, 8, ⟨true, 76606916827663, 327680000000000000⟩), (-10, 10, ⟨false, 148772299688491, 524288000000000000⟩), (-10, 20, ⟨true, 175157603435621, 5497558138880000000⟩), (-8, 5, ⟨false, 277513761062119, 1024000000000000000⟩), (-8, 6, ⟨true, 65495533879611, 512000000000000000⟩), (-8, 14, ⟨true, 148011182995403, 268435456000000000⟩), (-8, 16, ⟨false, 80007449687133, 214748364800000000⟩), (-6, 28, ⟨false, 170802322663427, 7205759403792793600⟩), (-5, 1, ⟨false, 123433498003247, 2000000000000000000⟩), (-4, 5, ⟨false, 8266304239899, 5120000000000000⟩), (-3, 2, ⟨true, 118008384666987, 16000000000000000⟩), (-3, 4, ⟨false, 2537986423559, 256000000000000⟩), (-2, 3, ⟨false, 60320481541839, 4000000000000000⟩), (-2, 8, ⟨true, 141086210266413, 327680000000000000⟩), (-1, 1, ⟨false, 203224612353823, 4000000000000000⟩), (-1, 2, ⟨false, 110648186063513, 1600000000000000⟩), (0, 0, ⟨false, 6576599355641, 12500000000000⟩), (0, 1, ⟨false, 277000018736321, 4000000000000000⟩), (0, 3, ⟨false, 27038335125283, 1600000000000000⟩), (1, 0, ⟨true, 744127885357893, 10000000000000000⟩), (2, 0, ⟨false, 20511805442673, 1250000000000000⟩), (4, 2, ⟨true, 136093655060213, 32000000000000000⟩), (5, 2, ⟨false, 6449714402541, 4000000000000000⟩), (6, 0, ⟨true, 4554683185763, 31250000000000000⟩)]
theorem flVs3a_eq : flat exVs3a eyVs3a tbVs3a = flVs3a := by decide +kernel
theorem tbVs3a_ok : tbOk tbVs3a exVs3a.length eyVs3a.length = true := by decide +kernel
theorem Vs3a_same : List.Forall₂ (SameS 4) flVs3a (ps2v_3a_reg3_IJn : List (Int × Int × ℝ)) := by
  unfold flVs3a ps2v_3a_reg3_IJn
  repeat' first | exact .nil | refine .cons ⟨by norm_num, by norm_num, by norm_num [Co.val]⟩ ?_

/-! ### v(p, s) in 3b -/

def exVs3b : List Int := [-12, -10, -8, -5, -4, -3, -2, 2, -1, 1, 0]
def eyVs3b : List Int := [12, 6, 5, 4, 3, 2, 1, 0]
theorem exVs3b_eq : powE chxVs3b [-1, 1, 0] = exVs3b := by decide +kernel
theorem eyVs3b_eq : powE chyVs3b [1, 0] = eyVs3b := by decide +kernel
def flVs3b : List (Int × Int × Co) := [(-12, 0, ⟨false, 295799890161119, 5000000000000000000⟩), (-12, 1, ⟨true, 2897906205279, 6250000000000000⟩), (-12, 2, ⟨false, 104190510480013, 160000000000000000⟩), (-12, 3, ⟨false, 59864730203859, 640000000000000000⟩), (-12, 5, ⟨true, 771391189901699, 1024000000000000000⟩), (-12, 6, ⟨false, 43137441389259, 102400000000000000⟩), (-10, 0, ⟨true, 233538039923263, 500000000000000000⟩), (-10, 1, ⟨false, 134533823384439, 40000000000000000⟩), (-10, 2, ⟨true, 161618867361099, 32000000000000000⟩), (-10, 4, ⟨false, 508139374365767, 256000000000000000⟩), (-8, 0, ⟨false, 128584643361683, 100000000000000000⟩), (-5, 1, ⟨true, 32779870783087, 80000000000000⟩), (-5, 2, ⟨false, 586938199318063, 1600000000000000⟩), (-5, 3, ⟨true, 292466667918613, 6400000000000000⟩), (-4, 0, ⟨true, 614076301499537, 100000000000000000⟩), (-4, 1, ⟨false, 144049753512293, 100000000000000⟩), (-4, 2, ⟨true, 30403330151697, 40000000000000⟩), (-4, 3, ⟨false, 20954692619743, 800000000000000⟩), (-3, 1, ⟨true, 744135838773463, 400000000000000⟩), (-2, 0, ⟨false, 378168091437659, 10000000000000000⟩), (-2, 1, ⟨false, 50179025378461, 50000000000000⟩), (-2, 2, ⟨false, 32055967495837, 32000000000000⟩), (-2, 3, ⟨false, 19865548709233, 400000000000000⟩), (-2, 4, ⟨true, 358362310304853, 25600000000000000⟩), (-2, 12, ⟨true, 115995260446827, 1677721600000000⟩), (0, 0, ⟨false, 199256573577909, 1000000000000000⟩), (0, 1, ⟨true, 59702453513, 1953125000000⟩), (0, 2, ⟨true, 95724571858293, 80000000000000⟩), (1, 0, ⟨true, 37612000726321, 2500000000000000⟩), (1, 2, ⟨false, 73203950081077, 80000000000000⟩), (2, 2, ⟨true, 32747778718823, 160000000000000⟩)]
theorem flVs3b_eq : flat exVs3b eyVs3b tbVs3b = flVs3b := by decide +kernel
theorem tbVs3b_ok : tbOk tbVs3b exVs3b.length eyVs3b.length = true := by decide +kernel
theorem Vs3b_same : List.Forall₂ (SameS 4) flVs3b (ps2v_3b_reg3_IJn : List (Int × Int × ℝ)) := by
  unfold flVs3b ps2v_3b_reg3_IJn
  repeat' first | exact .nil | refine .cons ⟨by norm_num, by norm_num, by norm_num [Co.val]⟩ ?_

end If97.Tm
