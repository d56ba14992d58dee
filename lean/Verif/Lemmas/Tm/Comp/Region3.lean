import Verif.Lemmas.Tm.Comp.Region2s
import Verif.Lemmas.Tm.Comp.Det

/-! The computations that the kernel runs, without Mathlib: the checks of region 3, in the coordinates δ = ρ/322 and
τ = 647.096/T.  What they establish is in `Lemmas/Taylor*.lean` and `Lemmas/Tm/`. -/

namespace If97.Tm

def chxV3a : List (Nat × Nat) := [(1, 1), (2, 0), (3, 0), (4, 0), (2, 0), (5, 5), (6, 0), (7, 0), (2, 0), (3, 0), (4, 0), (5, 0)]

def chyV3a : List (Nat × Nat) := [(0, 0), (1, 0), (2, 0), (3, 0), (4, 0), (5, 0), (6, 0), (6, 0), (7, 0), (6, 0), (9, 0), (8, 0)]

def tbV3a : List (Nat × List (Nat × Co)) :=
  [(0, [(7, ⟨false, 132486015741507, 25000000000000000⟩), (5, ⟨true, 170099690234461, 1000000000000000⟩), (3, ⟨false, 111323814312927, 10000000000000⟩), (1, ⟨true, 1743184985161, 800000000⟩)]),
  (1, [(9, ⟨true, 4048494623847, 8000000000000000⟩), (6, ⟨false, 139123809921331, 250000000000000⟩), (4, ⟨true, 14744886345219, 1562500000000⟩)]),
  (2, [(8, ⟨true, 297856807561527, 1000000000000000⟩), (3, ⟨false, 469676971858593, 5000000000000⟩)]),
  (3, [(10, ⟨false, 192944939465981, 10000000000000000⟩), (9, ⟨false, 421740664704763, 1000000000000000⟩), (0, ⟨true, 36891412628233, 10000000⟩)]),
  (4, [(11, ⟨true, 737566847600639, 100000000000000000⟩), (10, ⟨true, 177376621212183, 500000000000000⟩)]),
  (5, [(6, ⟨true, 199768169338727, 100000000000000⟩)]),
  (6, [(10, ⟨false, 115456297059049, 100000000000000⟩), (2, ⟨false, 14209171895399, 2500000000⟩)]),
  (12, [(13, ⟨false, 202042385031167, 25000000000000000⟩), (12, ⟨false, 172416341519307, 1000000000000000⟩), (11, ⟨false, 104270175292927, 100000000000000⟩), (10, ⟨true, 297691372792847, 1000000000000000⟩)]),
  (14, [(13, ⟨false, 560394465163593, 1000000000000000⟩), (12, ⟨false, 137617330588457, 500000000000000⟩)]),
  (13, [(13, ⟨true, 37086973716503, 250000000000000⟩), (12, ⟨true, 130228502695703, 2000000000000000⟩), (11, ⟨true, 146234357693151, 50000000000000⟩)]),
  (11, [(13, ⟨false, 132975219390533, 2000000000000000⟩), (11, ⟨false, 88083753565961, 25000000000000⟩)]),
  (10, [(13, ⟨true, 36585198078333, 2500000000000000⟩)]),
  (9, [(11, ⟨true, 28062935833523, 12500000000000⟩)]),
  (8, [(11, ⟨false, 55266732353071, 50000000000000⟩)]),
  (7, [(11, ⟨true, 102189336123903, 2500000000000000⟩)])]

def chxV3b : List (Nat × Nat) := [(1, 1), (1, 1), (2, 0), (3, 0), (2, 0), (3, 0), (2, 0)]

def chyV3b : List (Nat × Nat) := [(0, 0), (1, 0), (2, 0), (3, 0), (4, 0), (5, 0), (6, 0), (6, 0)]

def tbV3b : List (Nat × List (Nat × Co)) :=
  [(0, [(9, ⟨true, 112598467168159, 50000000000000000000000⟩), (8, ⟨false, 70337181656743, 5000000000000000000000⟩)]),
  (1, [(9, ⟨false, 2922301066007, 1250000000000000000⟩), (8, ⟨true, 331833715229001, 10000000000000000000⟩), (6, ⟨false, 53978389257159, 50000000000000000⟩), (3, ⟨true, 271382067378863, 1000000000000000⟩), (2, ⟨false, 107202262490333, 100000000000000⟩), (1, ⟨true, 426910664537691, 500000000000000⟩)]),
  (2, [(9, ⟨true, 107607097170263, 5000000000000000000⟩), (8, ⟨false, 76965608822273, 100000000000000000⟩), (7, ⟨true, 53892072554233, 12500000000000000⟩), (4, ⟨false, 453342167309331, 1000000000000000⟩), (3, ⟨true, 126937383968413, 250000000000000⟩), (0, ⟨true, 100475154528389, 1000000000000⟩)]),
  (3, [(6, ⟨true, 219201924648793, 1000000000000000⟩), (3, ⟨true, 321087965668917, 100000000000000⟩), (0, ⟨false, 607567815637771, 1000000000000⟩)]),
  (4, [(9, ⟨false, 139421612671483, 250000000000000000⟩), (7, ⟨false, 3749980800591, 20000000000000⟩)]),
  (5, [(8, ⟨false, 905368030448107, 100000000000000000⟩), (7, ⟨false, 57083434609737, 200000000000000⟩)]),
  (7, [(9, ⟨false, 164962015498049, 5000000000000000⟩), (8, ⟨false, 239897419685483, 1000000000000000⟩), (5, ⟨false, 241377497975697, 50000000000000⟩), (4, ⟨true, 118035753702231, 10000000000000⟩)]),
  (9, [(9, ⟨false, 169490044091791, 1000000000000000⟩)]),
  (8, [(9, ⟨true, 179967222507787, 10000000000000000⟩), (8, ⟨false, 185905058166337, 5000000000000000⟩)]),
  (6, [(7, ⟨true, 67036041883137, 1250000000000000⟩), (3, ⟨false, 4017427527313, 2500000000000⟩)])]

def chx3 : List (Nat × Nat) := [(0, 0), (1, 0), (2, 0), (3, 0), (4, 0), (5, 0), (6, 0), (7, 0), (8, 0), (9, 0)]

def chy3 : List (Nat × Nat) := [(0, 0), (1, 0), (2, 0), (3, 0), (4, 0), (5, 0), (5, 0), (7, 0), (8, 0), (9, 0), (9, 0), (11, 0), (12, 0), (13, 0), (11, 0), (15, 0), (16, 0), (16, 0), (18, 0)]

def tz3 : List (Nat × List (Nat × Co)) :=
  [(11, [(20, ⟨true, 15732845290239, 1000000000000⟩), (19, ⟨false, 20944396974307, 1000000000000⟩), (18, ⟨true, 19216926969679, 2500000000000⟩), (13, ⟨false, 13092973893977, 5000000000000⟩), (11, ⟨true, 1404039057431, 500000000000⟩), (9, ⟨false, 12053369696517, 10000000000000⟩), (2, ⟨true, 42283406406251, 5000000000000000⟩)]),
  (10, [(18, ⟨true, 6327157738857, 5000000000000⟩), (14, ⟨true, 11524407806681, 10000000000000⟩), (7, ⟨false, 44260521992159, 50000000000000⟩), (5, ⟨true, 64207765181607, 100000000000000⟩)]),
  (9, [(20, ⟨false, 38493460186671, 100000000000000⟩), (18, ⟨true, 42607354412103, 50000000000000⟩), (14, ⟨false, 48972281541877, 10000000000000⟩), (13, ⟨true, 6100523451393, 2000000000000⟩), (3, ⟨false, 19710268439577, 500000000000000⟩), (0, ⟨false, 3139602106077, 25000000000000⟩)]),
  (8, [(20, ⟨true, 2799932969871, 10000000000000⟩), (18, ⟨false, 694989978473, 500000000000⟩), (16, ⟨true, 2018991502357, 1000000000000⟩), (6, ⟨true, 82147637173963, 10000000000000000⟩), (0, ⟨true, 47596035734923, 100000000000000⟩)]),
  (7, [(20, ⟨false, 87968148947, 2000000000000⟩), (18, ⟨true, 44476435428739, 100000000000000⟩), (16, ⟨false, 90572070719733, 100000000000000⟩), (0, ⟨false, 70522450087967, 100000000000000⟩)]),
  (6, [(19, ⟨false, 2692628156583, 25000000000000⟩), (17, ⟨true, 16456811629477, 50000000000000⟩), (0, ⟨true, 25435531020579, 50000000000000⟩)]),
  (5, [(20, ⟨true, 2771925109137, 125000000000000⟩), (18, ⟨false, 23565187916273, 250000000000000⟩), (0, ⟨false, 16436278447961, 100000000000000⟩)]),
  (4, [(18, ⟨true, 3375843060337, 250000000000000⟩)]),
  (3, [(0, ⟨true, 1854293169059, 125000000000000⟩)]),
  (2, [(18, ⟨false, 14480738407021, 25000000000000000⟩), (0, ⟨false, 32308904703711, 10000000000000000⟩)]),
  (1, [(20, ⟨false, 16192960599243, 200000000000000000⟩), (19, ⟨true, 16557679795037, 100000000000000000⟩)]),
  (0, [(0, ⟨true, 8984779812363, 200000000000000000⟩)])]

def ti3 : List (Nat × List (Nat × Co)) :=
  [(11, [(20, ⟨false, 0, 1⟩), (19, ⟨false, 0, 1⟩), (18, ⟨false, 0, 1⟩), (13, ⟨false, 0, 1⟩), (11, ⟨false, 0, 1⟩), (9, ⟨false, 0, 1⟩), (2, ⟨false, 0, 1⟩)]),
  (10, [(18, ⟨true, 6327157738857, 5000000000000⟩), (14, ⟨true, 11524407806681, 10000000000000⟩), (7, ⟨false, 44260521992159, 50000000000000⟩), (5, ⟨true, 64207765181607, 100000000000000⟩)]),
  (9, [(20, ⟨false, 38493460186671, 50000000000000⟩), (18, ⟨true, 42607354412103, 25000000000000⟩), (14, ⟨false, 48972281541877, 5000000000000⟩), (13, ⟨true, 6100523451393, 1000000000000⟩), (3, ⟨false, 19710268439577, 250000000000000⟩), (0, ⟨false, 3139602106077, 12500000000000⟩)]),
  (8, [(20, ⟨true, 8399798909613, 10000000000000⟩), (18, ⟨false, 2084969935419, 500000000000⟩), (16, ⟨true, 6056974507071, 1000000000000⟩), (6, ⟨true, 246442911521889, 10000000000000000⟩), (0, ⟨true, 142788107204769, 100000000000000⟩)]),
  (7, [(20, ⟨false, 87968148947, 500000000000⟩), (18, ⟨true, 44476435428739, 25000000000000⟩), (16, ⟨false, 90572070719733, 25000000000000⟩), (0, ⟨false, 70522450087967, 25000000000000⟩)]),
  (6, [(19, ⟨false, 2692628156583, 5000000000000⟩), (17, ⟨true, 16456811629477, 10000000000000⟩), (0, ⟨true, 25435531020579, 10000000000000⟩)]),
  (5, [(20, ⟨true, 8315775327411, 62500000000000⟩), (18, ⟨false, 70695563748819, 125000000000000⟩), (0, ⟨false, 49308835343883, 50000000000000⟩)]),
  (4, [(18, ⟨true, 23630901422359, 250000000000000⟩)]),
  (3, [(0, ⟨true, 1854293169059, 15625000000000⟩)]),
  (2, [(18, ⟨false, 130326645663189, 25000000000000000⟩), (0, ⟨false, 290780142333399, 10000000000000000⟩)]),
  (1, [(20, ⟨false, 16192960599243, 20000000000000000⟩), (19, ⟨true, 16557679795037, 10000000000000000⟩)]),
  (0, [(0, ⟨true, 98832577935993, 200000000000000000⟩)])]

def tj3 : List (Nat × List (Nat × Co)) :=
  [(11, [(20, ⟨false, 0, 1⟩), (20, ⟨false, 20944396974307, 1000000000000⟩), (19, ⟨true, 19216926969679, 1250000000000⟩), (14, ⟨false, 91650817257839, 5000000000000⟩), (12, ⟨true, 1404039057431, 50000000000⟩), (10, ⟨false, 36160109089551, 2500000000000⟩), (3, ⟨true, 972518347343773, 5000000000000000⟩)]),
  (10, [(19, ⟨true, 6327157738857, 2500000000000⟩), (15, ⟨true, 34573223420043, 5000000000000⟩), (8, ⟨false, 132781565976477, 10000000000000⟩), (6, ⟨true, 1091532008087319, 100000000000000⟩)]),
  (9, [(20, ⟨false, 0, 1⟩), (19, ⟨true, 42607354412103, 25000000000000⟩), (15, ⟨false, 146916844625631, 5000000000000⟩), (14, ⟨true, 42703664159751, 2000000000000⟩), (4, ⟨false, 216812952835347, 250000000000000⟩), (1, ⟨false, 40814827379001, 12500000000000⟩)]),
  (8, [(20, ⟨false, 0, 1⟩), (19, ⟨false, 694989978473, 250000000000⟩), (17, ⟨true, 2018991502357, 250000000000⟩), (7, ⟨true, 82147637173963, 625000000000000⟩), (1, ⟨true, 618748464553999, 50000000000000⟩)]),
  (7, [(20, ⟨false, 0, 1⟩), (19, ⟨true, 44476435428739, 50000000000000⟩), (17, ⟨false, 90572070719733, 25000000000000⟩), (1, ⟨false, 916791851143571, 50000000000000⟩)]),
  (6, [(20, ⟨false, 2692628156583, 25000000000000⟩), (18, ⟨true, 49370434888431, 50000000000000⟩), (1, ⟨true, 330661903267527, 25000000000000⟩)]),
  (5, [(20, ⟨false, 0, 1⟩), (19, ⟨false, 23565187916273, 125000000000000⟩), (1, ⟨false, 213671619823493, 50000000000000⟩)]),
  (4, [(19, ⟨true, 3375843060337, 125000000000000⟩)]),
  (3, [(1, ⟨true, 24105811197767, 62500000000000⟩)]),
  (2, [(19, ⟨false, 14480738407021, 12500000000000000⟩), (1, ⟨false, 420015761148243, 5000000000000000⟩)]),
  (1, [(20, ⟨false, 0, 1⟩), (20, ⟨true, 16557679795037, 100000000000000000⟩)]),
  (0, [(1, ⟨true, 116802137560719, 100000000000000000⟩)])]

/-! T(p, h) in 3a -/

def chxT3a : List (Nat × Nat) := [(1, 1), (2, 0), (3, 0), (4, 0), (0, 0), (4, 0), (6, 6), (7, 0), (1, 0), (1, 0), (3, 0), (4, 0)]

def chyT3a : List (Nat × Nat) := [(0, 0), (1, 0), (2, 0), (3, 0), (4, 0), (2, 0), (5, 0), (6, 0), (7, 0), (6, 0), (9, 0)]

def tbT3a : List (Nat × List (Nat × Co)) :=
  [(0, [(12, ⟨true, 26729133562243, 200000000000000000000⟩), (11, ⟨false, 227956328401489, 50000000000000000000⟩), (10, ⟨true, 146294640700979, 10000000000000000000⟩), (6, ⟨false, 3995883206063, 625000000000000⟩), (3, ⟨false, 372783927268847, 1000000000000⟩), (2, ⟨true, 718654377460447, 100000000000⟩), (1, ⟨false, 2867473760517, 5000000⟩), (0, ⟨true, 267569329111439, 100000000⟩)]),
  (1, [(11, ⟨true, 167033141651307, 5000000000000000000⟩), (7, ⟨true, 245479214069597, 10000000000000000⟩), (4, ⟨false, 119521961941249, 2500000000000⟩)]),
  (2, [(12, ⟨false, 95583016477363, 12500000000000000000⟩), (10, ⟨false, 32087656919243, 25000000000000000⟩), (8, ⟨false, 171219081377331, 10000000000000000⟩), (5, ⟨true, 851007304583213, 100000000000000⟩)]),
  (3, [(10, ⟨true, 136513461629781, 10000000000000000⟩)]),
  (4, [(12, ⟨true, 384460997596657, 100000000000000000000⟩)]),
  (5, [(11, ⟨false, 67484761582331, 20000000000000000⟩), (9, ⟨true, 551624873066791, 1000000000000000⟩), (8, ⟨false, 72920227710747, 100000000000000⟩)]),
  (12, [(12, ⟨true, 992522757376041, 100000000000000000⟩), (10, ⟨true, 14913603925911, 125000000000000⟩)]),
  (14, [(12, ⟨false, 793929190615421, 1000000000000000⟩), (11, ⟨false, 227135365899693, 500000000000000⟩)]),
  (13, [(11, ⟨false, 20999859125991, 100000000000000⟩)]),
  (10, [(12, ⟨true, 321054911952369, 50000000000000000⟩), (11, ⟨true, 11757793430227, 500000000000000⟩)]),
  (9, [(12, ⟨false, 63058277085403, 25000000000000000⟩), (9, ⟨true, 764885133368119, 100000000000000000⟩)]),
  (7, [(8, ⟨false, 136176427574291, 10000000000000000⟩)]),
  (6, [(7, ⟨true, 133027883575669, 10000000000000000⟩)])]

/-! T(p, h) in 3b -/

def chxT3b : List (Nat × Nat) := [(1, 1), (2, 0), (1, 0), (4, 0), (3, 0), (5, 5), (6, 0), (7, 0), (2, 0), (3, 0), (4, 0), (5, 0)]

def chyT3b : List (Nat × Nat) := [(0, 0), (0, 0), (2, 0), (3, 0), (2, 0), (4, 0), (5, 0), (6, 0)]

def tbT3b : List (Nat × List (Nat × Co)) :=
  [(0, [(9, ⟨false, 8081364341123, 250000000000000000⟩), (8, ⟨true, 127575556587181, 1000000000000000000⟩)]),
  (1, [(9, ⟨true, 118962969339017, 250000000000000000⟩), (8, ⟨false, 78091507090801, 50000000000000000⟩), (5, ⟨false, 105724860113781, 1000000000000000⟩), (3, ⟨true, 429257110566267, 5000000000000⟩), (2, ⟨false, 724140095480911, 1000000000000⟩)]),
  (2, [(9, ⟨false, 296475810273257, 100000000000000000⟩), (8, ⟨true, 148180495841497, 25000000000000000⟩), (7, ⟨true, 63152711409333, 5000000000000000⟩), (6, ⟨true, 115716196364853, 1000000000000000⟩), (3, ⟨false, 169800193947919, 2000000000000⟩)]),
  (3, [(9, ⟨true, 21720452017323, 2000000000000000⟩), (8, ⟨false, 154304475328851, 10000000000000000⟩), (7, ⟨false, 375227720762233, 5000000000000000⟩)]),
  (4, [(9, ⟨false, 126260486806491, 5000000000000000⟩), (8, ⟨true, 150626975308249, 2500000000000000⟩)]),
  (5, [(5, ⟨true, 307622221350501, 100000000000000⟩)]),
  (6, [(9, ⟨true, 574011959864879, 10000000000000000⟩), (6, ⟨false, 503471360939849, 100000000000000⟩)]),
  (12, [(7, ⟨true, 462540944292417, 500000000000000⟩), (6, ⟨false, 195866941458773, 50000000000000⟩), (4, ⟨true, 77314600713019, 1000000000000⟩), (3, ⟨false, 949308762098587, 100000000000⟩), (1, ⟨true, 141043719679409, 100000000⟩), (0, ⟨false, 424583115409513, 50000000⟩)]),
  (14, [(9, ⟨false, 53818483090419, 62500000000000⟩), (7, ⟨false, 8083661070293, 25000000000000⟩)]),
  (13, [(8, ⟨false, 873281936020439, 1000000000000000⟩)]),
  (10, [(8, ⟨true, 436653048526683, 1000000000000000⟩)]),
  (9, [(8, ⟨false, 286596714529479, 1000000000000000⟩)]),
  (8, [(8, ⟨true, 32944582819057, 250000000000000⟩)]),
  (7, [(8, ⟨false, 27067282573211, 4000000000000000⟩)])]

/-! T(p, s) in 3a, in 4σ -/

def chxTs3a : List (Nat × Nat) := [(1, 1), (2, 0), (3, 0), (0, 0), (3, 0), (5, 5), (0, 0), (7, 0), (8, 0), (3, 0), (4, 0), (5, 0)]

def chyTs3a : List (Nat × Nat) := [(0, 0), (1, 0), (2, 0), (3, 0), (4, 0), (5, 0), (6, 0), (6, 0), (7, 0), (8, 0), (0, 0), (8, 0), (9, 0)]

def tbTs3a : List (Nat × List (Nat × Co)) :=
  [(0, [(2, ⟨false, 1200336066111, 57646075230342348800⟩), (1, ⟨true, 19924657310053, 2305843009213693952000⟩)]),
  (1, [(10, ⟨false, 20087245608719, 10240000000000000000⟩), (5, ⟨true, 336028883927733, 5242880000000000000⟩), (4, ⟨false, 18132318175557, 209715200000000000⟩), (3, ⟨true, 82388953488889, 2684354560000000000⟩)]),
  (2, [(9, ⟨true, 154852214233853, 1024000000000000000⟩), (7, ⟨false, 22461009349339, 32768000000000000⟩), (6, ⟨true, 148500106741411, 327680000000000000⟩), (2, ⟨false, 87713026527099, 144115188075855872000⟩)]),
  (3, [(12, ⟨false, 17229729829433, 200000000000000000⟩), (8, ⟨true, 148739263578731, 204800000000000000⟩), (1, ⟨false, 971777947349413, 1844674407370955161600⟩)]),
  (4, [(14, ⟨true, 285763883526199, 5000000000000000000⟩), (3, ⟨false, 14415397488921, 134217728000000000⟩), (1, ⟨true, 744428289262703, 184467440737095516160⟩)]),
  (5, [(8, ⟨false, 128017324848921, 40960000000000000⟩), (5, ⟨true, 368275545889071, 1048576000000000000⟩), (0, ⟨false, 3323844523895885, 2361183241434822606848⟩)]),
  (6, [(13, ⟨false, 2808495324743, 250000000000000⟩), (10, ⟨true, 84579567219931, 5120000000000000⟩)]),
  (12, [(13, ⟨true, 240614376434179, 4000000000000000⟩), (8, ⟨true, 118585341313731, 102400000000000000⟩)]),
  (14, [(14, ⟨false, 72409399912611, 100000000000000⟩), (13, ⟨false, 923874349695897, 4000000000000000⟩), (10, ⟨false, 79808731056203, 5120000000000000⟩)]),
  (13, [(14, ⟨false, 384066651868009, 10000000000000000⟩)]),
  (11, [(14, ⟨true, 44918045696481, 12500000000000000⟩), (11, ⟨true, 735196448821653, 64000000000000000⟩)]),
  (10, [(12, ⟨false, 188367048396131, 16000000000000000⟩)]),
  (8, [(14, ⟨false, 8816516676169, 62500000000000000⟩), (13, ⟨true, 257418501496337, 400000000000000000⟩)]),
  (7, [(12, ⟨false, 24644004970311, 320000000000000000⟩)])]

/-! T(p, s) in 3b, in 4σ -/

def chxTs3b : List (Nat × Nat) := [(1, 1), (2, 0), (3, 0), (4, 0), (5, 0), (4, 0), (3, 0), (6, 0), (8, 8), (9, 0), (10, 0), (11, 0), (12, 0), (4, 0), (3, 0)]

def chyTs3b : List (Nat × Nat) := [(0, 0), (1, 0), (2, 0), (2, 0), (4, 0), (1, 1), (0, 0)]

def tbTs3b : List (Nat × List (Nat × Co)) :=
  [(0, [(7, ⟨false, 26355585080083, 200000000000000⟩), (5, ⟨true, 200658915026371, 320000000000000⟩), (4, ⟨false, 38255018283621, 64000000000000⟩), (2, ⟨true, 224799398218827, 1638400000000000⟩)]),
  (1, [(8, ⟨true, 24249185583631, 125000000000000⟩), (7, ⟨true, 17558444736721, 50000000000000⟩), (5, ⟨false, 53349984764253, 80000000000000⟩)]),
  (2, [(8, ⟨false, 752810643416743, 1000000000000000⟩), (6, ⟨false, 226657238616417, 160000000000000⟩), (4, ⟨true, 155718389227483, 64000000000000⟩)]),
  (3, [(8, ⟨true, 165205916983849, 250000000000000⟩), (7, ⟨false, 420633543635829, 2000000000000000⟩), (6, ⟨true, 253717501764397, 160000000000000⟩), (4, ⟨false, 121427240883237, 64000000000000⟩), (3, ⟨false, 176106303498111, 819200000000000⟩)]),
  (4, [(1, ⟨false, 132507796397313, 838860800000000⟩)]),
  (5, [(7, ⟨true, 359287150025783, 4000000000000000⟩), (3, ⟨true, 656991567673753, 4096000000000000⟩)]),
  (6, [(6, ⟨false, 241768149185367, 1600000000000000⟩)]),
  (17, [(8, ⟨false, 214218365305647, 250000000000000⟩)]),
  (14, [(7, ⟨false, 327571837656729, 2000000000000000⟩)]),
  (13, [(7, ⟨true, 106767606603203, 2000000000000000⟩)]),
  (12, [(8, ⟨false, 140743739401587, 25000000000000000⟩)]),
  (11, [(0, ⟨true, 316955725450471, 281474976710656⟩)]),
  (10, [(8, ⟨true, 699997000152457, 1000000000000000000⟩)]),
  (9, [(5, ⟨false, 119845803210767, 640000000000000000⟩)]),
  (8, [(7, ⟨false, 38769624404419, 8000000000000000000⟩)]),
  (7, [(6, ⟨true, 215095749182309, 160000000000000000000⟩)])]

/-! v(p, s) in 3a, in 4σ -/

def chxVs3a : List (Nat × Nat) := [(1, 1), (0, 0), (3, 0), (4, 0), (4, 4), (5, 0), (6, 0), (7, 0), (8, 0), (4, 0), (5, 0), (6, 0)]

def chyVs3a : List (Nat × Nat) := [(0, 0), (1, 0), (2, 0), (3, 0), (4, 0), (4, 0), (5, 0), (6, 0), (7, 0), (8, 0), (7, 0), (5, 0)]

def tbVs3a : List (Nat × List (Nat × Co)) :=
  [(0, [(5, ⟨false, 31821762963759, 419430400000000000⟩), (4, ⟨true, 23826124298459, 167772160000000000⟩), (3, ⟨false, 176813100617787, 2684354560000000000⟩)]),
  (1, [(9, ⟨true, 110524727080379, 25600000000000000000⟩), (6, ⟨true, 76606916827663, 327680000000000000⟩), (5, ⟨false, 148772299688491, 524288000000000000⟩), (1, ⟨true, 175157603435621, 5497558138880000000⟩)]),
  (2, [(8, ⟨false, 277513761062119, 1024000000000000000⟩), (7, ⟨true, 65495533879611, 512000000000000000⟩), (3, ⟨true, 148011182995403, 268435456000000000⟩), (2, ⟨false, 80007449687133, 214748364800000000⟩)]),
  (3, [(0, ⟨false, 170802322663427, 7205759403792793600⟩)]),
  (4, [(12, ⟨false, 123433498003247, 2000000000000000000⟩)]),
  (5, [(8, ⟨false, 8266304239899, 5120000000000000⟩)]),
  (6, [(11, ⟨true, 118008384666987, 16000000000000000⟩), (9, ⟨false, 2537986423559, 256000000000000⟩)]),
  (7, [(10, ⟨false, 60320481541839, 4000000000000000⟩), (6, ⟨true, 141086210266413, 327680000000000000⟩)]),
  (12, [(12, ⟨false, 203224612353823, 4000000000000000⟩), (11, ⟨false, 110648186063513, 1600000000000000⟩)]),
  (14, [(13, ⟨false, 6576599355641, 12500000000000⟩), (12, ⟨false, 277000018736321, 4000000000000000⟩), (10, ⟨false, 27038335125283, 1600000000000000⟩)]),
  (13, [(13, ⟨true, 744127885357893, 10000000000000000⟩)]),
  (11, [(13, ⟨false, 20511805442673, 1250000000000000⟩)]),
  (10, [(11, ⟨true, 136093655060213, 32000000000000000⟩)]),
  (9, [(11, ⟨false, 6449714402541, 4000000000000000⟩)]),
  (8, [(13, ⟨true, 4554683185763, 31250000000000000⟩)])]

/-! v(p, s) in 3b, in 4σ -/

def chxVs3b : List (Nat × Nat) := [(1, 1), (1, 1), (2, 0), (3, 0), (4, 0), (2, 0), (4, 0), (5, 0)]

def chyVs3b : List (Nat × Nat) := [(0, 0), (1, 0), (2, 0), (3, 0), (4, 0), (0, 0)]

def tbVs3b : List (Nat × List (Nat × Co)) :=
  [(0, [(7, ⟨false, 295799890161119, 5000000000000000000⟩), (6, ⟨true, 2897906205279, 6250000000000000⟩), (5, ⟨false, 104190510480013, 160000000000000000⟩), (4, ⟨false, 59864730203859, 640000000000000000⟩), (2, ⟨true, 771391189901699, 1024000000000000000⟩), (1, ⟨false, 43137441389259, 102400000000000000⟩)]),
  (1, [(7, ⟨true, 233538039923263, 500000000000000000⟩), (6, ⟨false, 134533823384439, 40000000000000000⟩), (5, ⟨true, 161618867361099, 32000000000000000⟩), (3, ⟨false, 508139374365767, 256000000000000000⟩)]),
  (2, [(7, ⟨false, 128584643361683, 100000000000000000⟩)]),
  (3, [(6, ⟨true, 32779870783087, 80000000000000⟩), (5, ⟨false, 586938199318063, 1600000000000000⟩), (4, ⟨true, 292466667918613, 6400000000000000⟩)]),
  (4, [(7, ⟨true, 614076301499537, 100000000000000000⟩), (6, ⟨false, 144049753512293, 100000000000000⟩), (5, ⟨true, 30403330151697, 40000000000000⟩), (4, ⟨false, 20954692619743, 800000000000000⟩)]),
  (5, [(6, ⟨true, 744135838773463, 400000000000000⟩)]),
  (6, [(7, ⟨false, 378168091437659, 10000000000000000⟩), (6, ⟨false, 50179025378461, 50000000000000⟩), (5, ⟨false, 32055967495837, 32000000000000⟩), (4, ⟨false, 19865548709233, 400000000000000⟩), (3, ⟨true, 358362310304853, 25600000000000000⟩), (0, ⟨true, 115995260446827, 1677721600000000⟩)]),
  (10, [(7, ⟨false, 199256573577909, 1000000000000000⟩), (6, ⟨true, 59702453513, 1953125000000⟩), (5, ⟨true, 95724571858293, 80000000000000⟩)]),
  (9, [(7, ⟨true, 37612000726321, 2500000000000000⟩), (5, ⟨false, 73203950081077, 80000000000000⟩)]),
  (7, [(5, ⟨true, 32747778718823, 160000000000000⟩)])]


/-- δ, τ and what the pressure needs: powers, δ φ_δ, 1/τ, p -/
noncomputable def st3t (P : Par) (d t : TM) (k : List TM → List TM → TM → TM → TM → Bool) : Bool :=
  pows P chx3 (fun xs => pows P chy3 (fun ys => poly P xs ys (fun c =>
    lin P [c, tone P] [(0, ⟨false, 1, 1⟩), (1, ⟨false, 10658070028513, 10000000000000⟩)] fun c => refresh P c fun c =>
    inv P 4 t fun ti => mul P d ti fun m => mul P m c fun m =>
    lin P [m] [(0, ⟨false, 3005182011741, 31250000000⟩)] fun p => refresh P p fun p => k xs ys c ti p)
    ti3 (nat_lit 0) (nat_lit 0) (nat_lit 0) (nat_lit 0)) [t, tone P]) [d, tone P]

/-- does the box lie above 100 MPa, or below the pressure b2/τ² + b1/τ + b0? -/
noncomputable def kOut (P : Par) (b2 b1 b0 : Co) (d t : TM) : Bool :=
  st3t P d t fun _ _ _ ti p => Bool.rec
    (mul P ti ti fun t2 => lin P [t2, ti, tone P, p] [(0, b2), (1, b1), (2, b0), (3, ⟨true, 1, 1⟩)] fun w => pos P w) true
    (lin P [p, tone P] [(0, ⟨false, 1, 1⟩), (1, ⟨true, 100, 1⟩)] fun w => pos P w)

/-- the enthalpy, and its distance to the boundary of 3a and 3b -/
noncomputable def hw3 (P : Par) (d t : TM) (k : TM → TM → TM → TM → Bool) : Bool :=
  st3t P d t fun xs ys c ti p => poly P xs ys (fun a => mul P t a fun m =>
    lin P [m, c] [(0, ⟨false, 1, 1⟩), (1, ⟨false, 1, 1⟩)] fun e => refresh P e fun e => mul P e ti fun e =>
    lin P [e] [(0, ⟨false, 18665726781, 62500000⟩)] fun h => refresh P h fun h => mul P p p fun p2 => mul P p2 p fun p3 =>
    lin P [h, tone P, p, p2, p3] [(0, ⟨false, 1, 1⟩), (1, ⟨true, 322342406731, 160000000⟩), (2, ⟨true, 374696550136983, 100000000000000⟩), (3, ⟨false, 219921901054187, 10000000000000000⟩), (4, ⟨true, 17502633720199, 200000000000000000⟩)] fun w => refresh P w fun w =>
    k ti p h w)
    tj3 (nat_lit 0) (nat_lit 0) (nat_lit 0) (nat_lit 0)

/-- the entropy, and its distance to the critical one -/
noncomputable def sw3 (P : Par) (c : LogC) (d t : TM) (k : TM → TM → TM → TM → Bool) : Bool :=
  st3t P d t fun xs ys _ ti p => poly P xs ys (fun a => poly P xs ys (fun f => logT P c d fun l => mul P t a fun m =>
    lin P [m, f, l] [(0, ⟨false, 461526, 1000000⟩), (1, ⟨true, 461526, 1000000⟩),
      (2, ⟨true, 2459488213989745419, 5000000000000000000⟩)] fun s => refresh P s fun s =>
    lin P [s, tone P] [(0, ⟨false, 1, 1⟩), (1, ⟨true, 110300537055869, 25000000000000⟩)] fun w => refresh P w fun w => k ti p s w)
    tz3 (nat_lit 0) (nat_lit 0) (nat_lit 0) (nat_lit 0)) tj3 (nat_lit 0) (nat_lit 0) (nat_lit 0) (nat_lit 0)

/-- is |f r - 647.096/τ| at most 25 mK? -/
noncomputable def closeT (P : Par) (f : Nat) (ti r : TM) : Bool :=
  refresh P r fun r => lin P [r, ti] [(0, ⟨false, f, 1⟩), (1, ⟨true, 647096, 1000⟩)] fun e =>
  force (Nat.div (Nat.mul (nat_lit 1) P.one) (nat_lit 40)) fun tol => bnd P e tol

/-- is |f r δ - 1| at most 0.01 %? -/
noncomputable def closeV (P : Par) (f : Co) (d r : TM) : Bool :=
  refresh P r fun r => mul P r d fun e => lin P [e, tone P] [(0, f), (1, ⟨true, 1, 1⟩)] fun e =>
  force (Nat.div (Nat.mul (nat_lit 1) P.one) (nat_lit 10000)) fun tol => bnd P e tol

/-- a polynomial in x = a p + b, 1/x and y = c z + e -/
noncomputable def back3 (P : Par) (a b c e : Co) (chx chy : List (Nat × Nat)) (tb : List (Nat × List (Nat × Co)))
    (p z : TM) (k : TM → Bool) : Bool :=
  lin P [p, tone P] [(0, a), (1, b)] fun X => refresh P X fun X =>
  lin P [z, tone P] [(0, c), (1, e)] fun Y => refresh P Y fun Y =>
  inv P 4 X fun Xi => pows P chx (fun xs => pows P chy (fun ys => poly P xs ys k tb (nat_lit 0) (nat_lit 0) (nat_lit 0)
    (nat_lit 0)) [Y, tone P]) [Xi, X, tone P]

noncomputable def phA (P : Par) (d ti p h : TM) : Bool :=
  gd (back3 P ⟨false, 1, 100⟩ ⟨false, 240, 1000⟩ ⟨false, 1, 2300⟩ ⟨true, 615, 1000⟩ chxT3a chyT3a tbT3a p h (closeT P 760 ti))
    (back3 P ⟨false, 1, 100⟩ ⟨false, 128, 1000⟩ ⟨false, 1, 2100⟩ ⟨true, 727, 1000⟩ chxV3a chyV3a tbV3a p h (closeV P ⟨false, 1127, 1250⟩ d))

noncomputable def phB (P : Par) (d ti p h : TM) : Bool :=
  gd (back3 P ⟨false, 1, 100⟩ ⟨false, 298, 1000⟩ ⟨false, 1, 2800⟩ ⟨true, 720, 1000⟩ chxT3b chyT3b tbT3b p h (closeT P 860 ti))
    (back3 P ⟨false, 1, 100⟩ ⟨false, 661, 10000⟩ ⟨false, 1, 2800⟩ ⟨true, 720, 1000⟩ chxV3b chyV3b tbV3b p h (closeV P ⟨false, 1771, 625⟩ d))

noncomputable def psA (P : Par) (d ti p s : TM) : Bool :=
  gd (back3 P ⟨false, 1, 100⟩ ⟨false, 240, 1000⟩ ⟨false, 40, 44⟩ ⟨true, 2812, 1000⟩ chxTs3a chyTs3a tbTs3a p s (closeT P 760 ti))
    (back3 P ⟨false, 1, 100⟩ ⟨false, 187, 1000⟩ ⟨false, 40, 44⟩ ⟨true, 3020, 1000⟩ chxVs3a chyVs3a tbVs3a p s (closeV P ⟨false, 1127, 1250⟩ d))

noncomputable def psB (P : Par) (d ti p s : TM) : Bool :=
  gd (back3 P ⟨false, 1, 100⟩ ⟨false, 760, 1000⟩ ⟨false, 40, 53⟩ ⟨true, 3272, 1000⟩ chxTs3b chyTs3b tbTs3b p s (closeT P 860 ti))
    (back3 P ⟨false, 1, 100⟩ ⟨false, 298, 1000⟩ ⟨false, 40, 53⟩ ⟨true, 3264, 1000⟩ chxVs3b chyVs3b tbVs3b p s (closeV P ⟨false, 1771, 625⟩ d))

noncomputable def npos (P : Par) (w : TM) : Bool := lin P [w] [(0, ⟨true, 1, 1⟩)] fun w => pos P w

/-- (p, h): the box lies in 3a -/
noncomputable def bPh3a (P : Par) (d t : TM) : Bool := hw3 P d t fun ti p h w => gd (npos P w) (phA P d ti p h)
/-- (p, h): the box lies in 3b -/
noncomputable def bPh3b (P : Par) (d t : TM) : Bool := hw3 P d t fun ti p h w => gd (pos P w) (phB P d ti p h)
/-- (p, h): across the boundary -/
noncomputable def bPh3c (P : Par) (d t : TM) : Bool := hw3 P d t fun ti p h _ => gd (phA P d ti p h) (phB P d ti p h)
/-- (p, s): the box lies in 3a -/
noncomputable def bPs3a (P : Par) (c : LogC) (d t : TM) : Bool := sw3 P c d t fun ti p s w => gd (npos P w) (psA P d ti p s)
/-- (p, s): the box lies in 3b -/
noncomputable def bPs3b (P : Par) (c : LogC) (d t : TM) : Bool := sw3 P c d t fun ti p s w => gd (pos P w) (psB P d ti p s)
/-- (p, s): across the boundary -/
noncomputable def bPs3c (P : Par) (c : LogC) (d t : TM) : Bool := sw3 P c d t fun ti p s _ => gd (psA P d ti p s) (psB P d ti p s)

/-- pB23(647.096/τ) -/
noncomputable def kHot (P : Par) : TM → TM → Bool := kOut P ⟨false, 33344807036256208198847, 78125000000000000000⟩ ⟨true, 37764069204461513, 50000000000000⟩ ⟨false, 34805185628969, 100000000000⟩
/-- 22.064 MPa -/
noncomputable def kCold (P : Par) : TM → TM → Bool := kOut P ⟨false, 0, 1⟩ ⟨false, 0, 1⟩ ⟨false, 22064, 1000⟩

noncomputable def vPh3 (xr yr : Nat) (t : Tr4) : Nat → Nat → Nat → Nat → Bool :=
  verify4 (leafB P64 (bPh3a P64) xr yr) (leafB P64 (bPh3b P64) xr yr) (leafB P64 (bPh3c P64) xr yr)
    (leafB P64 (kHot P64) xr yr) xr yr t
noncomputable def vPh3l (xr yr : Nat) (t : Tr4) : Nat → Nat → Nat → Nat → Bool :=
  verify4 (leafB P64 (bPh3a P64) xr yr) (leafB P64 (bPh3b P64) xr yr) (leafB P64 (bPh3c P64) xr yr)
    (leafB P64 (kCold P64) xr yr) xr yr t
noncomputable def vPs3 (c : LogC) (xr yr : Nat) (t : Tr4) : Nat → Nat → Nat → Nat → Bool :=
  verify4 (leafB P64 (bPs3a P64 c) xr yr) (leafB P64 (bPs3b P64 c) xr yr) (leafB P64 (bPs3c P64 c) xr yr)
    (leafB P64 (kHot P64) xr yr) xr yr t
noncomputable def vPs3l (c : LogC) (xr yr : Nat) (t : Tr4) : Nat → Nat → Nat → Nat → Bool :=
  verify4 (leafB P64 (bPs3a P64 c) xr yr) (leafB P64 (bPs3b P64 c) xr yr) (leafB P64 (bPs3c P64 c) xr yr)
    (leafB P64 (kCold P64) xr yr) xr yr t

/-! Constants for log δ in the bands 0.3–0.5–0.8–1.2–1.7–2.5 -/

def lcR1 : LogC := ⟨2, 5, ⟨true, 183258146374831013, 200000000000000000⟩, 63, 250, 369344⟩
def lcR2 : LogC := ⟨13, 20, ⟨true, 430782916092454257, 1000000000000000000⟩, 29, 125, 71644⟩
def lcR3 : LogC := ⟨1, 1, ⟨false, 0, 1⟩, 201, 1000, 12915⟩
def lcR4 : LogC := ⟨29, 20, ⟨false, 185781778216241517, 500000000000000000⟩, 87, 500, 10137⟩
def lcR5 : LogC := ⟨21, 10, ⟨false, 23185542022793041, 31250000000000000⟩, 24, 125, 11102⟩

end If97.Tm
