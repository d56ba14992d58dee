import Verif.Lemmas.Tm.Comp.Region2

/-! The computations that the kernel runs, without Mathlib: the checks of the second derivatives.  What they establish is in
`Lemmas/Taylor*.lean` and `Lemmas/Tm/`. -/

namespace If97.Tm

def chx1d : List (Nat × Nat) := [(0, 0), (1, 0), (2, 0), (3, 0), (4, 0), (5, 0), (6, 0), (7, 0), (8, 0), (1, 0), (10, 0), (11, 0), (12, 0), (13, 0), (11, 0), (15, 0), (16, 0), (17, 0), (18, 0), (19, 0)]

def chy1d : List (Nat × Nat) := [(1, 1), (2, 0), (3, 0), (4, 0), (5, 0), (4, 0), (7, 0), (8, 0), (4, 0), (10, 0), (11, 0), (11, 11), (12, 0), (13, 0), (14, 0), (15, 0), (16, 0), (17, 0), (18, 0), (19, 0), (20, 0), (21, 0), (22, 0), (23, 0), (24, 0), (1, 0), (26, 0), (27, 0), (28, 0), (29, 0), (15, 0), (31, 0), (32, 0), (33, 0), (34, 0), (35, 0)]

def ti1d : List (Nat × List (Nat × Co)) :=
  [(21, [(24, ⟨false, 0, 1⟩), (36, ⟨false, 0, 1⟩), (38, ⟨false, 0, 1⟩), (37, ⟨false, 0, 1⟩), (35, ⟨false, 0, 1⟩), (34, ⟨false, 0, 1⟩), (33, ⟨false, 0, 1⟩), (32, ⟨false, 0, 1⟩), (17, ⟨false, 7079770030951, 25000000000000000⟩), (19, ⟨true, 30353150782937, 50000000000000000⟩), (36, ⟨true, 18990068218419, 1000000000000000⟩), (38, ⟨true, 6505949754101, 200000000000000⟩), (37, ⟨true, 10920858587707, 500000000000000⟩), (34, ⟨true, 5283835796993, 100000000000000000⟩)]),
  (20, [(23, ⟨true, 47184321073267, 50000000000000000⟩), (38, ⟨true, 15000890396513, 25000000000000000⟩), (37, ⟨false, 47661393906987, 500000000000000000⟩), (34, ⟨true, 22070922665423, 2500000000000000000⟩), (25, ⟨true, 36347498148797, 25000000000000000000000000000⟩)]),
  (19, [(22, ⟨true, 47519467267581, 500000000000000000⟩), (38, ⟨true, 2650387311123, 312500000000000000⟩), (31, ⟨true, 255615384360309, 100000000000000000000000⟩)]),
  (18, [(21, ⟨true, 5606320477, 625000000000000⟩), (24, ⟨true, 65171222895601, 25000000000000000000⟩), (28, ⟨true, 3585432484481, 6250000000000000000000000⟩)]),
  (17, [(18, ⟨true, 40516996860117, 20000000000000000000⟩)]),
  (14, [(15, ⟨true, 12734301741641, 1250000000000000000000⟩), (20, ⟨true, 8712435615317, 6250000000000000000000⟩)]),
  (9, [(10, ⟨true, 1444004757206151, 100000000000000000000000000000000⟩)]),
  (7, [(8, ⟨false, 333001080055983, 1000000000000000000000000000000000⟩)]),
  (4, [(5, ⟨false, 152747533644211, 200000000000000000000000000000000000⟩)]),
  (3, [(4, ⟨true, 35842867920213, 100000000000000000000000000000000000⟩)]),
  (2, [(3, ⟨false, 141267733005881, 2500000000000000000000000000000000000⟩)]),
  (1, [(2, ⟨true, 46768543646229, 15625000000000000000000000000000000000⟩)])]

def tii1d : List (Nat × List (Nat × Co)) :=
  [(21, [(24, ⟨false, 0, 1⟩), (36, ⟨false, 0, 1⟩), (38, ⟨false, 0, 1⟩), (37, ⟨false, 0, 1⟩), (35, ⟨false, 0, 1⟩), (34, ⟨false, 0, 1⟩), (33, ⟨false, 0, 1⟩), (32, ⟨false, 0, 1⟩), (17, ⟨false, 0, 1⟩), (19, ⟨false, 0, 1⟩), (36, ⟨false, 0, 1⟩), (38, ⟨false, 0, 1⟩), (37, ⟨false, 0, 1⟩), (34, ⟨false, 0, 1⟩), (23, ⟨true, 47184321073267, 50000000000000000⟩), (38, ⟨true, 15000890396513, 25000000000000000⟩), (37, ⟨false, 47661393906987, 500000000000000000⟩), (34, ⟨true, 22070922665423, 2500000000000000000⟩), (25, ⟨true, 36347498148797, 25000000000000000000000000000⟩)]),
  (20, [(22, ⟨true, 47519467267581, 250000000000000000⟩), (38, ⟨true, 2650387311123, 156250000000000000⟩), (31, ⟨true, 255615384360309, 50000000000000000000000⟩)]),
  (19, [(21, ⟨true, 16818961431, 625000000000000⟩), (24, ⟨true, 195513668686803, 25000000000000000000⟩), (28, ⟨true, 10756297453443, 6250000000000000000000000⟩)]),
  (18, [(18, ⟨true, 40516996860117, 5000000000000000000⟩)]),
  (15, [(15, ⟨true, 89140112191487, 1250000000000000000000⟩), (20, ⟨true, 60987049307219, 6250000000000000000000⟩)]),
  (10, [(10, ⟨true, 1444004757206151, 5000000000000000000000000000000⟩)]),
  (8, [(8, ⟨false, 3663011880615813, 500000000000000000000000000000000⟩)]),
  (5, [(5, ⟨false, 1069232735509477, 50000000000000000000000000000000000⟩)]),
  (4, [(4, ⟨true, 1039443169686177, 100000000000000000000000000000000000⟩)]),
  (3, [(3, ⟨false, 423803199017643, 250000000000000000000000000000000000⟩)]),
  (2, [(2, ⟨true, 1449824853033099, 15625000000000000000000000000000000000⟩)])]

def tij1d : List (Nat × List (Nat × Co)) :=
  [(21, [(23, ⟨false, 0, 1⟩), (24, ⟨false, 0, 1⟩), (36, ⟨false, 0, 1⟩), (38, ⟨false, 0, 1⟩), (37, ⟨false, 0, 1⟩), (35, ⟨false, 0, 1⟩), (34, ⟨false, 0, 1⟩), (33, ⟨false, 0, 1⟩), (16, ⟨true, 63717930278559, 25000000000000000⟩), (18, ⟨false, 212472055480559, 50000000000000000⟩), (24, ⟨false, 18990068218419, 1000000000000000⟩), (36, ⟨false, 0, 1⟩), (38, ⟨true, 10920858587707, 500000000000000⟩), (35, ⟨true, 15851507390979, 100000000000000000⟩)]),
  (20, [(22, ⟨false, 141552963219801, 50000000000000000⟩), (36, ⟨false, 0, 1⟩), (38, ⟨false, 47661393906987, 500000000000000000⟩), (35, ⟨true, 66212767996269, 2500000000000000000⟩), (26, ⟨true, 617907468529549, 25000000000000000000000000000⟩)]),
  (19, [(21, ⟨false, 47519467267581, 125000000000000000⟩), (36, ⟨false, 0, 1⟩), (32, ⟨true, 766846153080927, 50000000000000000000000⟩)]),
  (18, [(20, ⟨false, 5606320477, 125000000000000⟩), (23, ⟨false, 65171222895601, 12500000000000000000⟩), (29, ⟨true, 3585432484481, 625000000000000000000000⟩)]),
  (17, [(17, ⟨false, 40516996860117, 2500000000000000000⟩)]),
  (14, [(14, ⟨false, 140077319158051, 1250000000000000000000⟩), (19, ⟨false, 26137306845951, 3125000000000000000000⟩)]),
  (9, [(9, ⟨false, 41876137958978379, 100000000000000000000000000000000⟩)]),
  (7, [(7, ⟨true, 10323033481735473, 1000000000000000000000000000000000⟩)]),
  (4, [(4, ⟨true, 2902203139240009, 100000000000000000000000000000000000⟩)]),
  (3, [(3, ⟨false, 1397871848888307, 100000000000000000000000000000000000⟩)]),
  (2, [(2, ⟨true, 141267733005881, 62500000000000000000000000000000000⟩)]),
  (1, [(1, ⟨false, 1917510289495389, 15625000000000000000000000000000000000⟩)])]

def tjj1d : List (Nat × List (Nat × Co)) :=
  [(21, [(22, ⟨false, 43898913639501, 50000000000000⟩), (23, ⟨true, 42274093584557, 25000000000000⟩), (24, ⟨false, 0, 1⟩), (36, ⟨false, 0, 1⟩), (38, ⟨true, 2993498855871, 1562500000000⟩), (37, ⟨false, 11829028884921, 12500000000000⟩), (35, ⟨true, 49849251598503, 250000000000000⟩), (34, ⟨false, 5075914373973, 312500000000000⟩)]),
  (20, [(15, ⟨false, 63717930278559, 2500000000000000⟩), (17, ⟨true, 212472055480559, 6250000000000000⟩), (23, ⟨true, 18990068218419, 500000000000000⟩), (24, ⟨false, 0, 1⟩), (36, ⟨false, 0, 1⟩), (37, ⟨true, 15851507390979, 50000000000000000⟩)]),
  (19, [(21, ⟨true, 141552963219801, 25000000000000000⟩), (24, ⟨false, 0, 1⟩), (36, ⟨false, 0, 1⟩), (37, ⟨true, 66212767996269, 2500000000000000000⟩), (27, ⟨true, 617907468529549, 3125000000000000000000000000⟩)]),
  (18, [(20, ⟨true, 15839822422527, 25000000000000000⟩), (24, ⟨false, 0, 1⟩), (33, ⟨true, 255615384360309, 10000000000000000000000⟩)]),
  (17, [(19, ⟨true, 16818961431, 250000000000000⟩), (22, ⟨true, 195513668686803, 50000000000000000000⟩), (30, ⟨true, 32268892360329, 2500000000000000000000000⟩)]),
  (16, [(16, ⟨true, 364652971741053, 12500000000000000000⟩)]),
  (13, [(13, ⟨true, 420231957474153, 2500000000000000000000⟩), (18, ⟨true, 182961147921657, 25000000000000000000000⟩)]),
  (8, [(8, ⟨true, 5982305422711197, 10000000000000000000000000000000⟩)]),
  (6, [(6, ⟨false, 448827542684151, 31250000000000000000000000000000⟩)]),
  (3, [(3, ⟨false, 3902962842426219, 100000000000000000000000000000000000⟩)]),
  (2, [(2, ⟨true, 465957282962769, 25000000000000000000000000000000000⟩)]),
  (1, [(1, ⟨false, 186837969459391, 62500000000000000000000000000000000⟩)]),
  (0, [(0, ⟨true, 40267716079403169, 250000000000000000000000000000000000000⟩)])]

def chx2d : List (Nat × Nat) := [(0, 0), (1, 0), (2, 0), (3, 0), (4, 0), (5, 0), (6, 0), (7, 0), (8, 0), (4, 0), (9, 0), (10, 0), (12, 0), (13, 0), (14, 0), (15, 0)]

def chy2d : List (Nat × Nat) := [(0, 0), (1, 0), (2, 0), (3, 0), (4, 0), (5, 0), (6, 0), (7, 0), (8, 0), (9, 0), (10, 0), (11, 0), (12, 0), (13, 0), (14, 0), (14, 0), (16, 0), (17, 0), (18, 0), (18, 0), (20, 0), (21, 0), (22, 0), (23, 0), (24, 0), (25, 0), (23, 0), (27, 0), (28, 0), (29, 0), (30, 0), (31, 0), (32, 0), (33, 0), (29, 0), (35, 0), (36, 0), (37, 0), (38, 0), (39, 0), (40, 0), (41, 0), (41, 0), (43, 0), (44, 0), (45, 0)]

def ti2d : List (Nat × List (Nat × Co)) :=
  [(16, [(47, ⟨true, 17731742473213, 10000000000000000⟩), (46, ⟨true, 8917431146179, 500000000000000⟩), (45, ⟨true, 9199202739273, 200000000000000⟩), (44, ⟨true, 7197657385429, 125000000000000⟩), (41, ⟨true, 5032527872793, 100000000000000⟩)]),
  (15, [(46, ⟨true, 33032641670203, 500000000000000000⟩), (45, ⟨true, 3789797503263, 10000000000000000⟩), (43, ⟨true, 7878555448671, 1000000000000000⟩), (40, ⟨true, 43797295650573, 500000000000000⟩), (16, ⟨true, 26674547914087, 500000000000000000⟩)]),
  (14, [(47, ⟨false, 61445213076927, 1000000000000000000000⟩), (46, ⟨false, 26322400370661, 20000000000000000000⟩), (44, ⟨true, 9683303171571, 100000000000000000⟩), (41, ⟨true, 11275443406611, 2500000000000000⟩), (17, ⟨true, 122004760687947, 1000000000000000⟩)]),
  (13, [(46, ⟨true, 78847309559367, 25000000000000000000000⟩), (45, ⟨false, 2558143570457, 50000000000000000000⟩), (44, ⟨false, 48225372718507, 25000000000000000000⟩)]),
  (12, [(40, ⟨false, 22922076337661, 2000000000000000000⟩)]),
  (11, [(44, ⟨true, 50144299353183, 500000000000000000000000⟩), (31, ⟨true, 12702883392813, 1000000000000000⟩), (17, ⟨true, 8960903225289, 62500000000⟩)]),
  (10, [(47, ⟨true, 41341695026989, 1000000000000000000000000000000⟩), (36, ⟨true, 88352662293707, 10000000000000000000⟩), (24, ⟨true, 272627897050173, 1000000000000000⟩)]),
  (9, [(39, ⟨false, 11256211360459, 125000000000000000000000⟩), (16, ⟨true, 41155670448999, 625000000000⟩)]),
  (8, [(34, ⟨false, 22285926902349, 125000000000000000000⟩)]),
  (7, [(43, ⟨false, 5203482605087, 5000000000000000000000000000000⟩), (37, ⟨true, 10234747095929, 10000000000000000000000000⟩), (33, ⟨true, 10018179379511, 1000000000000000000000⟩)]),
  (6, [(20, ⟨true, 16176581729397, 12500000000000000000000⟩), (7, ⟨false, 10693031879409, 6250000000000⟩)]),
  (5, [(1, ⟨true, 302960255167539, 50000000000000⟩)]),
  (4, [(28, ⟨false, 89185845355421, 5000000000000000000000000000000000000⟩), (17, ⟨false, 3828664609529, 625000000000000000000000⟩), (9, ⟨true, 1312577115569, 15625000000000000⟩)]),
  (3, [(27, ⟨true, 1240176623398419, 1000000000000000000000000000000000000000⟩)]),
  (2, [(4, ⟨false, 416096423748027, 5000000000000000000⟩)]),
  (1, [(13, ⟨true, 293678005497663, 10000000000000000000000000000⟩)]),
  (0, [(23, ⟨false, 219262831785183, 125000000000000000000000000000000000000000⟩), (12, ⟨false, 83122073026167, 62500000000000000000000000000⟩), (0, ⟨true, 28310912172363, 1250000000000000000⟩)])]

def tii2d : List (Nat × List (Nat × Co)) :=
  [(16, [(47, ⟨false, 0, 1⟩), (46, ⟨false, 0, 1⟩), (45, ⟨false, 0, 1⟩), (44, ⟨false, 0, 1⟩), (41, ⟨false, 0, 1⟩)]),
  (15, [(46, ⟨true, 33032641670203, 500000000000000000⟩), (45, ⟨true, 3789797503263, 10000000000000000⟩), (43, ⟨true, 7878555448671, 1000000000000000⟩), (40, ⟨true, 43797295650573, 500000000000000⟩), (16, ⟨true, 26674547914087, 500000000000000000⟩)]),
  (14, [(47, ⟨false, 61445213076927, 500000000000000000000⟩), (46, ⟨false, 26322400370661, 10000000000000000000⟩), (44, ⟨true, 9683303171571, 50000000000000000⟩), (41, ⟨true, 11275443406611, 1250000000000000⟩), (17, ⟨true, 122004760687947, 500000000000000⟩)]),
  (13, [(46, ⟨true, 236541928678101, 25000000000000000000000⟩), (45, ⟨false, 7674430711371, 50000000000000000000⟩), (44, ⟨false, 144676118155521, 25000000000000000000⟩)]),
  (12, [(40, ⟨false, 22922076337661, 500000000000000000⟩)]),
  (11, [(44, ⟨true, 50144299353183, 100000000000000000000000⟩), (31, ⟨true, 12702883392813, 200000000000000⟩), (17, ⟨true, 8960903225289, 12500000000⟩)]),
  (10, [(47, ⟨true, 124025085080967, 500000000000000000000000000000⟩), (36, ⟨true, 265057986881121, 5000000000000000000⟩), (24, ⟨true, 817883691150519, 500000000000000⟩)]),
  (9, [(39, ⟨false, 78793479523213, 125000000000000000000000⟩), (16, ⟨true, 288089693142993, 625000000000⟩)]),
  (8, [(34, ⟨false, 22285926902349, 15625000000000000000⟩)]),
  (7, [(43, ⟨false, 46831343445783, 5000000000000000000000000000000⟩), (37, ⟨true, 92112723863361, 10000000000000000000000000⟩), (33, ⟨true, 90163614415599, 1000000000000000000000⟩)]),
  (6, [(20, ⟨true, 48529745188191, 2500000000000000000000⟩), (7, ⟨false, 32079095638227, 1250000000000⟩)]),
  (5, [(1, ⟨true, 5150324337848163, 50000000000000⟩)]),
  (4, [(28, ⟨false, 1694531061752999, 5000000000000000000000000000000000000⟩), (17, ⟨false, 72744627581051, 625000000000000000000000⟩), (9, ⟨true, 24938965195811, 15625000000000000⟩)]),
  (3, [(27, ⟨true, 1240176623398419, 50000000000000000000000000000000000000⟩)]),
  (2, [(4, ⟨false, 8738024898708567, 5000000000000000000⟩)]),
  (1, [(13, ⟨true, 3230458060474293, 5000000000000000000000000000⟩)]),
  (0, [(23, ⟨false, 5043045131059209, 125000000000000000000000000000000000000000⟩), (12, ⟨false, 1911807679601841, 62500000000000000000000000000⟩), (0, ⟨true, 651150979964349, 1250000000000000000⟩)])]

def tij2d : List (Nat × List (Nat × Co)) :=
  [(16, [(47, ⟨false, 0, 1⟩), (47, ⟨true, 8917431146179, 500000000000000⟩), (46, ⟨true, 9199202739273, 100000000000000⟩), (45, ⟨true, 21592972156287, 125000000000000⟩), (42, ⟨true, 15097583618379, 50000000000000⟩)]),
  (15, [(47, ⟨true, 33032641670203, 500000000000000000⟩), (46, ⟨true, 3789797503263, 5000000000000000⟩), (44, ⟨true, 7878555448671, 250000000000000⟩), (41, ⟨true, 306581069554011, 500000000000000⟩), (17, ⟨true, 240070931226783, 125000000000000000⟩)]),
  (14, [(47, ⟨false, 0, 1⟩), (47, ⟨false, 26322400370661, 20000000000000000000⟩), (45, ⟨true, 29049909514713, 100000000000000000⟩), (42, ⟨true, 33826330219833, 1250000000000000⟩), (18, ⟨true, 854033324815629, 200000000000000⟩)]),
  (13, [(47, ⟨true, 78847309559367, 25000000000000000000000⟩), (46, ⟨false, 2558143570457, 25000000000000000000⟩), (45, ⟨false, 144676118155521, 25000000000000000000⟩)]),
  (12, [(41, ⟨false, 160454534363627, 2000000000000000000⟩)]),
  (11, [(45, ⟨true, 150432898059549, 500000000000000000000000⟩), (32, ⟨true, 12702883392813, 62500000000000⟩), (18, ⟨true, 62726322577023, 12500000000⟩)]),
  (10, [(47, ⟨false, 0, 1⟩), (37, ⟨true, 971879285230777, 10000000000000000000⟩), (25, ⟨true, 272627897050173, 40000000000000⟩)]),
  (9, [(40, ⟨false, 11256211360459, 15625000000000000000000⟩), (17, ⟨true, 370401034040991, 156250000000⟩)]),
  (8, [(35, ⟨false, 289717049730537, 125000000000000000000⟩)]),
  (7, [(44, ⟨false, 5203482605087, 1250000000000000000000000000000⟩), (38, ⟨true, 10234747095929, 1000000000000000000000000⟩), (34, ⟨true, 70127255656577, 500000000000000000000⟩)]),
  (6, [(21, ⟨true, 469120870152513, 12500000000000000000000⟩), (8, ⟨false, 10693031879409, 125000000000⟩)]),
  (5, [(2, ⟨true, 17268734544549723, 50000000000000⟩)]),
  (4, [(29, ⟨false, 89185845355421, 250000000000000000000000000000000000⟩), (18, ⟨false, 26800652266703, 125000000000000000000000⟩), (10, ⟨true, 3937731346707, 976562500000000⟩)]),
  (3, [(28, ⟨true, 26043709091366799, 1000000000000000000000000000000000000000⟩)]),
  (2, [(5, ⟨false, 22053110458645431, 5000000000000000000⟩)]),
  (1, [(14, ⟨true, 11453442214408857, 10000000000000000000000000000⟩)]),
  (0, [(24, ⟨false, 2850416813207379, 62500000000000000000000000000000000000000⟩), (13, ⟨false, 83122073026167, 1562500000000000000000000000⟩), (1, ⟨true, 821016452998527, 625000000000000000⟩)])]

def tjj2d : List (Nat × List (Nat × Co)) :=
  [(16, [(47, ⟨false, 0, 1⟩), (47, ⟨false, 0, 1⟩), (47, ⟨true, 9199202739273, 100000000000000⟩), (46, ⟨true, 21592972156287, 62500000000000⟩), (43, ⟨true, 15097583618379, 10000000000000⟩)]),
  (15, [(47, ⟨false, 0, 1⟩), (47, ⟨true, 3789797503263, 10000000000000000⟩), (45, ⟨true, 23635666346013, 500000000000000⟩), (42, ⟨true, 919743208662033, 500000000000000⟩), (18, ⟨true, 1680496518587481, 50000000000000000⟩)]),
  (14, [(47, ⟨false, 0, 1⟩), (47, ⟨false, 0, 1⟩), (46, ⟨true, 9683303171571, 50000000000000000⟩), (43, ⟨true, 11275443406611, 250000000000000⟩), (19, ⟨true, 4839522173955231, 100000000000000⟩)]),
  (13, [(47, ⟨false, 0, 1⟩), (47, ⟨false, 2558143570457, 100000000000000000000⟩), (46, ⟨false, 144676118155521, 50000000000000000000⟩)]),
  (12, [(42, ⟨false, 481363603090881, 5000000000000000000⟩)]),
  (11, [(46, ⟨true, 50144299353183, 500000000000000000000000⟩), (33, ⟨true, 12702883392813, 25000000000000⟩), (19, ⟨true, 355449161269797, 12500000000⟩)]),
  (10, [(47, ⟨false, 0, 1⟩), (38, ⟨true, 138839897890111, 1000000000000000000⟩), (26, ⟨true, 116840527307217, 5000000000000⟩)]),
  (9, [(41, ⟨false, 78793479523213, 125000000000000000000000⟩), (18, ⟨true, 2592807238286937, 250000000000⟩)]),
  (8, [(36, ⟨false, 96572349910179, 31250000000000000000⟩)]),
  (7, [(45, ⟨false, 15610447815261, 12500000000000000000000000000000⟩), (39, ⟨true, 92112723863361, 10000000000000000000000000⟩), (35, ⟨true, 911654323535501, 5000000000000000000000⟩)]),
  (6, [(22, ⟨true, 3283846091067591, 50000000000000000000000⟩), (9, ⟨false, 523958562091041, 2000000000000⟩)]),
  (5, [(3, ⟨true, 13431237979094229, 12500000000000⟩)]),
  (4, [(30, ⟨false, 1694531061752999, 5000000000000000000000000000000000000⟩), (19, ⟨false, 455611088533951, 1250000000000000000000000⟩), (11, ⟨true, 185073373295229, 19531250000000000⟩)]),
  (3, [(29, ⟨true, 1240176623398419, 50000000000000000000000000000000000000⟩)]),
  (2, [(6, ⟨false, 26062766905671873, 2500000000000000000⟩)]),
  (1, [(15, ⟨true, 9461539220598621, 5000000000000000000000000000⟩)]),
  (0, [(25, ⟨false, 950138937735793, 20000000000000000000000000000000000000000⟩), (14, ⟨false, 1080586949340171, 12500000000000000000000000000⟩), (2, ⟨true, 15599312606972013, 5000000000000000000⟩)])]

def chx5d : List (Nat × Nat) := [(0, 0), (1, 0)]

def chy5d : List (Nat × Nat) := [(0, 0), (1, 0), (1, 0), (3, 0), (4, 0), (5, 0), (6, 0)]

def ti5d : List (Nat × List (Nat × Co)) :=
  [(2, [(7, ⟨false, 15736404855259, 10000000000000000⟩), (6, ⟨false, 11269220209243, 12500000000000000⟩), (5, ⟨true, 3141879854853, 625000000000000⟩)]),
  (1, [(5, ⟨false, 4488007481897, 1000000000000000000⟩), (0, ⟨true, 41163275453471, 5000000000000000000⟩)]),
  (0, [(2, ⟨false, 22751672893773, 200000000000000000000⟩)])]

def tii5d : List (Nat × List (Nat × Co)) :=
  [(2, [(7, ⟨false, 0, 1⟩), (6, ⟨false, 0, 1⟩), (5, ⟨false, 0, 1⟩)]),
  (1, [(5, ⟨false, 4488007481897, 1000000000000000000⟩), (0, ⟨true, 41163275453471, 5000000000000000000⟩)]),
  (0, [(2, ⟨false, 22751672893773, 100000000000000000000⟩)])]

def tij5d : List (Nat × List (Nat × Co)) :=
  [(2, [(8, ⟨false, 15736404855259, 10000000000000000⟩), (7, ⟨false, 11269220209243, 6250000000000000⟩), (6, ⟨true, 9425639564559, 625000000000000⟩)]),
  (1, [(6, ⟨false, 13464022445691, 1000000000000000000⟩), (1, ⟨true, 370469479081239, 5000000000000000000⟩)]),
  (0, [(3, ⟨false, 159261710256411, 200000000000000000000⟩)])]

def tjj5d : List (Nat × List (Nat × Co)) :=
  [(2, [(8, ⟨false, 0, 1⟩), (8, ⟨false, 11269220209243, 6250000000000000⟩), (7, ⟨true, 9425639564559, 312500000000000⟩)]),
  (1, [(7, ⟨false, 13464022445691, 1000000000000000000⟩), (2, ⟨true, 370469479081239, 1250000000000000000⟩)]),
  (0, [(4, ⟨false, 159261710256411, 100000000000000000000⟩)])]

def cht2d : List (Nat × Nat) := [(0, 0), (1, 0), (2, 0), (3, 0), (4, 0), (5, 0)]

/-- γ⁰_ττ -/
def tz2d : List (Nat × Co) := [(5, ⟨false, 0, 1⟩), (6, ⟨false, 0, 1⟩), (0, ⟨true, 8413186692453, 50000000000000⟩), (1, ⟨false, 14290547616291, 10000000000000⟩), (2, ⟨true, 15266436833973, 3125000000000⟩), (3, ⟨false, 10680614378583, 1250000000000⟩), (4, ⟨true, 876790226389, 100000000000⟩), (8, ⟨true, 7102158115193, 12500000000000⟩), (7, ⟨false, 63805391259921, 500000000000000⟩)]

def cht5d : List (Nat × Nat) := [(0, 0), (1, 0), (2, 0), (3, 0)]

/-- γ⁰_ττ -/
def tz5d : List (Nat × Co) := [(3, ⟨false, 0, 1⟩), (4, ⟨false, 0, 1⟩), (0, ⟨true, 37207723400199, 125000000000000⟩), (1, ⟨false, 110704604940999, 50000000000000⟩), (2, ⟨true, 1246452728557, 200000000000⟩), (6, ⟨true, 32961626538917, 50000000000000⟩)]

noncomputable def bDet1 (k : Bool) (P : Par) (p tau : TM) : Bool :=
  lin P [p, tone P] [(1, ⟨false, 71, 10⟩), (0, ⟨true, 100, 1653⟩)] fun X => refresh P X fun X =>
  lin P [tau, tone P] [(0, ⟨false, 1, 1⟩), (1, ⟨true, 1222, 1000⟩)] fun Y => refresh P Y fun Y =>
  inv P 4 Y fun Yi =>
  pows P chx1d (fun xs => pows P chy1d (fun ys =>
    poly P xs ys (fun gp => poly P xs ys (fun gpp => poly P xs ys (fun gpt => poly P xs ys (fun gtt =>
      mul P tau tau fun t2 => mul P t2 gtt fun a => lin P [a] [(0, ⟨true, 1, 1⟩)] fun a => refresh P a fun a =>
      mul P tau gpt fun b => lin P [gp, b] [(0, ⟨true, 1, 1⟩), (1, ⟨false, 1, 1⟩)] fun b => refresh P b fun b =>
      lin P [gpp] [(0, ⟨true, 1, 1⟩)] fun c => refresh P c fun c =>
      gd (pos P a) (gd (lin P [gp] [(0, ⟨true, 1, 1⟩)] fun g => pos P g) (gd (cond k (pos P b) true)
      (mul P a c fun ac => mul P b b fun bb =>
      lin P [ac, bb] [(0, ⟨false, 1, 1⟩), (1, ⟨true, 1, 1⟩)] fun d => pos P d))))
      tjj1d (nat_lit 0) (nat_lit 0) (nat_lit 0) (nat_lit 0)) tij1d (nat_lit 0) (nat_lit 0) (nat_lit 0) (nat_lit 0))
      tii1d (nat_lit 0) (nat_lit 0) (nat_lit 0) (nat_lit 0)) ti1d (nat_lit 0) (nat_lit 0) (nat_lit 0) (nat_lit 0))
    [Yi, Y, tone P]) [X, tone P]

/-- the check, given models of π γʳ_π, π² γʳ_ππ, π γʳ_πτ, γ_ττ; with `k` also A > (πB)² and A < A π²C + (πB)² -/
noncomputable def dets (P : Par) (k : Bool) (tau gp gpp gpt gtt : TM) : Bool :=
  mul P tau tau fun t2 => mul P t2 gtt fun a => lin P [a] [(0, ⟨true, 1, 1⟩)] fun a => refresh P a fun a =>
  mul P tau gpt fun b =>
  lin P [gp, tone P, b] [(0, ⟨false, 1, 1⟩), (1, ⟨false, 1, 1⟩), (2, ⟨true, 1, 1⟩)] fun b => refresh P b fun b =>
  lin P [gpp, tone P] [(0, ⟨true, 1, 1⟩), (1, ⟨false, 1, 1⟩)] fun c => refresh P c fun c =>
  gd (pos P a) (gd (pos P b) (gd (lin P [gp, tone P] [(0, ⟨false, 1, 1⟩), (1, ⟨false, 1, 1⟩)] fun g => pos P g)
  (mul P a c fun ac => mul P b b fun bb =>
  gd (lin P [ac, bb] [(0, ⟨false, 1, 1⟩), (1, ⟨true, 1, 1⟩)] fun d => pos P d)
  (cond k (gd (lin P [a, bb] [(0, ⟨false, 1, 1⟩), (1, ⟨true, 1, 1⟩)] fun d => pos P d)
    (lin P [ac, a, bb] [(0, ⟨false, 1, 1⟩), (1, ⟨true, 1, 1⟩), (2, ⟨false, 1, 1⟩)] fun d => pos P d)) true))))

noncomputable def bDet2 (P : Par) (b tau : TM) : Bool :=
  p4 P b fun p =>
  lin P [tau, tone P] [(0, ⟨false, 1, 1⟩), (1, ⟨true, 1, 2⟩)] fun Y => refresh P Y fun Y =>
  inv P 4 tau fun ti =>
  pows P chx2d (fun xs => pows P chy2d (fun ys => pows P cht2d (fun ts =>
    poly P xs ys (fun gp => poly P xs ys (fun gpp => poly P xs ys (fun gpt => lin P ts tz2d fun g0 =>
      poly P xs ys (fun gr => lin P [g0, gr] [(0, ⟨false, 1, 1⟩), (1, ⟨false, 1, 1⟩)] fun gtt =>
        dets P false tau gp gpp gpt gtt)
      tjj2d (nat_lit 0) (nat_lit 0) (nat_lit 0) (nat_lit 0)) tij2d (nat_lit 0) (nat_lit 0) (nat_lit 0) (nat_lit 0))
      tii2d (nat_lit 0) (nat_lit 0) (nat_lit 0) (nat_lit 0)) ti2d (nat_lit 0) (nat_lit 0) (nat_lit 0) (nat_lit 0))
    [ti, tau, tone P]) [Y, tone P]) [p, tone P]

noncomputable def bDet5 (P : Par) (p tau : TM) : Bool :=
  inv P 4 tau fun ti =>
  pows P chx5d (fun xs => pows P chy5d (fun ys => pows P cht5d (fun ts =>
    poly P xs ys (fun gp => poly P xs ys (fun gpp => poly P xs ys (fun gpt => lin P ts tz5d fun g0 =>
      poly P xs ys (fun gr => lin P [g0, gr] [(0, ⟨false, 1, 1⟩), (1, ⟨false, 1, 1⟩)] fun gtt =>
        dets P true tau gp gpp gpt gtt)
      tjj5d (nat_lit 0) (nat_lit 0) (nat_lit 0) (nat_lit 0)) tij5d (nat_lit 0) (nat_lit 0) (nat_lit 0) (nat_lit 0))
      tii5d (nat_lit 0) (nat_lit 0) (nat_lit 0) (nat_lit 0)) ti5d (nat_lit 0) (nat_lit 0) (nat_lit 0) (nat_lit 0))
    [ti, tau, tone P]) [tau, tone P]) [p, tone P]

/-- a check on a box in the given coordinates -/
noncomputable def leafB (P : Par) (body : TM → TM → Bool) (xr yr xc D yc E : Nat) : Bool :=
  base P xr yr xc D yc E fun b tau => body b tau

end If97.Tm
