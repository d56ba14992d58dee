import Verif.Lemmas.Tm.Comp.Region3s

/-! The computations that the kernel runs, without Mathlib: the stability conditions of region 3, in the coordinates
δ = ρ/322 and τ = 647.096/T.  What they establish is in `Lemmas/Tm/Leaf3st.lean`. -/

namespace If97.Tm

/-- 2 δ φ_δ + δ² φ_δδ, less its constant -/
def tst3 : List (Nat × List (Nat × Co)) :=
  [(11, [(20, ⟨false, 0, 1⟩), (19, ⟨false, 0, 1⟩), (18, ⟨false, 0, 1⟩), (13, ⟨false, 0, 1⟩), (11, ⟨false, 0, 1⟩), (9, ⟨false, 0, 1⟩), (2, ⟨false, 0, 1⟩)]),
  (10, [(18, ⟨true, 6327157738857, 2500000000000⟩), (14, ⟨true, 11524407806681, 5000000000000⟩), (7, ⟨false, 44260521992159, 25000000000000⟩), (5, ⟨true, 64207765181607, 50000000000000⟩)]),
  (9, [(20, ⟨false, 115480380560013, 50000000000000⟩), (18, ⟨true, 127822063236309, 25000000000000⟩), (14, ⟨false, 146916844625631, 5000000000000⟩), (13, ⟨true, 18301570354179, 1000000000000⟩), (3, ⟨false, 59130805318731, 250000000000000⟩), (0, ⟨false, 9418806318231, 12500000000000⟩)]),
  (8, [(20, ⟨true, 8399798909613, 2500000000000⟩), (18, ⟨false, 2084969935419, 125000000000⟩), (16, ⟨true, 6056974507071, 250000000000⟩), (6, ⟨true, 246442911521889, 2500000000000000⟩), (0, ⟨true, 142788107204769, 25000000000000⟩)]),
  (7, [(20, ⟨false, 87968148947, 100000000000⟩), (18, ⟨true, 44476435428739, 5000000000000⟩), (16, ⟨false, 90572070719733, 5000000000000⟩), (0, ⟨false, 70522450087967, 5000000000000⟩)]),
  (6, [(19, ⟨false, 8077884469749, 2500000000000⟩), (17, ⟨true, 49370434888431, 5000000000000⟩), (0, ⟨true, 76306593061737, 5000000000000⟩)]),
  (5, [(20, ⟨true, 58210427291877, 62500000000000⟩), (18, ⟨false, 494868946241733, 125000000000000⟩), (0, ⟨false, 345161847407181, 50000000000000⟩)]),
  (4, [(18, ⟨true, 23630901422359, 31250000000000⟩)]),
  (3, [(0, ⟨true, 16688638521531, 15625000000000⟩)]),
  (2, [(18, ⟨false, 130326645663189, 2500000000000000⟩), (0, ⟨false, 290780142333399, 1000000000000000⟩)]),
  (1, [(20, ⟨false, 178122566591673, 20000000000000000⟩), (19, ⟨true, 182134477745407, 10000000000000000⟩)]),
  (0, [(0, ⟨true, 296497733807979, 50000000000000000⟩)])]

/-- -τ² φ_ττ -/
def tct3 : List (Nat × List (Nat × Co)) :=
  [(11, [(20, ⟨false, 0, 1⟩), (19, ⟨false, 0, 1⟩), (18, ⟨false, 19216926969679, 1250000000000⟩), (13, ⟨true, 274952451773517, 2500000000000⟩), (11, ⟨false, 12636351516879, 50000000000⟩), (9, ⟨true, 397761199985061, 2500000000000⟩), (2, ⟨false, 10697701820781503, 2500000000000000⟩)]),
  (10, [(18, ⟨false, 6327157738857, 2500000000000⟩), (14, ⟨false, 34573223420043, 1000000000000⟩), (7, ⟨true, 929470961835339, 5000000000000⟩), (5, ⟨false, 1091532008087319, 6250000000000⟩)]),
  (9, [(20, ⟨false, 0, 1⟩), (18, ⟨false, 42607354412103, 25000000000000⟩), (14, ⟨true, 146916844625631, 1000000000000⟩), (13, ⟨false, 128110992479253, 1000000000000⟩), (3, ⟨true, 4553072009542287, 250000000000000⟩), (0, ⟨true, 40814827379001, 500000000000⟩)]),
  (8, [(20, ⟨false, 0, 1⟩), (18, ⟨true, 694989978473, 250000000000⟩), (16, ⟨false, 6056974507071, 250000000000⟩), (6, ⟨false, 246442911521889, 125000000000000⟩), (0, ⟨false, 618748464553999, 2000000000000⟩)]),
  (7, [(20, ⟨false, 0, 1⟩), (18, ⟨false, 44476435428739, 50000000000000⟩), (16, ⟨true, 271716212159199, 25000000000000⟩), (0, ⟨true, 916791851143571, 2000000000000⟩)]),
  (6, [(19, ⟨false, 0, 1⟩), (17, ⟨false, 49370434888431, 25000000000000⟩), (0, ⟨false, 330661903267527, 1000000000000⟩)]),
  (5, [(20, ⟨false, 0, 1⟩), (18, ⟨true, 23565187916273, 125000000000000⟩), (0, ⟨true, 213671619823493, 2000000000000⟩)]),
  (4, [(18, ⟨false, 3375843060337, 125000000000000⟩)]),
  (3, [(0, ⟨false, 24105811197767, 2500000000000⟩)]),
  (2, [(18, ⟨true, 14480738407021, 12500000000000000⟩), (0, ⟨true, 420015761148243, 200000000000000⟩)]),
  (1, [(20, ⟨false, 0, 1⟩), (19, ⟨false, 0, 1⟩)]),
  (0, [(0, ⟨false, 116802137560719, 4000000000000000⟩)])]

/-- δ (φ_δ - τ φ_δτ), less its constant -/
def tbt3 : List (Nat × List (Nat × Co)) :=
  [(11, [(20, ⟨false, 0, 1⟩), (19, ⟨false, 0, 1⟩), (18, ⟨false, 0, 1⟩), (13, ⟨false, 0, 1⟩), (11, ⟨false, 0, 1⟩), (9, ⟨false, 0, 1⟩), (2, ⟨false, 0, 1⟩)]),
  (10, [(18, ⟨false, 6327157738857, 5000000000000⟩), (14, ⟨false, 11524407806681, 2000000000000⟩), (7, ⟨true, 309823653945113, 25000000000000⟩), (5, ⟨false, 64207765181607, 6250000000000⟩)]),
  (9, [(20, ⟨false, 38493460186671, 50000000000000⟩), (18, ⟨false, 42607354412103, 25000000000000⟩), (14, ⟨true, 48972281541877, 1000000000000⟩), (13, ⟨false, 18301570354179, 500000000000⟩), (3, ⟨true, 413915637231117, 250000000000000⟩), (0, ⟨true, 3139602106077, 500000000000⟩)]),
  (8, [(20, ⟨true, 8399798909613, 10000000000000⟩), (18, ⟨true, 2084969935419, 500000000000⟩), (16, ⟨false, 18170923521213, 1000000000000⟩), (6, ⟨false, 739328734565667, 2000000000000000⟩), (0, ⟨false, 142788107204769, 4000000000000⟩)]),
  (7, [(20, ⟨false, 87968148947, 500000000000⟩), (18, ⟨false, 44476435428739, 25000000000000⟩), (16, ⟨true, 271716212159199, 25000000000000⟩), (0, ⟨true, 70522450087967, 1000000000000⟩)]),
  (6, [(19, ⟨false, 0, 1⟩), (17, ⟨false, 16456811629477, 5000000000000⟩), (0, ⟨false, 25435531020579, 400000000000⟩)]),
  (5, [(20, ⟨true, 8315775327411, 62500000000000⟩), (18, ⟨true, 70695563748819, 125000000000000⟩), (0, ⟨true, 49308835343883, 2000000000000⟩)]),
  (4, [(18, ⟨false, 23630901422359, 250000000000000⟩)]),
  (3, [(0, ⟨false, 1854293169059, 625000000000⟩)]),
  (2, [(18, ⟨true, 130326645663189, 25000000000000000⟩), (0, ⟨true, 290780142333399, 400000000000000⟩)]),
  (1, [(20, ⟨false, 16192960599243, 20000000000000000⟩), (19, ⟨false, 0, 1⟩)]),
  (0, [(0, ⟨false, 98832577935993, 8000000000000000⟩)])]

/-- are 2 φ_δ + δ φ_δδ and -φ_ττ positive on the box? -/
noncomputable def stab3 (P : Par) (d t : TM) (k : List TM → List TM → Bool) : Bool :=
  pows P chx3 (fun xs => pows P chy3 (fun ys => poly P xs ys (fun s =>
    gd (lin P [s, tone P] [(0, ⟨false, 1, 1⟩), (1, ⟨false, 10658070028513, 10000000000000⟩)] fun w => pos P w)
    (poly P xs ys (fun c => gd (pos P c) (k xs ys)) tct3 (nat_lit 0) (nat_lit 0) (nat_lit 0) (nat_lit 0)))
    tst3 (nat_lit 0) (nat_lit 0) (nat_lit 0) (nat_lit 0)) [t, tone P]) [d, tone P]

/-- and φ_δ - τ φ_δτ too? -/
noncomputable def bSt3 (P : Par) (d t : TM) : Bool :=
  stab3 P d t fun xs ys => poly P xs ys (fun b =>
    lin P [b, tone P] [(0, ⟨false, 1, 1⟩), (1, ⟨false, 10658070028513, 10000000000000⟩)] fun w => pos P w)
    tbt3 (nat_lit 0) (nat_lit 0) (nat_lit 0) (nat_lit 0)

/-- or is the pressure above 100 MPa? -/
noncomputable def bSt3h (P : Par) (d t : TM) : Bool :=
  gd (stab3 P d t fun _ _ => true)
    (st3t P d t fun _ _ _ _ p => lin P [p, tone P] [(0, ⟨false, 1, 1⟩), (1, ⟨true, 100, 1⟩)] fun w => pos P w)

/-- does the box lie above 100 MPa, or left of the line δ = 1 + (16 u - u²/3)/322, u = 647.096 (1 - 1/τ), or below the
pressure (2.675/τ² - 1.1753/τ + 0.66744)⁴? -/
noncomputable def kLiqH (P : Par) (d t : TM) : Bool :=
  st3t P d t fun _ _ _ ti p =>
    orB (lin P [p, tone P] [(0, ⟨false, 1, 1⟩), (1, ⟨true, 100, 1⟩)] fun w => pos P w)
    (mul P ti ti fun t2 =>
    orB (lin P [t2, ti, tone P, d] [(0, ⟨true, 6542706769, 15093750⟩), (1, ⟨false, 6300045769, 7546875⟩), (2, ⟨true, 6042291019, 15093750⟩), (3, ⟨true, 1, 1⟩)] fun w => pos P w)
    (lin P [t2, ti, tone P] [(0, ⟨false, 26750, 10000⟩), (1, ⟨true, 11753, 10000⟩), (2, ⟨false, 66744, 100000⟩)] fun b =>
      mul P b b fun b => mul P b b fun b => lin P [b, p] [(0, ⟨false, 1, 1⟩), (1, ⟨true, 1, 1⟩)] fun w => pos P w))

/-- everywhere -/
noncomputable def vSt3 (xr yr : Nat) (t : Tr4) : Nat → Nat → Nat → Nat → Bool :=
  verify4 (leafB P64 (bSt3 P64) xr yr) (leafB P64 (bSt3h P64) xr yr) (leafB P64 (bSt3 P64) xr yr)
    (leafB P64 (bSt3 P64) xr yr) xr yr t
/-- liquid -/
noncomputable def vSt3q (xr yr : Nat) (t : Tr4) : Nat → Nat → Nat → Nat → Bool :=
  verify4 (leafB P64 (bSt3 P64) xr yr) (leafB P64 (bSt3 P64) xr yr) (leafB P64 (bSt3 P64) xr yr)
    (leafB P64 (kLiqH P64) xr yr) xr yr t
/-- vapour -/
noncomputable def vSt3v (xr yr : Nat) (t : Tr4) : Nat → Nat → Nat → Nat → Bool :=
  verify4 (leafB P64 (bSt3 P64) xr yr) (leafB P64 (bSt3 P64) xr yr) (leafB P64 (bSt3 P64) xr yr)
    (leafB P64 (kVap P64) xr yr) xr yr t

end If97.Tm
