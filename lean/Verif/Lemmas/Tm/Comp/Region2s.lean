import Verif.Lemmas.Tm.Comp.Region2

/-! The computations that the kernel runs, without Mathlib: the checks with the entropy of region 2.  What they establish is in
`Lemmas/Taylor*.lean` and `Lemmas/Tm/`. -/

namespace If97.Tm

def chxPs2a : List (Nat × Nat) := [(1, 1), (2, 0), (3, 0), (4, 0), (5, 0), (5, 5), (6, 0), (7, 0), (8, 0), (9, 0)]

def chyPs2a : List (Nat × Nat) := [(1, 1), (2, 0), (3, 0), (4, 0), (5, 0), (6, 0), (7, 0), (8, 0), (9, 0), (10, 0), (8, 0), (12, 0), (13, 0), (14, 0), (15, 0), (15, 15), (16, 0), (0, 0), (18, 0), (19, 0), (20, 0), (21, 0), (22, 0), (7, 0), (24, 0), (25, 0), (26, 0), (27, 0), (12, 0), (13, 0), (14, 0), (31, 0), (32, 0), (33, 0), (34, 0)]

def tbPs2a : List (Nat × List (Nat × Co)) :=
  [(0, [(3, ⟨true, 1226124495687, 3125000⟩), (4, ⟨false, 5152657382727, 10000000⟩), (6, ⟨false, 5060305395131, 125000000⟩), (11, ⟨true, 16096895461951, 50000000000⟩), (12, ⟨false, 48480712109347, 500000000000⟩), (13, ⟨true, 22867846371773, 1000000000000⟩)]),
  (1, [(6, ⟨true, 44942914124357, 100000000⟩), (9, ⟨true, 25059168010083, 5000000000⟩), (17, ⟨false, 7136892712003, 20000000000000⟩)]),
  (2, [(1, ⟨false, 4423533584819, 100000000⟩), (5, ⟨true, 3418347202927, 250000000⟩), (7, ⟨false, 5270407525983, 12500000⟩), (8, ⟨false, 900677033499, 40000000⟩), (14, ⟨false, 23721072432823, 50000000000⟩), (15, ⟨true, 14931130797647, 100000000000⟩)]),
  (3, [(9, ⟨true, 4945281580113, 25000000⟩), (10, ⟨true, 588859986769, 25000000⟩)]),
  (4, [(1, ⟨true, 4767654075519, 250000000⟩), (11, ⟨false, 13843917470791, 250000000⟩), (14, ⟨false, 38293691437363, 10000000000⟩), (16, ⟨true, 60391860580567, 100000000000⟩)]),
  (10, [(0, ⟨false, 19363102620331, 10000000000⟩), (2, ⟨false, 4266064369861, 1000000000⟩), (12, ⟨true, 29890319436359, 5000000000⟩), (17, ⟨true, 35200731963431, 50000000000⟩)]),
  (11, [(36, ⟨false, 33836784107553, 100000000000⟩), (32, ⟨false, 20862786635187, 1000000000000⟩), (28, ⟨false, 8458543164049, 250000000000000⟩), (25, ⟨true, 43124428414893, 1000000000000000000⟩)]),
  (9, [(37, ⟨false, 4163447839103, 25000000000⟩), (36, ⟨true, 6993146027949, 50000000000⟩), (31, ⟨true, 616012093749, 781250000000⟩), (30, ⟨false, 4508275734617, 62500000000000⟩), (26, ⟨true, 59754839398283, 10000000000000000⟩), (24, ⟨true, 758834934619, 62500000000000000⟩), (22, ⟨false, 23227096733871, 100000000000000000000⟩)]),
  (8, [(37, ⟨true, 5269231783097, 500000000000⟩), (32, ⟨false, 10359462748251, 5000000000000⟩), (27, ⟨true, 72193155260427, 1000000000000000⟩), (21, ⟨false, 129686794257, 625000000000000000⟩)]),
  (7, [(29, ⟨true, 18340657911379, 1000000000000000⟩), (20, ⟨false, 3629534043587, 12500000000000000000⟩)]),
  (6, [(33, ⟨false, 21037527893619, 100000000000000⟩), (23, ⟨false, 2568123972999, 10000000000000000⟩)]),
  (5, [(31, ⟨true, 1279900293381, 100000000000000⟩), (20, ⟨true, 41099051326009, 5000000000000000000⟩)])]

def chxPs2b : List (Nat × Nat) := [(1, 1), (2, 0), (3, 0), (4, 0), (4, 4), (5, 0), (6, 0), (7, 0), (8, 0)]

def chyPs2b : List (Nat × Nat) := [(0, 0), (1, 0), (2, 0), (3, 0), (4, 0), (5, 0), (6, 0), (7, 0), (8, 0), (9, 0), (10, 0)]

def tbPs2b : List (Nat × List (Nat × Co)) :=
  [(0, [(12, ⟨false, 31687665083497, 100000000⟩), (1, ⟨false, 10432087940929, 500000000000⟩)]),
  (1, [(12, ⟨true, 39859399803599, 100000000⟩), (1, ⟨true, 21816058518877, 1000000000000⟩)]),
  (2, [(12, ⟨false, 11184892597121, 50000000⟩), (11, ⟨true, 27841703445817, 10000000000⟩), (1, ⟨false, 2480185901787, 250000000000⟩)]),
  (3, [(12, ⟨true, 75197512299157, 1000000000⟩), (11, ⟨false, 14854302975579, 5000000000⟩), (1, ⟨true, 17203439274263, 5000000000000⟩), (0, ⟨false, 7763112849823, 20000000000000⟩)]),
  (4, [(12, ⟨false, 70045180343, 4000000⟩), (11, ⟨true, 14237112854449, 10000000000⟩), (6, ⟨false, 10943803364167, 10000000000000⟩), (2, ⟨false, 17994323861699, 20000000000000⟩)]),
  (9, [(12, ⟨true, 16879870049479, 5000000000⟩), (11, ⟨false, 9432577163671, 20000000000⟩), (7, ⟨true, 19188241993679, 10000000000000⟩), (4, ⟨false, 10269645123049, 25000000000000⟩), (3, ⟨true, 33465378172097, 100000000000000⟩)]),
  (11, [(12, ⟨false, 2774006955501, 2000000000⟩), (11, ⟨true, 20331663097919, 50000000000⟩), (10, ⟨false, 4172734715961, 100000000000⟩), (8, ⟨false, 5483137358633, 2500000000000⟩), (7, ⟨true, 10320050009077, 10000000000000⟩), (6, ⟨false, 35882943516703, 100000000000000⟩), (3, ⟨false, 26255726863033, 5000000000000000⟩)]),
  (10, [(12, ⟨false, 2567783290141, 200000000000⟩), (11, ⟨true, 28642437219381, 10000000000000⟩), (10, ⟨false, 11382536732971, 20000000000000⟩), (9, ⟨true, 99962954584931, 1000000000000000⟩), (5, ⟨true, 32632037778459, 10000000000000000⟩), (4, ⟨false, 23320922576723, 100000000000000000⟩)]),
  (8, [(12, ⟨true, 306696197149, 2000000000000⟩), (11, ⟨false, 14536144119951, 500000000000000⟩), (7, ⟨false, 37534702741167, 100000000000000000⟩)]),
  (7, [(12, ⟨false, 17296691702411, 10000000000000000⟩), (11, ⟨true, 4819506355563, 12500000000000000⟩), (9, ⟨true, 136787938643, 3906250000000000⟩)]),
  (6, [(12, ⟨true, 3641598407873, 250000000000000000⟩), (11, ⟨false, 56420857267269, 10000000000000000000⟩)]),
  (5, [(12, ⟨false, 8257230014921, 200000000000000000000⟩), (11, ⟨true, 2585583889853, 125000000000000000000⟩), (10, ⟨false, 656375746989, 400000000000000000000⟩)])]

def chxPs2c : List (Nat × Nat) := [(1, 1), (2, 0), (3, 0), (4, 0), (5, 0), (6, 0), (6, 6)]

def chyPs2c : List (Nat × Nat) := [(0, 0), (1, 0), (2, 0), (3, 0)]

def tbPs2c : List (Nat × List (Nat × Co)) :=
  [(0, [(5, ⟨false, 18193700201073, 20000000000⟩), (4, ⟨false, 1202283354421, 500000000⟩)]),
  (7, [(5, ⟨true, 5916232638713, 10000000000⟩)]),
  (9, [(5, ⟨false, 27072702064037, 50000000000⟩), (4, ⟨true, 3387288551399, 12500000000⟩), (3, ⟨false, 48988262548963, 50000000000⟩), (2, ⟨true, 9393354591887, 20000000000⟩)]),
  (8, [(5, ⟨false, 14399274604723, 1000000000000⟩), (4, ⟨true, 19104204230429, 1000000000000⟩), (2, ⟨false, 53299167111971, 10000000000000⟩), (1, ⟨true, 10626487687967, 500000000000⟩)]),
  (6, [(5, ⟨true, 97335420043, 312500000000⟩), (4, ⟨false, 60334840894623, 100000000000000⟩), (3, ⟨true, 42764839702509, 1000000000000000⟩)]),
  (5, [(5, ⟨false, 58185597255259, 10000000000000000⟩), (4, ⟨true, 14597008284753, 1000000000000000⟩), (0, ⟨false, 56631175631027, 10000000000000000⟩)]),
  (4, [(5, ⟨true, 76155864584577, 1000000000000000000⟩), (4, ⟨false, 5610085729833, 25000000000000000⟩), (1, ⟨true, 12561095013413, 1000000000000000000⟩)]),
  (3, [(5, ⟨false, 31661566330467, 50000000000000000000⟩), (4, ⟨true, 164335917403, 80000000000000000⟩), (3, ⟨false, 18202685195041, 500000000000000000000⟩)]),
  (2, [(5, ⟨true, 5951979557843, 2000000000000000000000⟩), (4, ⟨false, 10136618529763, 1000000000000000000000⟩)]),
  (1, [(5, ⟨false, 59925719692351, 10000000000000000000000000⟩), (4, ⟨true, 5169467526291, 250000000000000000000000⟩), (2, ⟨true, 10437139090943, 500000000000000000000000⟩), (1, ⟨false, 10162166825089, 100000000000000000000000⟩), (0, ⟨true, 16429828281347, 100000000000000000000000⟩)])]

/-- the constants for |x/c - 1| ≤ rn/rd: c = cn/cd, its logarithm, and the error w·10⁻¹⁸ -/
structure LogC where
  cn : Nat
  cd : Nat
  l : Co
  rn : Nat
  rd : Nat
  w : Nat

/-- the sum with its error -/
noncomputable def widen (P : Par) (t : TM) (w : Nat) (k : TM → Bool) : Bool :=
  TM.rec (motive := fun _ => Bool) (fun p q r nm =>
    force (Nat.add r (Nat.add (Nat.div (Nat.mul w P.one) (nat_lit 1000000000000000000)) (nat_lit 1))) fun r => k ⟨p, q, r, nm⟩) t

noncomputable def logT (P : Par) (c : LogC) (b : TM) (k : TM → Bool) : Bool :=
  LogC.rec (motive := fun _ => Bool) (fun cn cd l rn rd w =>
  lin P [b, tone P] [(0, ⟨false, cd, cn⟩), (1, ⟨true, 1, 1⟩)] fun t => refresh P t fun t =>
  gd (force (Nat.div (Nat.mul rn P.one) rd) fun tol => bnd P t tol) <|
  lin P [t, tone P] [(0, ⟨true, 1, 20⟩), (1, ⟨false, 1, 19⟩)] fun a =>
  mul P a t fun a => lin P [a, tone P] [(0, ⟨false, 1, 1⟩), (1, ⟨true, 1, 18⟩)] fun a =>
  mul P a t fun a => lin P [a, tone P] [(0, ⟨false, 1, 1⟩), (1, ⟨false, 1, 17⟩)] fun a =>
  mul P a t fun a => lin P [a, tone P] [(0, ⟨false, 1, 1⟩), (1, ⟨true, 1, 16⟩)] fun a =>
  mul P a t fun a => lin P [a, tone P] [(0, ⟨false, 1, 1⟩), (1, ⟨false, 1, 15⟩)] fun a =>
  mul P a t fun a => lin P [a, tone P] [(0, ⟨false, 1, 1⟩), (1, ⟨true, 1, 14⟩)] fun a =>
  mul P a t fun a => lin P [a, tone P] [(0, ⟨false, 1, 1⟩), (1, ⟨false, 1, 13⟩)] fun a =>
  mul P a t fun a => lin P [a, tone P] [(0, ⟨false, 1, 1⟩), (1, ⟨true, 1, 12⟩)] fun a =>
  mul P a t fun a => lin P [a, tone P] [(0, ⟨false, 1, 1⟩), (1, ⟨false, 1, 11⟩)] fun a =>
  mul P a t fun a => lin P [a, tone P] [(0, ⟨false, 1, 1⟩), (1, ⟨true, 1, 10⟩)] fun a =>
  mul P a t fun a => lin P [a, tone P] [(0, ⟨false, 1, 1⟩), (1, ⟨false, 1, 9⟩)] fun a =>
  mul P a t fun a => lin P [a, tone P] [(0, ⟨false, 1, 1⟩), (1, ⟨true, 1, 8⟩)] fun a =>
  mul P a t fun a => lin P [a, tone P] [(0, ⟨false, 1, 1⟩), (1, ⟨false, 1, 7⟩)] fun a =>
  mul P a t fun a => lin P [a, tone P] [(0, ⟨false, 1, 1⟩), (1, ⟨true, 1, 6⟩)] fun a =>
  mul P a t fun a => lin P [a, tone P] [(0, ⟨false, 1, 1⟩), (1, ⟨false, 1, 5⟩)] fun a =>
  mul P a t fun a => lin P [a, tone P] [(0, ⟨false, 1, 1⟩), (1, ⟨true, 1, 4⟩)] fun a =>
  mul P a t fun a => lin P [a, tone P] [(0, ⟨false, 1, 1⟩), (1, ⟨false, 1, 3⟩)] fun a =>
  mul P a t fun a => lin P [a, tone P] [(0, ⟨false, 1, 1⟩), (1, ⟨true, 1, 2⟩)] fun a =>
  mul P a t fun a => lin P [a, tone P] [(0, ⟨false, 1, 1⟩), (1, ⟨false, 1, 1⟩)] fun a =>
  mul P a t fun a => lin P [a, tone P] [(0, ⟨false, 1, 1⟩), (1, l)] fun a =>
  widen P a w fun a => refresh P a k) c

/-- γ_τ and s/R = τ γ_τ - γ, with ln p = 4 ln β -/
noncomputable def gs2 (P : Par) (K : Scl) (c : LogC) (b p tau : TM) (k : TM → TM → Bool) : Bool :=
  Scl.rec (motive := fun _ => Bool) (fun xn xd yn yd t0 tg =>
  st2 P xn xd yn yd p tau fun xs ys ts => lin P ts ti2 fun g0 => lin P ts ti02 fun f0 =>
  poly P xs ys (fun gr => lin P [g0, gr] [(0, ⟨false, 1, 1⟩), (1, ⟨false, 1, 1⟩)] fun g => refresh P g fun g =>
    poly P xs ys (fun fr => logT P c b fun l => mul P tau g fun m =>
      lin P [m, f0, fr, l] [(0, ⟨false, 1, 1⟩), (1, ⟨true, 1, 1⟩), (2, ⟨true, 1, 1⟩), (3, ⟨true, 4, 1⟩)] fun s =>
      refresh P s fun s => k g s)
      t0 (nat_lit 0) (nat_lit 0) (nat_lit 0) (nat_lit 0))
    tg (nat_lit 0) (nat_lit 0) (nat_lit 0) (nat_lit 0)) K

/-- |T(p, s(p, T)) - T| in subregion 2a -/
noncomputable def bPs2a (P : Par) (K : Scl) (c : LogC) (tn td : Nat) (b tau : TM) : Bool :=
  p4 P b fun p => gs2 P K c b p tau fun _ s =>
  lin P [s, tone P] [(0, ⟨false, 461526, 2000000⟩), (1, ⟨true, 2, 1⟩)] fun sg => refresh P sg fun sg =>
  inv P 4 b fun bi => inv P 4 sg fun si => pows P chxPs2a (fun xs => pows P chyPs2a (fun ys => poly P xs ys
    (fun th => close2 P th tau 540 tn td) tbPs2a (nat_lit 0) (nat_lit 0) (nat_lit 0) (nat_lit 0))
    [si, sg, tone P]) [bi, b, tone P]

/-- |T(p, s(p, T)) - T| with the equation of subregion 2b -/
noncomputable def bPs2b (P : Par) (K : Scl) (c : LogC) (tn td : Nat) (b tau : TM) : Bool :=
  p4 P b fun p => gs2 P K c b p tau fun _ s =>
  lin P [s, tone P] [(0, ⟨true, 461526, 785300⟩), (1, ⟨false, 10, 1⟩)] fun sg => refresh P sg fun sg =>
  inv P 4 p fun pin => pows P chxPs2b (fun xs => pows P chyPs2b (fun ys => poly P xs ys
    (fun th => close2 P th tau 540 tn td) tbPs2b (nat_lit 0) (nat_lit 0) (nat_lit 0) (nat_lit 0))
    [sg, tone P]) [pin, p, tone P]

/-- |T(p, s(p, T)) - T| with the equation of subregion 2c -/
noncomputable def bPs2c (P : Par) (K : Scl) (c : LogC) (tn td : Nat) (b tau : TM) : Bool :=
  p4 P b fun p => gs2 P K c b p tau fun _ s =>
  lin P [s, tone P] [(0, ⟨true, 461526, 2925100⟩), (1, ⟨false, 2, 1⟩)] fun sg => refresh P sg fun sg =>
  inv P 4 p fun pin => pows P chxPs2c (fun xs => pows P chyPs2c (fun ys => poly P xs ys
    (fun th => close2 P th tau 540 tn td) tbPs2c (nat_lit 0) (nat_lit 0) (nat_lit 0) (nat_lit 0))
    [sg, tone P]) [pin, p, tone P]

/-- is s < 5.85? -/
noncomputable def kLt (P : Par) (K : Scl) (c : LogC) (b tau : TM) : Bool :=
  p4 P b fun p => gs2 P K c b p tau fun _ s =>
  lin P [s, tone P] [(0, ⟨true, 461526, 1000000⟩), (1, ⟨false, 585, 100⟩)] fun d => pos P d

/-- is s > 5.85? -/
noncomputable def kGt (P : Par) (K : Scl) (c : LogC) (b tau : TM) : Bool :=
  p4 P b fun p => gs2 P K c b p tau fun _ s =>
  lin P [s, tone P] [(0, ⟨false, 461526, 1000000⟩), (1, ⟨true, 585, 100⟩)] fun d => pos P d

def qs0 : Q6 :=
  ⟨⟨true, 925854863, 31250000⟩, ⟨false, 90342818249, 1000000000⟩, ⟨true, 104469271371, 1000000000⟩, ⟨false, 7472323737, 125000000⟩, ⟨true, 17048930157, 1000000000⟩, ⟨false, 485711577, 250000000⟩⟩

def qs1 : Q6 :=
  ⟨⟨false, 3606378057, 1000000000⟩, ⟨true, 993638663, 250000000⟩, ⟨false, 263948149, 100000000⟩, ⟨true, 1060497601, 1000000000⟩, ⟨false, 117821361, 500000000⟩, ⟨true, 11018227, 500000000⟩⟩

def qs2 : Q6 :=
  ⟨⟨false, 2423423331, 1000000000⟩, ⟨true, 567632911, 500000000⟩, ⟨true, 84548361, 1000000000⟩, ⟨false, 245231767, 1000000000⟩, ⟨true, 77035903, 1000000000⟩, ⟨false, 788603, 100000000⟩⟩

def qs3 : Q6 :=
  ⟨⟨false, 250936823, 62500000⟩, ⟨true, 4429296631, 1000000000⟩, ⟨false, 164988923, 62500000⟩, ⟨true, 440078393, 500000000⟩, ⟨false, 38780249, 250000000⟩, ⟨true, 11244671, 1000000000⟩⟩

def qs4 : Q6 :=
  ⟨⟨true, 79423099, 31250000⟩, ⟨false, 1808361417, 250000000⟩, ⟨true, 2827268163, 500000000⟩, ⟨false, 413538157, 200000000⟩, ⟨true, 73681093, 200000000⟩, ⟨false, 3240119, 125000000⟩⟩

def lcA0 : LogC := ⟨41, 200, ⟨true, 792372649921864437, 500000000000000000⟩, 47, 200, 91052⟩

def lcA1 : LogC := ⟨13, 40, ⟨true, 1123930096652399567, 1000000000000000000⟩, 29, 125, 71644⟩

def lcA2 : LogC := ⟨1, 2, ⟨true, 693147180559945309, 1000000000000000000⟩, 201, 1000, 12915⟩

def lcA3 : LogC := ⟨29, 40, ⟨true, 80395906031865569, 250000000000000000⟩, 87, 500, 10137⟩

def lcA4 : LogC := ⟨39, 40, ⟨true, 202542463874319, 8000000000000000⟩, 13, 100, 10001⟩

def lcA5 : LogC := ⟨251, 200, ⟨false, 227135572583747209, 1000000000000000000⟩, 16, 125, 10001⟩

def lcU0 : LogC := ⟨301, 200, ⟨false, 408792898200839051, 1000000000000000000⟩, 13, 200, 10001⟩

def lcU1 : LogC := ⟨17, 10, ⟨false, 132657062765542599, 250000000000000000⟩, 3, 50, 10001⟩

def lcU2 : LogC := ⟨191, 100, ⟨false, 129420648411707701, 200000000000000000⟩, 59, 1000, 10001⟩

def lcU3 : LogC := ⟨54, 25, ⟨false, 385054110848036817, 500000000000000000⟩, 17, 250, 10001⟩

def lcU4 : LogC := ⟨5, 2, ⟨false, 183258146374831013, 200000000000000000⟩, 41, 500, 10001⟩

def lcU5 : LogC := ⟨293, 100, ⟨false, 537501211514487969, 500000000000000000⟩, 81, 1000, 10001⟩

noncomputable def vPs2a (K : Scl) (A B : Q6) (c : LogC) (xr yr : Nat) (t : Tr4) : Nat → Nat → Nat → Nat → Bool :=
  verify4 (leafF P64 A B (bPs2a P64 K c 1 100) xr yr) never never never xr yr t

noncomputable def vPs2b (K : Scl) (A B : Q6) (c : LogC) (xr yr : Nat) (t : Tr4) : Nat → Nat → Nat → Nat → Bool :=
  verify4 (leafF P64 A B (bPs2b P64 K c 1 100) xr yr) never never (leafF P64 A B (kLt P64 K c) xr yr) xr yr t

noncomputable def vPs2c (K : Scl) (A B : Q6) (c : LogC) (xr yr : Nat) (t : Tr4) : Nat → Nat → Nat → Nat → Bool :=
  verify4 (leafF P64 A B (bPs2c P64 K c 25 1000) xr yr) never never (leafF P64 A B (kGt P64 K c) xr yr) xr yr t

end If97.Tm
