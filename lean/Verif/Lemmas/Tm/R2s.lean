import Verif.Lemmas.Tm.R2
import Verif.Lemmas.Tm.Comp.Region2s

/-! The tables of T(p, s) of region 2 in the form the Taylor models use. -/

namespace If97.Tm
set_option maxRecDepth 100000

/-- a table with quarter powers of p, in powers of β = p^(1/4) -/
def SameF (a : Int × Int × Co) (e : ℝ × Int × ℝ) : Prop :=
  (a.1 : ℝ) / 4 = e.1 ∧ a.2.1 = e.2.1 ∧ a.2.2.val = e.2.2

/-! ### T(p, s) in 2a -/

def exPs2a : List Int := [-6, -5, -4, -3, -2, 6, 5, 4, 3, 2, -1, 1, 0]
def eyPs2a : List Int := [-27, -26, -25, -24, -23, -21, -19, -17, -16, -15, -14, -13, -11, -10, -9, -8, -7, -6, -3, -2, 18, 17, 16, 15, 14, 11, 10, 9, 8, 7, 6, 5, 4, 3, 2, -1, 1, 0]
theorem exPs2a_eq : powE chxPs2a [-1, 1, 0] = exPs2a := by decide +kernel
theorem eyPs2a_eq : powE chyPs2a [-1, 1, 0] = eyPs2a := by decide +kernel
def flPs2a : List (Int × Int × Co) := [(-6, -24, ⟨true, 1226124495687, 3125000⟩), (-6, -23, ⟨false, 5152657382727, 10000000⟩), (-6, -19, ⟨false, 5060305395131, 125000000⟩), (-6, -13, ⟨true, 16096895461951, 50000000000⟩), (-6, -11, ⟨false, 48480712109347, 500000000000⟩), (-6, -10, ⟨true, 22867846371773, 1000000000000⟩), (-5, -19, ⟨true, 44942914124357, 100000000⟩), (-5, -15, ⟨true, 25059168010083, 5000000000⟩), (-5, -6, ⟨false, 7136892712003, 20000000000000⟩), (-4, -26, ⟨false, 4423533584819, 100000000⟩), (-4, -21, ⟨true, 3418347202927, 250000000⟩), (-4, -17, ⟨false, 5270407525983, 12500000⟩), (-4, -16, ⟨false, 900677033499, 40000000⟩), (-4, -9, ⟨false, 23721072432823, 50000000000⟩), (-4, -8, ⟨true, 14931130797647, 100000000000⟩), (-3, -15, ⟨true, 4945281580113, 25000000⟩), (-3, -14, ⟨true, 588859986769, 25000000⟩), (-2, -26, ⟨true, 4767654075519, 250000000⟩), (-2, -13, ⟨false, 13843917470791, 250000000⟩), (-2, -9, ⟨false, 38293691437363, 10000000000⟩), (-2, -7, ⟨true, 60391860580567, 100000000000⟩), (-1, -27, ⟨false, 19363102620331, 10000000000⟩), (-1, -25, ⟨false, 4266064369861, 1000000000⟩), (-1, -11, ⟨true, 29890319436359, 5000000000⟩), (-1, -6, ⟨true, 35200731963431, 50000000000⟩), (1, 1, ⟨false, 33836784107553, 100000000000⟩), (1, 4, ⟨false, 20862786635187, 1000000000000⟩), (1, 8, ⟨false, 8458543164049, 250000000000000⟩), (1, 11, ⟨true, 43124428414893, 1000000000000000000⟩), (2, 0, ⟨false, 4163447839103, 25000000000⟩), (2, 1, ⟨true, 6993146027949, 50000000000⟩), (2, 5, ⟨true, 616012093749, 781250000000⟩), (2, 6, ⟨false, 4508275734617, 62500000000000⟩), (2, 10, ⟨true, 59754839398283, 10000000000000000⟩), (2, 14, ⟨true, 758834934619, 62500000000000000⟩), (2, 16, ⟨false, 23227096733871, 100000000000000000000⟩), (3, 0, ⟨true, 5269231783097, 500000000000⟩), (3, 4, ⟨false, 10359462748251, 5000000000000⟩), (3, 9, ⟨true, 72193155260427, 1000000000000000⟩), (3, 17, ⟨false, 129686794257, 625000000000000000⟩), (4, 7, ⟨true, 18340657911379, 1000000000000000⟩), (4, 18, ⟨false, 3629534043587, 12500000000000000000⟩), (5, 3, ⟨false, 21037527893619, 100000000000000⟩), (5, 15, ⟨false, 2568123972999, 10000000000000000⟩), (6, 5, ⟨true, 1279900293381, 100000000000000⟩), (6, 18, ⟨true, 41099051326009, 5000000000000000000⟩)]
theorem flPs2a_eq : flat exPs2a eyPs2a tbPs2a = flPs2a := by decide +kernel
theorem tbPs2a_ok : tbOk tbPs2a exPs2a.length eyPs2a.length = true := by decide +kernel
theorem Ps2a_same : List.Forall₂ SameF flPs2a (ps2T_reg2a_IJn : List (ℝ × Int × ℝ)) := by
  unfold flPs2a ps2T_reg2a_IJn
  repeat' first | exact .nil | refine .cons ⟨by norm_num, by norm_num, by norm_num [Co.val]⟩ ?_

/-! ### T(p, s) in 2b -/

def exPs2b : List Int := [-6, -5, -4, -3, -2, 5, 4, 3, 2, -1, 1, 0]
def eyPs2b : List Int := [12, 11, 10, 9, 8, 7, 6, 5, 4, 3, 2, 1, 0]
theorem exPs2b_eq : powE chxPs2b [-1, 1, 0] = exPs2b := by decide +kernel
theorem eyPs2b_eq : powE chyPs2b [1, 0] = eyPs2b := by decide +kernel
def flPs2b : List (Int × Int × Co) := [(-6, 0, ⟨false, 31687665083497, 100000000⟩), (-6, 11, ⟨false, 10432087940929, 500000000000⟩), (-5, 0, ⟨true, 39859399803599, 100000000⟩), (-5, 11, ⟨true, 21816058518877, 1000000000000⟩), (-4, 0, ⟨false, 11184892597121, 50000000⟩), (-4, 1, ⟨true, 27841703445817, 10000000000⟩), (-4, 11, ⟨false, 2480185901787, 250000000000⟩), (-3, 0, ⟨true, 75197512299157, 1000000000⟩), (-3, 1, ⟨false, 14854302975579, 5000000000⟩), (-3, 11, ⟨true, 17203439274263, 5000000000000⟩), (-3, 12, ⟨false, 7763112849823, 20000000000000⟩), (-2, 0, ⟨false, 70045180343, 4000000⟩), (-2, 1, ⟨true, 14237112854449, 10000000000⟩), (-2, 6, ⟨false, 10943803364167, 10000000000000⟩), (-2, 10, ⟨false, 17994323861699, 20000000000000⟩), (-1, 0, ⟨true, 16879870049479, 5000000000⟩), (-1, 1, ⟨false, 9432577163671, 20000000000⟩), (-1, 5, ⟨true, 19188241993679, 10000000000000⟩), (-1, 8, ⟨false, 10269645123049, 25000000000000⟩), (-1, 9, ⟨true, 33465378172097, 100000000000000⟩), (0, 0, ⟨false, 2774006955501, 2000000000⟩), (0, 1, ⟨true, 20331663097919, 50000000000⟩), (0, 2, ⟨false, 4172734715961, 100000000000⟩), (0, 4, ⟨false, 5483137358633, 2500000000000⟩), (0, 5, ⟨true, 10320050009077, 10000000000000⟩), (0, 6, ⟨false, 35882943516703, 100000000000000⟩), (0, 9, ⟨false, 26255726863033, 5000000000000000⟩), (1, 0, ⟨false, 2567783290141, 200000000000⟩), (1, 1, ⟨true, 28642437219381, 10000000000000⟩), (1, 2, ⟨false, 11382536732971, 20000000000000⟩), (1, 3, ⟨true, 99962954584931, 1000000000000000⟩), (1, 7, ⟨true, 32632037778459, 10000000000000000⟩), (1, 8, ⟨false, 23320922576723, 100000000000000000⟩), (2, 0, ⟨true, 306696197149, 2000000000000⟩), (2, 1, ⟨false, 14536144119951, 500000000000000⟩), (2, 5, ⟨false, 37534702741167, 100000000000000000⟩), (3, 0, ⟨false, 17296691702411, 10000000000000000⟩), (3, 1, ⟨true, 4819506355563, 12500000000000000⟩), (3, 3, ⟨true, 136787938643, 3906250000000000⟩), (4, 0, ⟨true, 3641598407873, 250000000000000000⟩), (4, 1, ⟨false, 56420857267269, 10000000000000000000⟩), (5, 0, ⟨false, 8257230014921, 200000000000000000000⟩), (5, 1, ⟨true, 2585583889853, 125000000000000000000⟩), (5, 2, ⟨false, 656375746989, 400000000000000000000⟩)]
theorem flPs2b_eq : flat exPs2b eyPs2b tbPs2b = flPs2b := by decide +kernel
theorem tbPs2b_ok : tbOk tbPs2b exPs2b.length eyPs2b.length = true := by decide +kernel
theorem Ps2b_same : List.Forall₂ SameT flPs2b (ps2T_reg2b_IJn : List (Int × Int × ℝ)) := by
  unfold flPs2b ps2T_reg2b_IJn
  repeat' first | exact .nil | refine .cons ⟨by norm_num, by norm_num, by norm_num [Co.val]⟩ ?_

/-! ### T(p, s) in 2c -/

def exPs2c : List Int := [-2, 7, 6, 5, 4, 3, 2, -1, 1, 0]
def eyPs2c : List Int := [5, 4, 3, 2, 1, 0]
theorem exPs2c_eq : powE chxPs2c [-1, 1, 0] = exPs2c := by decide +kernel
theorem eyPs2c_eq : powE chyPs2c [1, 0] = eyPs2c := by decide +kernel
def flPs2c : List (Int × Int × Co) := [(-2, 0, ⟨false, 18193700201073, 20000000000⟩), (-2, 1, ⟨false, 1202283354421, 500000000⟩), (-1, 0, ⟨true, 5916232638713, 10000000000⟩), (0, 0, ⟨false, 27072702064037, 50000000000⟩), (0, 1, ⟨true, 3387288551399, 12500000000⟩), (0, 2, ⟨false, 48988262548963, 50000000000⟩), (0, 3, ⟨true, 9393354591887, 20000000000⟩), (1, 0, ⟨false, 14399274604723, 1000000000000⟩), (1, 1, ⟨true, 19104204230429, 1000000000000⟩), (1, 3, ⟨false, 53299167111971, 10000000000000⟩), (1, 4, ⟨true, 10626487687967, 500000000000⟩), (2, 0, ⟨true, 97335420043, 312500000000⟩), (2, 1, ⟨false, 60334840894623, 100000000000000⟩), (2, 2, ⟨true, 42764839702509, 1000000000000000⟩), (3, 0, ⟨false, 58185597255259, 10000000000000000⟩), (3, 1, ⟨true, 14597008284753, 1000000000000000⟩), (3, 5, ⟨false, 56631175631027, 10000000000000000⟩), (4, 0, ⟨true, 76155864584577, 1000000000000000000⟩), (4, 1, ⟨false, 5610085729833, 25000000000000000⟩), (4, 4, ⟨true, 12561095013413, 1000000000000000000⟩), (5, 0, ⟨false, 31661566330467, 50000000000000000000⟩), (5, 1, ⟨true, 164335917403, 80000000000000000⟩), (5, 2, ⟨false, 18202685195041, 500000000000000000000⟩), (6, 0, ⟨true, 5951979557843, 2000000000000000000000⟩), (6, 1, ⟨false, 10136618529763, 1000000000000000000000⟩), (7, 0, ⟨false, 59925719692351, 10000000000000000000000000⟩), (7, 1, ⟨true, 5169467526291, 250000000000000000000000⟩), (7, 3, ⟨true, 10437139090943, 500000000000000000000000⟩), (7, 4, ⟨false, 10162166825089, 100000000000000000000000⟩), (7, 5, ⟨true, 16429828281347, 100000000000000000000000⟩)]
theorem flPs2c_eq : flat exPs2c eyPs2c tbPs2c = flPs2c := by decide +kernel
theorem tbPs2c_ok : tbOk tbPs2c exPs2c.length eyPs2c.length = true := by decide +kernel
theorem Ps2c_same : List.Forall₂ SameT flPs2c (ps2T_reg2c_IJn : List (Int × Int × ℝ)) := by
  unfold flPs2c ps2T_reg2c_IJn
  repeat' first | exact .nil | refine .cons ⟨by norm_num, by norm_num, by norm_num [Co.val]⟩ ?_

end If97.Tm
