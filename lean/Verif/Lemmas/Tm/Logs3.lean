import Verif.Lemmas.Tm.Comp.Region3
import Verif.Lemmas.Tm.Fans2s
import Verif.Lemmas.Tm.Comp.Region3r

/-! Constants for the logarithm in region 3 (generated). -/

namespace If97.Tm

theorem lcR1_ok : lcR1.Ok := by
  refine LogC.ok_of (e := 9 / 10 ^ 15) (by decide) ?_ (by norm_num [lcR1])
  have e : ((lcR1.cn : ℝ) / lcR1.cd) = (2 : ℝ) ^ (-1 : ℤ) * (1 - (1/5)) := by norm_num [lcR1]
  rw [e]
  refine log_near (by norm_num [abs_lt]) 34 ?_
  norm_num [Finset.sum_range_succ, lcR1, Co.val, abs_le]

theorem lcR2_ok : lcR2.Ok := by
  refine LogC.ok_of (e := 9 / 10 ^ 15) (by decide) ?_ (by norm_num [lcR2])
  have e : ((lcR2.cn : ℝ) / lcR2.cd) = (2 : ℝ) ^ (-1 : ℤ) * (1 - (-(3/10))) := by norm_num [lcR2]
  rw [e]
  refine log_near (by norm_num [abs_lt]) 34 ?_
  norm_num [Finset.sum_range_succ, lcR2, Co.val, abs_le]

theorem lcR3_ok : lcR3.Ok := by
  refine LogC.ok_of (e := 9 / 10 ^ 15) (by decide) ?_ (by norm_num [lcR3])
  have e : ((lcR3.cn : ℝ) / lcR3.cd) = (2 : ℝ) ^ (0 : ℤ) * (1 - (0)) := by norm_num [lcR3]
  rw [e]
  refine log_near (by norm_num [abs_lt]) 34 ?_
  norm_num [Finset.sum_range_succ, lcR3, Co.val, abs_le]

theorem lcR4_ok : lcR4.Ok := by
  refine LogC.ok_of (e := 9 / 10 ^ 15) (by decide) ?_ (by norm_num [lcR4])
  have e : ((lcR4.cn : ℝ) / lcR4.cd) = (2 : ℝ) ^ (1 : ℤ) * (1 - (11/40)) := by norm_num [lcR4]
  rw [e]
  refine log_near (by norm_num [abs_lt]) 34 ?_
  norm_num [Finset.sum_range_succ, lcR4, Co.val, abs_le]

theorem lcR5_ok : lcR5.Ok := by
  refine LogC.ok_of (e := 9 / 10 ^ 15) (by decide) ?_ (by norm_num [lcR5])
  have e : ((lcR5.cn : ℝ) / lcR5.cd) = (2 : ℝ) ^ (1 : ℤ) * (1 - (-(1/20))) := by norm_num [lcR5]
  rw [e]
  refine log_near (by norm_num [abs_lt]) 34 ?_
  norm_num [Finset.sum_range_succ, lcR5, Co.val, abs_le]

end If97.Tm

/-! Constants for the logarithm of the pressure on B23 (generated). -/

namespace If97.Tm

theorem lcB0_ok : lcB0.Ok := by
  refine LogC.ok_of (e := 9 / 10 ^ 15) (by decide) ?_ (by norm_num [lcB0])
  have e : ((lcB0.cn : ℝ) / lcB0.cd) = (2 : ℝ) ^ (5 : ℤ) * (1 - (597/3200)) := by norm_num [lcB0]
  rw [e]
  refine log_near (by norm_num [abs_lt]) 34 ?_
  norm_num [Finset.sum_range_succ, lcB0, Co.val, abs_le]

theorem lcB1_ok : lcB1.Ok := by
  refine LogC.ok_of (e := 9 / 10 ^ 15) (by decide) ?_ (by norm_num [lcB1])
  have e : ((lcB1.cn : ℝ) / lcB1.cd) = (2 : ℝ) ^ (5 : ℤ) * (1 - (-(11/64))) := by norm_num [lcB1]
  rw [e]
  refine log_near (by norm_num [abs_lt]) 34 ?_
  norm_num [Finset.sum_range_succ, lcB1, Co.val, abs_le]

theorem lcB2_ok : lcB2.Ok := by
  refine LogC.ok_of (e := 9 / 10 ^ 15) (by decide) ?_ (by norm_num [lcB2])
  have e : ((lcB2.cn : ℝ) / lcB2.cd) = (2 : ℝ) ^ (6 : ℤ) * (1 - (13/128)) := by norm_num [lcB2]
  rw [e]
  refine log_near (by norm_num [abs_lt]) 34 ?_
  norm_num [Finset.sum_range_succ, lcB2, Co.val, abs_le]

theorem lcB3_ok : lcB3.Ok := by
  refine LogC.ok_of (e := 9 / 10 ^ 15) (by decide) ?_ (by norm_num [lcB3])
  have e : ((lcB3.cn : ℝ) / lcB3.cd) = (2 : ℝ) ^ (6 : ℤ) * (1 - (-(21/64))) := by norm_num [lcB3]
  rw [e]
  refine log_near (by norm_num [abs_lt]) 34 ?_
  norm_num [Finset.sum_range_succ, lcB3, Co.val, abs_le]

theorem lcB4_ok : lcB4.Ok := by
  refine LogC.ok_of (e := 9 / 10 ^ 15) (by decide) ?_ (by norm_num [lcB4])
  have e : ((lcB4.cn : ℝ) / lcB4.cd) = (2 : ℝ) ^ (4 : ℤ) * (1 - (-(3/32))) := by norm_num [lcB4]
  rw [e]
  refine log_near (by norm_num [abs_lt]) 34 ?_
  norm_num [Finset.sum_range_succ, lcB4, Co.val, abs_le]

theorem lcB5_ok : lcB5.Ok := by
  refine LogC.ok_of (e := 9 / 10 ^ 15) (by decide) ?_ (by norm_num [lcB5])
  have e : ((lcB5.cn : ℝ) / lcB5.cd) = (2 : ℝ) ^ (4 : ℤ) * (1 - (-(107/400))) := by norm_num [lcB5]
  rw [e]
  refine log_near (by norm_num [abs_lt]) 34 ?_
  norm_num [Finset.sum_range_succ, lcB5, Co.val, abs_le]

end If97.Tm
