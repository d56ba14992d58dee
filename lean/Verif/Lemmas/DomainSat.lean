import Verif.Lemmas.Saturation
import Verif.Spec.Domain

/-! Helper lemmas for C05, C40: the saturation pressure of the specification is the one of the code. -/

namespace If97
open Set
namespace Domain

theorem isSat_psat {T : ℝ} (h : T ∈ Icc (273.15 : ℝ) 647.096) : IsSat (Sat.psat T) T := by
  have hm : T ∈ Icc (273 : ℝ) 648 := ⟨by linarith [h.1], by linarith [h.2]⟩
  have ht := Sat.th_mem hm
  refine ⟨⟨Sat.bt (Sat.th T), Sat.th T, (Sat.bt_pos _).le, rfl, rfl, ?_⟩, ?_⟩
  · have := Sat.bt_root ht.1 ht.2
    rw [← this]; unfold Sat.Qf Sat.qA Sat.qB Sat.qC; norm_num; ring
  · have := Sat.psat_strictMonoOn.monotoneOn hm (show (647.096 : ℝ) ∈ Icc (273 : ℝ) 648 by norm_num) h.2
    linarith [Sat.psat_max.2]

theorem IsSat.eq {ps T : ℝ} (h : T ∈ Icc (273.15 : ℝ) 647.096) (hs : IsSat ps T) : ps = Sat.psat T := by
  have hm : T ∈ Icc (273 : ℝ) 648 := ⟨by linarith [h.1], by linarith [h.2]⟩
  have ht := Sat.th_mem hm
  obtain ⟨⟨b, x, hb, rfl, rfl, hq⟩, h50⟩ := hs
  have hx : T + (-0.23855557567849) / (T - 650.17534844798) = Sat.th T := rfl
  rw [hx] at hq
  have hq' : Sat.Qf b (Sat.th T) = 0 := by
    rw [← hq]; unfold Sat.Qf Sat.qA Sat.qB Sat.qC; norm_num; ring
  have hb2 : b < 2.67 := by
    by_contra hc
    push Not at hc
    have := pow_le_pow_left₀ (by norm_num) hc 4
    norm_num at this
    linarith
  show b ^ 4 = Sat.bt (Sat.th T) ^ 4
  generalize Sat.th T = y at *
  have hB := Sat.qB_neg y
  have hslope : 2 * Sat.qA y * b + Sat.qB y < 0 := by
    by_cases hA : Sat.qA y ≤ 0
    · nlinarith
    · push Not at hA
      have : Sat.qA y * (2 * 2.67) + Sat.qB y < 0 := by
        obtain ⟨h1, h2⟩ := ht
        unfold Sat.qA Sat.qB; norm_num; nlinarith
      nlinarith
  have hr := Sat.bt_root ht.1 ht.2
  have hsl := Sat.bt_slope ht.1 ht.2
  have hD := Real.sqrt_nonneg (Sat.qD y)
  have e : (b - Sat.bt y) * ((2 * Sat.qA y * b + Sat.qB y) + (2 * Sat.qA y * Sat.bt y + Sat.qB y)) = 0 := by
    have : (b - Sat.bt y) * ((2 * Sat.qA y * b + Sat.qB y) + (2 * Sat.qA y * Sat.bt y + Sat.qB y)) =
      2 * (Sat.Qf b y - Sat.Qf (Sat.bt y) y) := by unfold Sat.Qf; ring
    rw [this, hq', hr]; ring
  have hb' : b = Sat.bt y := by
    rcases mul_eq_zero.mp e with h | h
    · linarith
    · linarith
  rw [hb']

theorem nearSat_iff {p T : ℝ} (h1 : 273.15 ≤ T) :
    NearSat p T ↔ T < 647.096 ∧ |p - Sat.psat T| / Sat.psat T < 1e-6 := by
  constructor
  · rintro ⟨h2, ps, hs, h⟩
    rw [hs.eq ⟨h1, h2.le⟩] at h; exact ⟨h2, h⟩
  · rintro ⟨h2, h⟩
    exact ⟨h2, _, isSat_psat ⟨h1, h2.le⟩, h⟩

end Domain
end If97
