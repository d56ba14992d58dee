import Verif.Lemmas.Tm.Leaf2
import Verif.Lemmas.Tm.Comp.Scales

/-! The tables in these units are those of the code. -/

namespace If97.Tm
set_option maxRecDepth 100000

theorem sk0_ok : sk0.Ok := ⟨by decide, by decide, by decide, by decide, by decide +kernel, by decide +kernel, by decide +kernel,
  by decide +kernel⟩
theorem sk1_ok : sk1.Ok := ⟨by decide, by decide, by decide, by decide, by decide +kernel, by decide +kernel, by decide +kernel,
  by decide +kernel⟩
theorem sk2_ok : sk2.Ok := ⟨by decide, by decide, by decide, by decide, by decide +kernel, by decide +kernel, by decide +kernel,
  by decide +kernel⟩
theorem sk3_ok : sk3.Ok := ⟨by decide, by decide, by decide, by decide, by decide +kernel, by decide +kernel, by decide +kernel,
  by decide +kernel⟩
theorem sk4_ok : sk4.Ok := ⟨by decide, by decide, by decide, by decide, by decide +kernel, by decide +kernel, by decide +kernel,
  by decide +kernel⟩
theorem sk5_ok : sk5.Ok := ⟨by decide, by decide, by decide, by decide, by decide +kernel, by decide +kernel, by decide +kernel,
  by decide +kernel⟩
theorem sk6_ok : sk6.Ok := ⟨by decide, by decide, by decide, by decide, by decide +kernel, by decide +kernel, by decide +kernel,
  by decide +kernel⟩
theorem sk7_ok : sk7.Ok := ⟨by decide, by decide, by decide, by decide, by decide +kernel, by decide +kernel, by decide +kernel,
  by decide +kernel⟩
theorem sk8_ok : sk8.Ok := ⟨by decide, by decide, by decide, by decide, by decide +kernel, by decide +kernel, by decide +kernel,
  by decide +kernel⟩
theorem sk9_ok : sk9.Ok := ⟨by decide, by decide, by decide, by decide, by decide +kernel, by decide +kernel, by decide +kernel,
  by decide +kernel⟩
theorem sk10_ok : sk10.Ok := ⟨by decide, by decide, by decide, by decide, by decide +kernel, by decide +kernel, by decide +kernel,
  by decide +kernel⟩
theorem sk11_ok : sk11.Ok := ⟨by decide, by decide, by decide, by decide, by decide +kernel, by decide +kernel, by decide +kernel,
  by decide +kernel⟩

end If97.Tm
