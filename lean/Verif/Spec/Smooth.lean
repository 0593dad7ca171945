import Verif.Model.FastLED

/-! # Specification vocabulary for the smoothness of the noise -/

namespace Firefly.Spec

/-- FastLED's easing curve runs from 0 to 255 and rises by 0 to 2 at each step. -/
structure SmoothEase (F : FastLED) : Prop where
  first : F.ease8InOutApprox 0 = 0
  last : F.ease8InOutApprox 255 = 255
  step : ∀ i : U8, i.toNat < 255 →
    (F.ease8InOutApprox i).toNat ≤ (F.ease8InOutApprox (i + 1)).toNat ∧
    (F.ease8InOutApprox (i + 1)).toNat ≤ (F.ease8InOutApprox i).toNat + 2

end Firefly.Spec
