import Mathlib.Analysis.SpecialFunctions.Pow.Real

/-! # Specification: utilisation of gains (ISO 13790, 12.2.1.1) -/

namespace ISO.Spec

/-- utilisation factor for the ratio `γ > 0` of gains to losses (or losses to gains) and the inertia parameter `a` -/
noncomputable def utilisation (a γ : ℝ) : ℝ :=
  open Classical in if γ = 1 then a / (a + 1) else (1 - γ ^ a) / (1 - γ ^ (a + 1))

end ISO.Spec
