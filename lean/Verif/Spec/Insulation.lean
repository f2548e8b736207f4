import Verif.Spec.HeatBalance
import Verif.Spec.Physical

/-! # Specification: insulation, airtightness and heat recovery -/

namespace ISO.Spec
open ISO

/-- `x` with U-values, air change at 50 Pa and heat recovery taken from `y` -/
def takeInsulation {α : Type} (x y : Sim α) : Sim α :=
  { x with
    bldg := { x.bldg with wallUniform := y.bldg.wallUniform, windowUniform := y.bldg.windowUniform }
    ventilation := { x.ventilation with
      n50 := y.ventilation.n50
      heatRecoveryEfficiency := y.ventilation.heatRecoveryEfficiency } }

/-- no U-value of `y` is higher than in `x`, its air change at 50 Pa is not higher and its heat recovery not worse -/
structure BetterInsulated (x y : Sim ℝ) : Prop where
  walls0 : ∀ i, 0 ≤ y.bldg.wallUniform i
  walls : ∀ i, y.bldg.wallUniform i ≤ x.bldg.wallUniform i
  windows0 : ∀ i, 0 ≤ y.bldg.windowUniform i
  windows : ∀ i, y.bldg.windowUniform i ≤ x.bldg.windowUniform i
  tightness : y.ventilation.n50 ≤ x.ventilation.n50
  recovery : x.ventilation.heatRecoveryEfficiency ≤ y.ventilation.heatRecoveryEfficiency

end ISO.Spec
