import Verif.Spec.HeatBalance
import Verif.Spec.Effects

/-! # Specification: glass, colour and shading -/

namespace ISO.Spec
open ISO

/-- `x` with everything that decides how much sun gets in, apart from the areas, taken from `y`: transmittance of the glass, colour of the walls and
movable shading -/
def takeSunProtection {α : Type} (x y : Sim α) : Sim α :=
  { x with bldg := { x.bldg with
      R_se := y.bldg.R_se
      wallSolarAbsorption := y.bldg.wallSolarAbsorption
      windowNormalIncidenceSolarEnergyTransmittance := y.bldg.windowNormalIncidenceSolarEnergyTransmittance
      windowShadingCorrectionFactor := y.bldg.windowShadingCorrectionFactor
      shadingFactorAtMaxUse := y.bldg.shadingFactorAtMaxUse
      irradianceForMaxShadingUse := y.bldg.irradianceForMaxShadingUse } }

/-- The sun protection of `y` is at least as good as that of `x`: walls no darker, glass and shaded glass no clearer, shading
used at least as much and at radiation at most as strong.  In `y`, shaded glass lets in no more than clear glass. -/
structure BetterProtected (x y : Sim ℝ) : Prop where
  walls : ∀ i, y.bldg.wallSolarAbsorption i * y.bldg.R_se ≤ x.bldg.wallSolarAbsorption i * x.bldg.R_se
  glass : ∀ i, y.bldg.windowNormalIncidenceSolarEnergyTransmittance i ≤ x.bldg.windowNormalIncidenceSolarEnergyTransmittance i
  shaded : ∀ i, y.bldg.windowShadingCorrectionFactor i ≤ x.bldg.windowShadingCorrectionFactor i
  shades : ∀ i, y.bldg.windowShadingCorrectionFactor i ≤ y.bldg.windowNormalIncidenceSolarEnergyTransmittance i
  notNegative : 0 ≤ x.bldg.shadingFactorAtMaxUse
  atMostAll : x.bldg.shadingFactorAtMaxUse ≤ 1
  use : x.bldg.shadingFactorAtMaxUse ≤ y.bldg.shadingFactorAtMaxUse
  positive : 0 < y.bldg.irradianceForMaxShadingUse
  strength : y.bldg.irradianceForMaxShadingUse ≤ x.bldg.irradianceForMaxShadingUse

end ISO.Spec
