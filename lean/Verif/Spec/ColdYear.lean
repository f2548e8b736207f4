import Verif.Spec.WholeYear
import Verif.Spec.Insulation
import Verif.Spec.HourlyWhole

/-! # Specification: a year in which a building never gains heat from outdoors -/

namespace ISO.Spec
open ISO ISO.Epw

/-- A year in which it is never warmer outdoors than `level` degrees, which is no more than the set-points for heating and the 20 degrees of the heat
recovery, and never so cold that the mass of the building would cool below `level`: with `lowest` degrees outdoors and the air at the lower set-point
for heating, a mass at `level` degrees and surfaces at `surface` degrees would take up at least what they give off. -/
structure ColdYear (x : Sim ℝ) (w : Weather ℝ) (lowest level surface : ℝ) : Prop where
  temperature : ∀ i, lowest ≤ w.data DBT i ∧ w.data DBT i ≤ level
  recovery : level ≤ 20
  heatOccupied : level ≤ x.heating.temperatureSetPointOccupied
  heatUnoccupied : level ≤ x.heating.temperatureSetPointUnoccupied
  surfaces : 0 ≤ massCoefficient x * massArea x * (level - surface) + windowConductance x * (lowest - surface) +
    x.bldg.totalAreaPerFloorArea / (1 / x.simSettings.hci - 1 / massCoefficient x) *
      (min x.heating.temperatureSetPointOccupied x.heating.temperatureSetPointUnoccupied - surface)
  mass : 1 / (1 / wallConductance x - 1 / (massCoefficient x * massArea x)) * (level - lowest) ≤ massCoefficient x * massArea x * (surface - level)

/-- lamps, appliances and sun only ever warm the building: powers, absorption and transmittance are not negative, shading covers part of the glass,
and the nodes of the network share out the gains -/
structure OnlyGains (x : Sim ℝ) : Prop where
  lampHeat : 0 ≤ x.lights.elecInternalGains
  absorption : ∀ i, 0 ≤ x.bldg.wallSolarAbsorption i
  resistance : 0 ≤ x.bldg.R_se
  glass : ∀ i, 0 ≤ x.bldg.windowNormalIncidenceSolarEnergyTransmittance i
  shaded : ∀ i, 0 ≤ x.bldg.windowShadingCorrectionFactor i
  shadingUse0 : 0 ≤ x.bldg.shadingFactorAtMaxUse
  shadingUse1 : x.bldg.shadingFactorAtMaxUse ≤ 1
  sunAir0 : 0 ≤ x.simSettings.phiSolFractionToAirNode
  sunAir1 : x.simSettings.phiSolFractionToAirNode ≤ 1
  insideAir0 : 0 ≤ x.simSettings.phiIntFractionToAirNode
  insideAir1 : x.simSettings.phiIntFractionToAirNode ≤ 1
  surfaceShare : massArea x + windowConductance x / massCoefficient x ≤ x.bldg.totalAreaPerFloorArea

/-- radiation is not negative, and comes only while the sun is up -/
def DaylightOnly (w : Weather ℝ) : Prop :=
  ∀ i : Fin 8760, 0 ≤ w.data EB i ∧ 0 ≤ w.data ED i ∧ 0 ≤ w.data EGH i ∧
    (0 ≤ Sun.up ⟨w.latitude, w.longitude, w.timezone⟩ (i.1 / 24 : ℕ) (i.1 % 24 : ℕ) ∨ (w.data EB i = 0 ∧ w.data ED i = 0))

end ISO.Spec
