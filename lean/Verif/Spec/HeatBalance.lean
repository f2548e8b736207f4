import Verif.Model.Data
import Mathlib.Algebra.BigOperators.Fin
import Mathlib.Algebra.BigOperators.Field
import Mathlib.Analysis.SpecialFunctions.Pow.Real

/-!
# Specification: the heat balance of a building in one hour

A building with three temperatures: of the air, of the inner surfaces and of the mass.  All figures are per square
metre of floor, conductances in W/K, heat flows in W, the capacity in kJ/K.
Only the input records are used here, nothing of the calculation.
-/

namespace ISO.Spec
open ISO

/-- the building as a network of three nodes -/
structure ThreeNodes where
  /-- heat capacity of the mass -/
  capacity : ℝ
  /-- conductances -/
  massSurface : ℝ
  massOutdoor : ℝ
  surfaceAir : ℝ
  surfaceOutdoor : ℝ
  airExchange : ℝ
  /-- temperature outdoors and of the air that enters -/
  outdoor : ℝ
  entering : ℝ
  /-- heat gains of the nodes -/
  toAir : ℝ
  toSurface : ℝ
  toMass : ℝ

/-- The heat balances of the nodes in one hour: the mass goes from `mass₀` to `mass₁` and exchanges heat at its mean
temperature, surfaces and air store nothing; `power` is what heating adds to the air (minus what cooling takes). -/
structure Balanced (n : ThreeNodes) (mass₀ mass₁ surface air power : ℝ) : Prop where
  massBalance : n.capacity / 3.6 * (mass₁ - mass₀) = n.toMass + n.massSurface * (surface - (mass₀ + mass₁) / 2) +
    n.massOutdoor * (n.outdoor - (mass₀ + mass₁) / 2)
  surfaceBalance : 0 = n.toSurface + n.massSurface * ((mass₀ + mass₁) / 2 - surface) +
    n.surfaceOutdoor * (n.outdoor - surface) + n.surfaceAir * (air - surface)
  airBalance : 0 = n.toAir + power + n.airExchange * (n.entering - air) + n.surfaceAir * (surface - air)

/-- what leaves the building in the hour -/
noncomputable def losses (n : ThreeNodes) (mass₀ mass₁ surface air : ℝ) : ℝ :=
  n.massOutdoor * ((mass₀ + mass₁) / 2 - n.outdoor) + n.surfaceOutdoor * (surface - n.outdoor) +
    n.airExchange * (air - n.entering)

/-- What a thermostat does: the air stays between the set-points, it is heated no further than to the heating set-point
and cooled no further than to the cooling set-point. -/
structure Controlled (heatSet coolSet air power : ℝ) : Prop where
  above : heatSet ≤ air
  below : air ≤ coolSet
  heating : 0 < power → air = heatSet
  cooling : power < 0 → air = coolSet

/-! ## the network of a building -/

/-- heat capacity in kJ/K per m² of floor: inside plus walls -/
noncomputable def heatCapacity (x : Sim ℝ) : ℝ :=
  (x.bldg.interiorHeatCapacity + x.bldg.wallHeatCapacity * (∑ i, x.bldg.wallArea i) / x.bldg.floorArea) / 1000

open Classical in
/-- area of the mass per m² of floor: 2.5 up to 165 kJ/K, 3 at 260 kJ/K, 3.5 from 370 kJ/K on, linear in between -/
noncomputable def massArea (x : Sim ℝ) : ℝ :=
  if heatCapacity x ≤ 165 then 2.5
  else if heatCapacity x ≤ 260 then 2.5 + (heatCapacity x - 165) / 190
  else if heatCapacity x ≤ 370 then 3 + (heatCapacity x - 260) / 220
  else 3.5

/-- heat transfer coefficient between mass and surfaces -/
noncomputable def massCoefficient (x : Sim ℝ) : ℝ := x.simSettings.hci + 1.2 * x.simSettings.hri

/-- conductance of the windows per m² of floor -/
noncomputable def windowConductance (x : Sim ℝ) : ℝ :=
  (∑ i, x.bldg.windowArea i * x.bldg.windowUniform i) / x.bldg.floorArea

/-- conductance of the walls per m² of floor -/
noncomputable def wallConductance (x : Sim ℝ) : ℝ :=
  max ((∑ i, x.bldg.wallArea i * x.bldg.wallUniform i) / x.bldg.floorArea) 0.000001

/-- Air flows in m³/h per m² of floor: `extract` leaves by the fans; they supply the fraction `fanControlFactor` of it. -/
noncomputable def supplied (x : Sim ℝ) (extract : ℝ) : ℝ := extract * max 0.00001 x.ventilation.fanControlFactor

/-- leakageAt4Pa of the envelope at 4 Pa -/
noncomputable def leakageAt4Pa (x : Sim ℝ) : ℝ :=
  max 0.000001 (0.19 * x.ventilation.n50 * x.bldg.buildingHeight)

/-- infiltration driven by the wind -/
noncomputable def windFlow (x : Sim ℝ) (wind : ℝ) : ℝ :=
  0.0769 * leakageAt4Pa x * (x.ventilation.dCp * wind ^ 2) ^ (0.667 : ℝ)

/-- infiltration driven by the temperature difference -/
noncomputable def stackFlow (x : Sim ℝ) (outdoor indoor : ℝ) : ℝ :=
  0.0146 * leakageAt4Pa x * (0.5 * max 0.1 x.ventilation.hzone * max 0.00001 |outdoor - indoor|) ^ (0.667 : ℝ)

/-- air entering through the envelope: what is extracted but not supplied, and infiltration, which an imbalance of the
fans reduces -/
noncomputable def throughEnvelope (x : Sim ℝ) (extract outdoor indoor wind : ℝ) : ℝ :=
  max 0 (extract - supplied x extract) +
  max 0 (max (stackFlow x outdoor indoor) (windFlow x wind) - |extract - supplied x extract| *
    (0.5 * stackFlow x outdoor indoor +
      0.667 * windFlow x wind / (stackFlow x outdoor indoor + windFlow x wind)))

/-- temperature of the supplied air: after heat recovery from 20 degrees, at least the preheating temperature -/
noncomputable def supplyTemperature (x : Sim ℝ) (outdoor : ℝ) : ℝ :=
  max x.ventilation.ventPreheatDegC
    (outdoor + x.ventilation.heatRecoveryEfficiency * (20 - outdoor))

/-- Solar gain with radiation `sun i` on facade `i`: absorbed by walls, and let in by windows with shading in use in
proportion to the radiation. -/
noncomputable def solarGain (x : Sim ℝ) (sun : Fin 9 → ℝ) : ℝ :=
  (∑ i, sun i * (x.bldg.wallArea i * x.bldg.wallSolarAbsorption i * x.bldg.wallUniform i * x.bldg.R_se +
    x.bldg.windowArea i * (x.bldg.windowNormalIncidenceSolarEnergyTransmittance i +
      (x.bldg.windowShadingCorrectionFactor i - x.bldg.windowNormalIncidenceSolarEnergyTransmittance i) *
        (x.bldg.shadingFactorAtMaxUse * (min (sun i) x.bldg.irradianceForMaxShadingUse /
          x.bldg.irradianceForMaxShadingUse))))) / x.bldg.floorArea

/-- the network of a building in an hour with `extract` ventilation, air at `indoor` degrees the hour before, internal
gains `inside`, temperature `outdoor`, wind speed `wind` and radiation `sun` -/
noncomputable def buildingNetwork (x : Sim ℝ) (extract indoor inside outdoor wind : ℝ) (sun : Fin 9 → ℝ) : ThreeNodes where
  capacity := heatCapacity x
  massSurface := massCoefficient x * massArea x
  massOutdoor := 1 / (1 / wallConductance x - 1 / (massCoefficient x * massArea x))
  surfaceAir := x.bldg.totalAreaPerFloorArea / (1 / x.simSettings.hci - 1 / massCoefficient x)
  surfaceOutdoor := windowConductance x
  airExchange := 0.34 * (throughEnvelope x extract outdoor indoor wind + supplied x extract)
  outdoor := outdoor
  entering := (outdoor * throughEnvelope x extract outdoor indoor wind + supplyTemperature x outdoor * supplied x extract) /
    (throughEnvelope x extract outdoor indoor wind + supplied x extract)
  toAir := x.simSettings.phiSolFractionToAirNode * solarGain x sun + x.simSettings.phiIntFractionToAirNode * inside
  toSurface := (1 - massArea x / x.bldg.totalAreaPerFloorArea -
      windowConductance x / (massCoefficient x * x.bldg.totalAreaPerFloorArea)) *
    ((1 - x.simSettings.phiSolFractionToAirNode) * solarGain x sun +
      (1 - x.simSettings.phiIntFractionToAirNode) * inside)
  toMass := massArea x / x.bldg.totalAreaPerFloorArea *
    ((1 - x.simSettings.phiSolFractionToAirNode) * solarGain x sun +
      (1 - x.simSettings.phiIntFractionToAirNode) * inside)

end ISO.Spec
