import Verif.Spec.Calendar
import Verif.Spec.HeatBalance
import Verif.Spec.Lighting
import Verif.Spec.Occupancy
import Verif.Spec.Physical
import Verif.Spec.Sun
import Verif.Spec.Systems
import Verif.Model.Epw

/-!
# Specification: the hourly simulation as a whole

What the hourly simulation of a building in a weather year is, from the input records alone: the thirteen end uses of
every hour in terms of a course of temperatures and powers that satisfies the heat balances under thermostat control.
Nothing of the calculation is used here.
-/

namespace ISO.Spec.HourlyWhole
open ISO ISO.Epw ISO.Spec

/-- hour `i` of the year: day of the year and hour of the day, both counted from 0 -/
def dayOf (i : ℕ) : ℤ := (i / 24 : ℕ)
def hourOf (i : ℕ) : ℤ := (i % 24 : ℕ)

/-- where the weather was recorded -/
def placeOf (w : Weather ℝ) : Sun.Place := ⟨w.latitude, w.longitude, w.timezone⟩

/-- the radiation on the eight facades (beam, sky and ground), and on the roof: the global horizontal radiation -/
noncomputable def radiation (w : Weather ℝ) (i : Fin 8760) (k : Fin 9) : ℝ :=
  if h : k.1 < 8 then
    Sun.direct (w.data EB i) (Sun.cosIncidence (placeOf w) (dayOf i) (hourOf i) ⟨k.1, h⟩) +
    Sun.sky (w.data ED i) (Sun.cosIncidence (placeOf w) (dayOf i) (hourOf i) ⟨k.1, h⟩) +
    Sun.ground (w.data EB i) (w.data ED i) (Sun.up (placeOf w) (dayOf i) (hourOf i))
  else w.data EGH i

/-! ## use of the building -/

open Classical in
/-- a value that depends on occupancy -/
noncomputable def byOccupancy (x : Sim ℝ) (i : ℕ) (occupied unoccupied : ℝ) : ℝ :=
  if Occupied x.pop i then occupied else unoccupied

noncomputable def heatingSetPoint (x : Sim ℝ) (i : ℕ) : ℝ :=
  byOccupancy x i x.heating.temperatureSetPointOccupied x.heating.temperatureSetPointUnoccupied
noncomputable def coolingSetPoint (x : Sim ℝ) (i : ℕ) : ℝ :=
  byOccupancy x i x.cooling.temperatureSetPointOccupied x.cooling.temperatureSetPointUnoccupied
/-- W per m² of floor -/
noncomputable def appliances (x : Sim ℝ) (i : ℕ) : ℝ :=
  byOccupancy x i x.building.electricApplianceHeatGainOccupied x.building.electricApplianceHeatGainUnoccupied
/-- W per m² of floor -/
noncomputable def installedLighting (x : Sim ℝ) (i : ℕ) : ℝ :=
  byOccupancy x i x.lights.powerDensityOccupied x.lights.powerDensityUnoccupied

open Classical in
/-- what the fans extract, m³/h per m² of floor, in the occupied hours of every day (the rate is given in l/s) -/
noncomputable def extractOf (x : Sim ℝ) (i : ℕ) : ℝ :=
  if OccupiedHour x.pop i then x.ventilation.supplyRate * 3.6 / x.bldg.floorArea else 0

/-! ## lighting -/

open Classical in
/-- the illuminance that is wanted, by the lighting controls present -/
noncomputable def wantedLux (x : Sim ℝ) : ℝ :=
  if x.building.lightingOccupancySensor < 1 then
    if x.lights.dimmingFraction < 1 then x.lights.presenceAutoLux else x.lights.presenceSensorLux
  else if x.lights.dimmingFraction < 1 then x.lights.automaticLux else x.lights.manualSwitchLux

/-- Illuminance of the area with daylight: 53 lm/W, through windows of transmittance `windowShadingDevice / 0.87`. -/
noncomputable def daylight (x : Sim ℝ) (sun : Fin 9 → ℝ) : ℝ :=
  53 / daylitFraction x * ((∑ k, sun k * (x.bldg.windowArea k * (x.bldg.windowShadingDevice k / 0.87))) / x.bldg.floorArea)

/-- The fraction of the installed lighting that is on: in the area with daylight what the daylight leaves to be done, elsewhere
all that the controls let in use. -/
noncomputable def lightsOn (x : Sim ℝ) (sun : Fin 9 → ℝ) : ℝ :=
  daylitFraction x * max 0 (lightingFactor x * (1 - daylight x sun / wantedLux x)) + (1 - daylitFraction x) * lightingFactor x

/-- W per m² of floor -/
noncomputable def lighting (x : Sim ℝ) (w : Weather ℝ) (i : Fin 8760) : ℝ := lightsOn x (radiation w i) * installedLighting x i

/-! ## temperatures and powers -/

/-- the network of the building in hour `i`, with air at `indoor` degrees the hour before -/
noncomputable def networkIn (x : Sim ℝ) (w : Weather ℝ) (i : Fin 8760) (indoor : ℝ) : ThreeNodes :=
  buildingNetwork x (extractOf x i) indoor (appliances x i + lighting x w i * x.lights.elecInternalGains)
    (w.data DBT i) (w.data WSPD i) (radiation w i)

/-- Temperatures at the end of each hour (those of hour `i` have index `i + 1`) and power in each hour: from 20 degrees, in every
hour the heat balances hold and the thermostat does its work. -/
structure Evolution (x : Sim ℝ) (w : Weather ℝ) (mass air : ℕ → ℝ) (surface power : ℕ → ℝ) : Prop where
  startMass : mass 0 = 20
  startAir : air 0 = 20
  balanced : ∀ i : Fin 8760, Balanced (networkIn x w i (air i)) (mass i) (mass (i + 1)) (surface i) (air (i + 1)) (power i)
  controlled : ∀ i : Fin 8760, Controlled (heatingSetPoint x i) (coolingSetPoint x i) (air (i + 1)) (power i)

/-! ## energy -/

/-- the need for heating and for cooling, W per m² of floor -/
noncomputable def heatNeed (power : ℕ → ℝ) (i : ℕ) : ℝ := max 0 (power i)
noncomputable def coolNeed (power : ℕ → ℝ) (i : ℕ) : ℝ := max 0 (-power i)

/-- the needs of the year -/
noncomputable def heatYear (power : ℕ → ℝ) : ℝ := ∑ i ∈ Finset.range 8760, heatNeed power i
noncomputable def coolYear (power : ℕ → ℝ) : ℝ := ∑ i ∈ Finset.range 8760, coolNeed power i

/-- energy for heating: losses and waste by the shares of the year -/
noncomputable def heatEnergy (x : Sim ℝ) (power : ℕ → ℝ) (i : ℕ) : ℝ :=
  delivered x.heating.hvacLossFactor x.heating.hotcoldWasteFactor (heatShare (heatYear power) (coolYear power)) x.heating.efficiency
    (heatNeed power i)
/-- energy for cooling -/
noncomputable def coolEnergy (x : Sim ℝ) (power : ℕ → ℝ) (i : ℕ) : ℝ :=
  delivered x.cooling.hvacLossFactor x.heating.hotcoldWasteFactor (coolShare (heatYear power) (coolYear power)) x.cooling.cop
    (coolNeed power i)

/-- the smallest normal double, which the program adds to keep denominators from vanishing -/
noncomputable def tiny : ℝ := 2.2250738585072014e-308

open Classical in
/-- air that carries the heat, if the system heats with air: by the difference between the temperature of supply and the
temperature of the air the hour before -/
noncomputable def heatingAir (x : Sim ℝ) (indoor need : ℝ) : ℝ :=
  if x.heating.forcedAirHeating = true then
    need / ((x.heating.temperatureSetPointOccupied + x.heating.dT_supp_ht - indoor) * x.phys.rhoCpAir * 277.777778 + tiny)
  else 0

open Classical in
noncomputable def coolingAir (x : Sim ℝ) (indoor need : ℝ) : ℝ :=
  if x.cooling.forcedAirCooling = true then
    need / ((indoor - (x.cooling.temperatureSetPointOccupied - x.cooling.dT_supp_cl)) * x.phys.rhoCpAir * 277.777778 + tiny)
  else 0

/-- the fans move the air for heating and cooling, and at least what is extracted -/
noncomputable def fansPower (x : Sim ℝ) (air power : ℕ → ℝ) (i : ℕ) : ℝ :=
  max (heatingAir x (air i) (heatNeed power i) + coolingAir x (air i) (coolNeed power i)) (extractOf x i) *
    x.ventilation.fanPower * 1000 / 3600

open Classical in
/-- the pumps of the system that is working -/
noncomputable def pumpsPower (x : Sim ℝ) (power : ℕ → ℝ) (i : ℕ) : ℝ :=
  if power i < 0 then x.cooling.E_pumps * x.cooling.pumpControlReduction
  else if 0 < power i then x.heating.E_pumps * x.heating.pumpControlReduction
  else 0

open Classical in
/-- The end uses of hour `i`, W per m² of floor: electric heating, cooling, lighting, exterior lighting (in the dark), fans, pumps,
appliances, exterior equipment, hot water (never accounted for), gas heating, gas cooling, gas equipment, gas hot water. -/
noncomputable def endUse (x : Sim ℝ) (w : Weather ℝ) (air power : ℕ → ℝ) (i : Fin 8760) : Fin 13 → ℝ
  | 0 => if x.heating.energyType = 1 then heatEnergy x power i else 0
  | 1 => coolEnergy x power i
  | 2 => lighting x w i
  | 3 => if 0 < w.data EGH i then 0 else x.lights.exteriorEnergy / x.bldg.floorArea
  | 4 => fansPower x air power i
  | 5 => pumpsPower x power i
  | 6 => appliances x i
  | 7 => x.building.externalEquipment / x.bldg.floorArea
  | 9 => if x.heating.energyType = 1 then 0 else heatEnergy x power i
  | _ => 0

/-- an end use of month `m` (1 = January), Wh per m² of floor -/
noncomputable def monthUse (x : Sim ℝ) (w : Weather ℝ) (air power : ℕ → ℝ) (m : ℕ) (k : Fin 13) : ℝ :=
  ∑ i ∈ hoursOfMonth m, if h : i < 8760 then endUse x w air power ⟨i, h⟩ k else 0

/-- the sun is never exactly overhead or exactly below -/
def NeverOverhead (w : Weather ℝ) : Prop := ∀ i : Fin 8760, |Sun.up (placeOf w) (dayOf i) (hourOf i)| < 1

end ISO.Spec.HourlyWhole
