import Verif.Spec.MonthlyGains
import Verif.Spec.MonthlyFlow
import Verif.Spec.MonthlySystems
import Verif.Spec.Utilisation
import Verif.Spec.MonthlyTemp

/-! # Specification: the monthly energy balance of a building as a formula of its parameters -/

namespace ISO.Spec
open ISO

/-- share of the hours of a week in which the building is occupied -/
noncomputable def occupiedShare (x : Sim ℝ) : ℝ := windowHours x.pop * windowDays x.pop / 168

/-- energy of the lights in a year (kWh) -/
noncomputable def lightsYear (x : Sim ℝ) : ℝ :=
  (x.bldg.floorArea * x.lights.powerDensityOccupied * (x.building.constantIllumination * x.building.lightingOccupancySensor)
      * (litDays x * (x.lights.dimmingFraction * litByDay x + litByNight x))
    + x.bldg.floorArea * x.lights.powerDensityUnoccupied * (8760 - litDays x * (x.pop.hoursEnd - x.pop.hoursStart))) / 1000

/-- heat from people, appliances and lights, averaged over the week (W) -/
noncomputable def insideHeat (x : Sim ℝ) : ℝ :=
  x.bldg.floorArea * x.pop.heatGainPerPerson
      * (occupiedShare x / x.pop.densityOccupied + (1 - occupiedShare x) / x.pop.densityUnoccupied)
    + x.bldg.floorArea
      * (occupiedShare x * (x.building.electricApplianceHeatGainOccupied + x.building.gasApplianceHeatGainOccupied)
        + (1 - occupiedShare x) * (x.building.electricApplianceHeatGainUnoccupied + x.building.gasApplianceHeatGainUnoccupied))
    + 1000 * lightsYear x / 8760

/-- all gains of a month (MJ) -/
noncomputable def monthGain (x : Sim ℝ) (m : Fin 12) : ℝ :=
  megaseconds m * (insideHeat x + (windowHeat x.bldg x.weather m + opaqueHeat x.bldg x.weather m - skyLoss x.bldg))

/-- heat a building kept at `T` loses in a month through its envelope and with the air (MJ) -/
noncomputable def monthLoss (x : Sim ℝ) (T : ℝ) (m : Fin 12) : ℝ :=
  megaseconds m * (T - x.weather.mdbt m)
    * (∑ i, (x.bldg.wallArea i * x.bldg.wallUniform i + x.bldg.windowArea i * x.bldg.windowUniform i)
      + (leakage x m T + fanFlow x (occupiedShare x)) * (x.phys.rhoCpAir * 1000000) / 3600 * x.bldg.floorArea)

/-- the parameter of the utilisation factor, from the time constant of the building -/
noncomputable def inertia (x : Sim ℝ) : ℝ := x.heating.a_H0 + buildingTau x / x.heating.tau_H0

/-- set-points in use -/
noncomputable def heatTo (x : Sim ℝ) : ℝ := x.heating.temperatureSetPointOccupied - levelShift x.building.buildingEnergyManagement
/-- set-points in use -/
noncomputable def coolTo (x : Sim ℝ) : ℝ := x.cooling.temperatureSetPointOccupied + levelShift x.building.buildingEnergyManagement

/-- heat from people, appliances and lights in unoccupied hours (W) -/
noncomputable def insideUnoccupied (x : Sim ℝ) : ℝ :=
  x.bldg.floorArea * (x.pop.heatGainPerPerson / x.pop.densityUnoccupied
      + (x.building.electricApplianceHeatGainUnoccupied + x.building.gasApplianceHeatGainUnoccupied))
    + x.bldg.floorArea * x.lights.powerDensityUnoccupied * (8760 - litDays x * (x.pop.hoursEnd - x.pop.hoursStart))
      / (8760 * (1 - occupiedShare x))

/-- mean radiation of a month (W/m2), from its means by day and by night -/
noncomputable def meanSun (x : Sim ℝ) (m : Fin 12) : ℝ :=
  (mean (dayHours x.pop) (x.weather.mhEgh m) * windowHours x.pop
    + mean (dayHours x.pop)ᶜ (x.weather.mhEgh m) * (24 - windowHours x.pop)) / 24

/-- heat gained in unoccupied time that falls into the clock hours `hours` (W): the solar gain of the month is distributed in
proportion to the radiation.  `share` is the part of the week that is such time; if there is none, the program takes the largest
double. -/
noncomputable def unoccupiedGain (x : Sim ℝ) (m : Fin 12) (hours : Finset (Fin 24)) (share : ℝ) : ℝ :=
  open Classical in
  if share = 0 then dblMax
  else insideUnoccupied x + (windowHeat x.bldg x.weather m + opaqueHeat x.bldg x.weather m - skyLoss x.bldg)
    * (mean hours (x.weather.mhEgh m) / meanSun x m)

/-- an unoccupied stretch of `length` hours in the clock hours `hours`: the building would reach the outside temperature of these
hours plus gains over losses -/
noncomputable def unoccupiedStretch (x : Sim ℝ) (m : Fin 12) (hours : Finset (Fin 24)) (length share : ℝ) : Stretch :=
  ⟨length, mean hours (x.weather.mhdbt m) + unoccupiedGain x m hours share / buildingLoss x⟩

/-- the weekend of month `m`: a week night, then days and nights in turn -/
noncomputable def weekend (x : Sim ℝ) (m : Fin 12) : ℕ → Stretch :=
  nightAndDay (unoccupiedStretch x m (dayHours x.pop)ᶜ (24 - windowHours x.pop) (windowDays x.pop - 1))
    (unoccupiedStretch x m (dayHours x.pop) (windowHours x.pop) (7 - windowDays x.pop))
    (unoccupiedStretch x m (dayHours x.pop)ᶜ (24 - windowHours x.pop) (8 - windowDays x.pop))

/-- share of the hours of a week that are nights between occupied days -/
noncomputable def nightShare (x : Sim ℝ) : ℝ := (windowDays x.pop - 1) * (24 - windowHours x.pop) / 168

/-- indoor temperature the heating reckons with in month `m` -/
noncomputable def heatedTo (x : Sim ℝ) (m : Fin 12) : ℝ :=
  open Classical in
  if x.heating.T_ht_ctrl_flag = 1 then
    min (weekMean (heatTo x) (occupiedShare x) (nightShare x) (1 - occupiedShare x - nightShare x)
      (stretchMean (buildingTau x) (weekend x m) (heatTo x) (heatTo x) x.heating.temperatureSetPointUnoccupied)) (heatTo x)
  else heatTo x

/-- indoor temperature the cooling reckons with in month `m` -/
noncomputable def cooledTo (x : Sim ℝ) (m : Fin 12) : ℝ :=
  open Classical in
  if x.cooling.T_cl_ctrl_flag = 1 then
    min (weekMean (coolTo x) (occupiedShare x) (nightShare x) (1 - occupiedShare x - nightShare x)
      (stretchMean (buildingTau x) (weekend x m) (min (heatTo x) x.cooling.temperatureSetPointUnoccupied) (coolTo x)
        x.cooling.temperatureSetPointUnoccupied)) (coolTo x)
  else coolTo x

/-- The building is kept at the same temperatures all week: no set-back control, or set-points for unoccupied hours that change
nothing. -/
structure SteadyTemperatures (x : Sim ℝ) : Prop where
  heating : x.heating.T_ht_ctrl_flag ≠ 1 ∨ x.heating.temperatureSetPointUnoccupied = heatTo x
  cooling : x.cooling.T_cl_ctrl_flag ≠ 1 ∨ coolTo x ≤ x.cooling.temperatureSetPointUnoccupied

/-- heat loss, time constant, hours of occupancy, temperatures and set-points as real buildings have them -/
structure Moderate (x : Sim ℝ) : Prop where
  loss : 0 < buildingLoss x ∧ buildingLoss x ≤ 10 ^ 12
  tau : 0 < buildingTau x ∧ buildingTau x ≤ 10 ^ 12
  hours : 1 ≤ windowHours x.pop ∧ windowHours x.pop ≤ 23
  outside : ∀ m j, -1000 ≤ x.weather.mhdbt m j
  heatOccupied : -1000 ≤ heatTo x ∧ heatTo x ≤ 1000
  heatUnoccupied : -1000 ≤ x.heating.temperatureSetPointUnoccupied
  coolOccupied : -1000 ≤ coolTo x ∧ coolTo x ≤ 1000
  coolUnoccupied : -1000 ≤ x.cooling.temperatureSetPointUnoccupied

/-- the building `x` with other set-points for unoccupied hours -/
def setBack (x : Sim ℝ) (heat cold : ℝ) : Sim ℝ :=
  { x with heating := { x.heating with temperatureSetPointUnoccupied := heat }
           cooling := { x.cooling with temperatureSetPointUnoccupied := cold } }

/-- heat needed in a month: the loss without the part of the gains that can be used.  The smallest normal double keeps the
denominators away from zero; in a month without loss it makes a difference of at most that order. -/
noncomputable def heatDemand (a gain loss : ℝ) : ℝ :=
  open Classical in
  if 0 < loss then loss - utilisation a (gain / (loss + dblMin)) * gain
  else loss - 1 / (gain / (loss + dblMin) + dblMin) * gain

/-- cold needed in a month: the gain without the part of the loss that can be used -/
noncomputable def coolDemand (a gain loss : ℝ) : ℝ :=
  open Classical in if 0 < loss then gain - utilisation a (loss / (gain + dblMin)) * loss else gain - loss

/-- heat needed in month `m` -/
noncomputable def monthHeat (x : Sim ℝ) (m : Fin 12) : ℝ := heatDemand (inertia x) (monthGain x m) (monthLoss x (heatedTo x m) m)
/-- cold needed in month `m` -/
noncomputable def monthCold (x : Sim ℝ) (m : Fin 12) : ℝ := coolDemand (inertia x) (monthGain x m) (monthLoss x (cooledTo x m) m)

/-- heat that leaves the heating system, distribution losses included -/
noncomputable def heatDelivered (x : Sim ℝ) (m : Fin 12) : ℝ :=
  monthHeat x m * (1 + heatLossRate x (∑ k, monthHeat x k) (∑ k, monthCold x k))
/-- cold that leaves the cooling system, distribution losses included -/
noncomputable def coldDelivered (x : Sim ℝ) (m : Fin 12) : ℝ :=
  monthCold x m * (1 + coolLossRate x (∑ k, monthHeat x k) (∑ k, monthCold x k))

/-- megajoules of the building to kilowatt hours per square metre -/
noncomputable def perArea (x : Sim ℝ) (megajoules : ℝ) : ℝ := megajoules / x.bldg.floorArea / singleMJ

open Classical in
/-- electricity for heating (MJ): only if the building has its own, electric, heating -/
noncomputable def heatElectricity (x : Sim ℝ) (m : Fin 12) : ℝ :=
  if x.heating.DH_YesNo ≠ 1 ∧ x.heating.energyType = 1 then heatDelivered x m / (x.heating.efficiency + dblMin) else 0

open Classical in
/-- gas for heating (MJ): own heating by gas, or district heating -/
noncomputable def heatGas (x : Sim ℝ) (m : Fin 12) : ℝ :=
  if x.heating.DH_YesNo = 1 then
    heatDelivered x m * (1 - x.heating.frac_DH_free) / (x.heating.eta_DH_sys * x.heating.eta_DH_network)
  else if x.heating.energyType = 1 then 0 else heatDelivered x m / (x.heating.efficiency + dblMin)

open Classical in
/-- electricity for cooling (MJ) -/
noncomputable def coldElectricity (x : Sim ℝ) (m : Fin 12) : ℝ :=
  if x.cooling.DC_YesNo = 1 then
    coldDelivered x m * (1 - x.cooling.eta_DC_frac_abs) / (x.cooling.eta_DC_COP * x.cooling.eta_DC_network)
  else coldDelivered x m / (x.cooling.cop * x.cooling.partialLoadValue + dblMin)

open Classical in
/-- gas for cooling (MJ): absorption chillers of district cooling -/
noncomputable def coldGas (x : Sim ℝ) (m : Fin 12) : ℝ :=
  if x.cooling.DC_YesNo = 1 then coldDelivered x m * (1 - x.cooling.frac_DC_free) / x.cooling.eta_DC_COP_abs else 0

/-- gains are positive, no loss is (nearly) zero, and nowhere does the ratio of gain and loss equal one: then the utilisation
factors of all months are numbers -/
structure Unambiguous (x : Sim ℝ) : Prop where
  gain : ∀ m, 0 < monthGain x m
  loss : ∀ m, 0 < monthLoss x (heatedTo x m) m ∨ monthLoss x (heatedTo x m) m < -dblMin
  denominator : ∀ m, monthLoss x (heatedTo x m) m < -dblMin → monthGain x m / (monthLoss x (heatedTo x m) m + dblMin) + dblMin ≠ 0
  heating : ∀ m, monthGain x m ≠ monthLoss x (heatedTo x m) m + dblMin
  cooling : ∀ m, monthLoss x (cooledTo x m) m ≠ monthGain x m + dblMin
  some : ∑ k, monthHeat x k + ∑ k, monthCold x k ≠ 0

/-- data in their ranges and a year without ambiguous months -/
structure Ordinary (x : Sim ℝ) : Prop where
  temperatures : TempData x
  flows : VentilationData x
  lights : LightingData x
  systems : SystemData x
  sun : ∀ m j, 0 ≤ x.weather.mhEgh m j
  reference : x.heating.tau_H0 ≠ 0
  inertia : 0 < inertia x
  months : Unambiguous x

/-! ## The other end uses -/

/-- energy of the fans (kWh/m2): the air that carries heat and cold to the rooms, at least the outside air of the occupied hours,
times the power of the fans -/
noncomputable def fansMonth (x : Sim ℝ) (m : Fin 12) : ℝ :=
  max (airVolume x (monthHeat x m) (x.heating.temperatureSetPointOccupied + x.heating.dT_supp_ht - heatedTo x m)
      + airVolume x (monthCold x m) (cooledTo x m - (x.cooling.temperatureSetPointOccupied - x.cooling.dT_supp_cl)))
    (86400 * days m * occupiedShare x * x.ventilation.supplyRate / 1000)
  * (x.ventilation.fanPower * x.ventilation.fanControlFactor / 1000) / x.bldg.floorArea / 3.6

/-- energy of the pumps of both systems in a month (MJ): by the share of the month in the needs of the year -/
noncomputable def pumpsMonth (x : Sim ℝ) (m : Fin 12) : ℝ :=
  (pumpEnergy x.heating.E_pumps x.heating.pumpControlReduction x.bldg.floorArea
      + pumpEnergy x.cooling.E_pumps x.cooling.pumpControlReduction x.bldg.floorArea)
    * ((monthHeat x m + monthCold x m) / (∑ k, monthHeat x k + ∑ k, monthCold x k))

/-- energy for hot water in a month (kWh) -/
noncomputable def waterMonth (x : Sim ℝ) (m : Fin 12) : ℝ :=
  days m / 365 * (x.heating.hotWaterDemand * (x.heating.dhw_tset - x.heating.dhw_tsupply) * x.phys.rhoCpWater)
    / (x.heating.hotWaterDistributionEfficiency * x.heating.hotWaterSystemEfficiency * singleMJ)

/-- energy of appliances in a month (kWh/m2), from their power in occupied and unoccupied hours (W/m2) -/
noncomputable def appliancesMonth (x : Sim ℝ) (m : Fin 12) (occupied unoccupied : ℝ) : ℝ :=
  24 * days m * (occupied * occupiedShare x + unoccupied * (1 - occupiedShare x)) / 1000

/-- data of hot water, fans and pumps in their ranges: air is not blown in colder than it is to heat, or warmer than it is to
cool; both pump systems exist -/
structure Equipped (x : Sim ℝ) : Prop where
  distribution : 0 < x.heating.hotWaterDistributionEfficiency
  system : 0 < x.heating.hotWaterSystemEfficiency
  demand : 0 ≤ x.heating.hotWaterDemand
  warmer : x.heating.dhw_tsupply ≤ x.heating.dhw_tset
  water : 0 ≤ x.phys.rhoCpWater
  supplyHeating : 0 ≤ x.heating.dT_supp_ht
  supplyCooling : ∀ m, x.cooling.temperatureSetPointOccupied - x.cooling.dT_supp_cl ≤ cooledTo x m
  pumpsHeating : pumpEnergy x.heating.E_pumps x.heating.pumpControlReduction x.bldg.floorArea ≠ 0
  pumpsCooling : pumpEnergy x.cooling.E_pumps x.cooling.pumpControlReduction x.bldg.floorArea ≠ 0

end ISO.Spec
