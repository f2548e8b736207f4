import Verif.Num.Machine
import Verif.Model.Data

/-! # Specification: signs of machine numbers -/

namespace ISO.Spec
open ISO CNum
open scoped NNReal

/-- a finite number with the sign bit clear: `+0` or a positive number -/
def PlainNumber {M : Machine} (x : Mach M) : Prop := ∃ m : ℝ≥0, x = Fl.num false m

/-- the machine number is the real number (zeros of both signs are zero) -/
def Represents {M : Machine} (x : Mach M) (r : ℝ) : Prop := ∃ s m, x = Fl.num s m ∧ (Fl.num s m).value = r

/-- not below zero: the comparison `x < 0` of the machine is false -/
def NotNegative {M : Machine} (x : Mach M) : Prop := clt x (0.0 : Mach M) = false

/-- `a` is at most `b` in the comparison of the machine -/
def AtMost {M : Machine} (a b : Mach M) : Prop := clt b a = false

/-- the parameters of a building that make sense as quantities are plain numbers, the floor is not empty, and the part of it that has daylight
is not larger than the floor (0.0001 is the part the program takes at least).  Temperatures, wind and radiation are not restricted. -/
structure SensibleUse {M : Machine} (x : Sim (Mach M)) : Prop where
  floorArea : PlainNumber x.bldg.floorArea
  floor : clt (0.0 : Mach M) x.bldg.floorArea = true
  daylight : AtMost x.lights.naturallyLightedArea x.bldg.floorArea
  daylight' : AtMost (0.0001 : Mach M) x.bldg.floorArea
  presenceAuto : PlainNumber x.lights.presenceAutoAd
  presence : PlainNumber x.lights.presenceSensorAd
  automatic : PlainNumber x.lights.automaticAd
  manual : PlainNumber x.lights.manualSwitchAd
  lightOccupied : PlainNumber x.lights.powerDensityOccupied
  lightUnoccupied : PlainNumber x.lights.powerDensityUnoccupied
  lightExterior : PlainNumber x.lights.exteriorEnergy
  plugOccupied : PlainNumber x.building.electricApplianceHeatGainOccupied
  plugUnoccupied : PlainNumber x.building.electricApplianceHeatGainUnoccupied
  equipment : PlainNumber x.building.externalEquipment
  supply : PlainNumber x.ventilation.supplyRate
  fanPower : PlainNumber x.ventilation.fanPower
  pumpHeating : PlainNumber x.heating.E_pumps
  pumpHeating' : PlainNumber x.heating.pumpControlReduction
  pumpCooling : PlainNumber x.cooling.E_pumps
  pumpCooling' : PlainNumber x.cooling.pumpControlReduction
  lossHeating : PlainNumber x.heating.hvacLossFactor
  lossCooling : PlainNumber x.cooling.hvacLossFactor
  waste : PlainNumber x.heating.hotcoldWasteFactor
  efficiency : PlainNumber x.heating.efficiency
  cop : PlainNumber x.cooling.cop

/-- the number is the whole number `n` -/
def Whole {M : Machine} (x : Mach M) (n : ℕ) : Prop := x = Fl.num false (n : ℝ≥0)

/-- the timetable of a building in whole hours, days and weeks: occupied from hour `hs` to `he` of the days `ds` to `de`, daylight from `us` to
`ue`, for `nw` weeks.  The hours of occupancy and of daylight are in the day, in order, and meet. -/
structure Timetable {M : Machine} (x : Sim (Mach M)) (hs he ds de us ue nw : ℕ) : Prop where
  hoursStart : Whole x.pop.hoursStart hs
  hoursEnd : Whole x.pop.hoursEnd he
  daysStart : Whole x.pop.daysStart ds
  daysEnd : Whole x.pop.daysEnd de
  lightStart : Whole x.lights.n_day_start us
  lightEnd : Whole x.lights.n_day_end ue
  weeks : Whole x.lights.n_weeks nw
  hours : hs ≤ he ∧ he ≤ 24
  days : ds ≤ de ∧ de < ds + 7 ∧ de ≤ 1000
  light : us ≤ ue ∧ ue ≤ 24
  meet : us ≤ he ∧ hs ≤ ue
  year : nw ≤ 52

/-- the quantities that the parts of the monthly balance without heating and cooling need are plain numbers -/
structure SensibleMonthly {M : Machine} (x : Sim (Mach M)) : Prop where
  floorArea : PlainNumber x.bldg.floorArea
  lightOccupied : PlainNumber x.lights.powerDensityOccupied
  lightUnoccupied : PlainNumber x.lights.powerDensityUnoccupied
  lightExterior : PlainNumber x.lights.exteriorEnergy
  dimming : PlainNumber x.lights.dimmingFraction
  sensor : PlainNumber x.building.lightingOccupancySensor
  illumination : PlainNumber x.building.constantIllumination
  plugOccupied : PlainNumber x.building.electricApplianceHeatGainOccupied
  plugUnoccupied : PlainNumber x.building.electricApplianceHeatGainUnoccupied
  gasOccupied : PlainNumber x.building.gasApplianceHeatGainOccupied
  gasUnoccupied : PlainNumber x.building.gasApplianceHeatGainUnoccupied
  supply : PlainNumber x.ventilation.supplyRate
  fanPower : PlainNumber x.ventilation.fanPower
  fanControl : PlainNumber x.ventilation.fanControlFactor

end ISO.Spec
