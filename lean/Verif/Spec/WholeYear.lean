import Verif.Spec.HeatBalance
import Verif.Spec.SunProtection
import Verif.Spec.MonthlyRetrofit
import Verif.Model.HourlyRun
import Verif.Num.Dbl

/-!
# Specification: comparing two simulated years of the hourly model
-/

namespace ISO.Spec
open ISO ISO.Epw

/-- Air comes in at a rate that does not depend on the temperature indoors: the fans supply what they extract (or there are none), and
in every hour the wind drives more air through the envelope than the difference of temperatures would, whatever the temperature
between `low` and `high`; and the thermostat keeps the building between these. -/
structure WindDriven (x : Sim ℝ) (w : Weather ℝ) (low high : ℝ) : Prop where
  fans : x.ventilation.fanControlFactor = 1 ∨ x.ventilation.supplyRate = 0
  wind : ∀ (i : Fin 8760) (t : ℝ), low ≤ t → t ≤ high → stackFlow x (w.data DBT i) t ≤ windFlow x (w.data WSPD i)
  /-- the building starts at 20 degrees -/
  startLow : low ≤ 20
  startHigh : 20 ≤ high
  heatOccupied : low ≤ x.heating.temperatureSetPointOccupied
  heatUnoccupied : low ≤ x.heating.temperatureSetPointUnoccupied
  coolOccupied : x.cooling.temperatureSetPointOccupied ≤ high
  coolUnoccupied : x.cooling.temperatureSetPointUnoccupied ≤ high

/-- the mass stores more than it exchanges in half an hour -/
def HeavyEnough (x : Sim ℝ) : Prop :=
  (massCoefficient x * massArea x + 1 / (1 / wallConductance x - 1 / (massCoefficient x * massArea x))) / 2 ≤ heatCapacity x / 3.6

/-- the results of a year are the numbers `heat i` for the energy for heating (electricity or gas) and `cool i` for the
energy for cooling in hour `i` -/
def Course (r : List (Hourly.EndUses Dbl)) (heat cool : Fin 8760 → ℝ) : Prop :=
  ∀ i : Fin 8760, ∃ h : i.1 < r.length, r[i.1] 0 + r[i.1] 9 = .fin (heat i) ∧ r[i.1] 1 = .fin (cool i)

/-- efficiencies are positive, losses are not negative, and there is no waste by heating and cooling at the same time -/
structure PlainSystems (x : Sim ℝ) : Prop where
  efficiency : 0 < x.heating.efficiency
  cop : 0 < x.cooling.cop
  lossHeating : 0 ≤ x.heating.hvacLossFactor
  lossCooling : 0 ≤ x.cooling.hvacLossFactor
  waste : x.heating.hotcoldWasteFactor = 0

/-- the building `x` with the electric appliances of `y` -/
def takeAppliances {α : Type} (x y : Sim α) : Sim α :=
  { x with building := { x.building with
      electricApplianceHeatGainOccupied := y.building.electricApplianceHeatGainOccupied
      electricApplianceHeatGainUnoccupied := y.building.electricApplianceHeatGainUnoccupied } }

end ISO.Spec
