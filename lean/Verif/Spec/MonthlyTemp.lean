import Verif.Spec.Monthly
import Mathlib.Analysis.SpecialFunctions.Integrals.Basic

/-! # Specification: temperatures of a building that is left to itself -/

namespace ISO.Spec
open ISO

/-- temperature `t` hours after a building at temperature `start` begins to approach `target`, with time constant `tau` -/
noncomputable def relax (tau target start t : ℝ) : ℝ := target + (start - target) * Real.exp (-t / tau)

/-- mean of a temperature over the first `T` hours -/
noncomputable def timeMean (f : ℝ → ℝ) (T : ℝ) : ℝ := (∫ t in (0:ℝ)..T, f t) / T

/-- a stretch of time with constant gains and outside temperature; `balance` is the temperature the building would reach -/
structure Stretch where
  hours : ℝ
  balance : ℝ

/-- temperature at the start of stretch `k` of a building that is never heated or cooled -/
noncomputable def freeRun (tau : ℝ) (s : ℕ → Stretch) (start : ℝ) : ℕ → ℝ
  | 0 => start
  | k + 1 => relax tau (s k).balance (freeRun tau s start k) (s k).hours

/-- mean temperature of stretch `k` with the set-point `floor`: the building starts at `first` in the first stretch and at the
freely reached temperature, but not below the set-point, in the later ones; the mean is not below the set-point either -/
noncomputable def stretchMean (tau : ℝ) (s : ℕ → Stretch) (first start floor : ℝ) (k : ℕ) : ℝ :=
  max floor (timeMean (relax tau (s k).balance (if k = 0 then first else max floor (freeRun tau s start k))) (s k).hours)

/-- the week: the occupied part at `set`, the nights at the mean of the second stretch, the weekend at the mean of all five -/
noncomputable def weekMean (set d n e : ℝ) (mean : ℕ → ℝ) : ℝ :=
  set * d + mean 1 * n + (mean 0 + mean 1 + mean 2 + mean 3 + mean 4) / 5 * e

/-- night, day, night, day, night -/
def nightAndDay (night day night' : Stretch) (k : ℕ) : Stretch := if k = 0 then night else if k % 2 = 1 then day else night'

/-- shift of both set-points by the level of energy management; digits after the point do not count -/
noncomputable def levelShift (level : ℝ) : ℝ :=
  open Classical in if 2 ≤ level ∧ level < 3 then 1 / 2 else if 3 ≤ level ∧ level < 4 then 1 else 0

/-- data for which the indoor temperatures are computed without dividing by zero -/
structure TempData (x : Sim ℝ) : Prop where
  week : WeekWindow x.pop
  someHour : 0 < windowHours x.pop
  notAllDay : windowHours x.pop < 24
  occupied : x.pop.densityOccupied ≠ 0
  unoccupied : x.pop.densityUnoccupied ≠ 0
  floorArea : x.bldg.floorArea ≠ 0
  heatLoss : (∑ i, (x.bldg.wallArea i * x.bldg.wallUniform i + x.bldg.windowArea i * x.bldg.windowUniform i))
    + x.ventilation.H_ve ≠ 0
  capacity : x.bldg.interiorHeatCapacity * x.bldg.floorArea + x.bldg.wallHeatCapacity * ∑ i, x.bldg.wallArea i ≠ 0

/-- time constant in hours: heat capacity over heat loss -/
noncomputable def buildingTau (x : Sim ℝ) : ℝ :=
  (x.bldg.interiorHeatCapacity * x.bldg.floorArea + x.bldg.wallHeatCapacity * ∑ i, x.bldg.wallArea i)
    / ((∑ i, (x.bldg.wallArea i * x.bldg.wallUniform i + x.bldg.windowArea i * x.bldg.windowUniform i)) + x.ventilation.H_ve)
    / 3600

/-- total heat loss coefficient of the building -/
noncomputable def buildingLoss (x : Sim ℝ) : ℝ :=
  (∑ i, (x.bldg.wallArea i * x.bldg.wallUniform i + x.bldg.windowArea i * x.bldg.windowUniform i)) + x.ventilation.H_ve

end ISO.Spec
