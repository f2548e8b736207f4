import Verif.Spec.Physical
import Verif.Num.Dbl

/-!
# Specification: systems of the hourly model, and delivered energy
-/

namespace ISO.Spec
open ISO

/-- Sensible systems: the air supplied by the heating system is not colder, the air supplied by the cooling system
not warmer than any temperature the thermostat allows; efficiencies are not zero, losses not negative. -/
structure Systems (x : Sim ℝ) : Prop where
  rhoCp : 0.000001 ≤ x.phys.rhoCpAir
  heatOccupied : x.cooling.temperatureSetPointOccupied ≤ x.heating.temperatureSetPointOccupied + x.heating.dT_supp_ht
  heatUnoccupied : x.cooling.temperatureSetPointUnoccupied ≤ x.heating.temperatureSetPointOccupied + x.heating.dT_supp_ht
  coolOccupied : x.cooling.temperatureSetPointOccupied - x.cooling.dT_supp_cl ≤ x.heating.temperatureSetPointOccupied
  coolUnoccupied : x.cooling.temperatureSetPointOccupied - x.cooling.dT_supp_cl ≤ x.heating.temperatureSetPointUnoccupied
  /-- the building starts at 20 degrees -/
  heatStart : 20 ≤ x.heating.temperatureSetPointOccupied + x.heating.dT_supp_ht
  coolStart : x.cooling.temperatureSetPointOccupied - x.cooling.dT_supp_cl ≤ 20 ∨
    20.000001 ≤ x.cooling.temperatureSetPointOccupied - x.cooling.dT_supp_cl
  efficiency : x.heating.efficiency ≠ 0
  cop : x.cooling.cop ≠ 0
  lossHeating : 0 ≤ x.heating.hvacLossFactor
  lossCooling : 0 ≤ x.cooling.hvacLossFactor
  waste : 0 ≤ x.heating.hotcoldWasteFactor

/-- share of heating in the annual demand, at least .1 -/
noncomputable def heatShare (heat cool : ℝ) : ℝ := max (heat / (cool + heat)) 0.1

/-- share of cooling in the annual demand, at least .1 -/
noncomputable def coolShare (heat cool : ℝ) : ℝ := max (1 - heatShare heat cool) 0.1

/-- energy delivered for a need: plus distribution losses, plus waste by simultaneous heating and cooling, divided by
the efficiency of the generator -/
noncomputable def delivered (loss waste share efficiency need : ℝ) : ℝ := need * (1 + loss + waste / share) / efficiency

end ISO.Spec
