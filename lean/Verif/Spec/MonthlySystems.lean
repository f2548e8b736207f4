import Verif.Model.Data
import Verif.Spec.Monthly

/-! # Specification: systems, pumps and hot water of the monthly method -/

namespace ISO.Spec
open ISO

/-- share of the heating need in the annual needs, at least a tenth -/
noncomputable def monthlyHeatShare (Qh Qc : ℝ) : ℝ := max 0.1 (Qh / (Qh + Qc))
/-- share of the cooling need, at least a tenth -/
noncomputable def monthlyCoolShare (Qh Qc : ℝ) : ℝ := max 0.1 (1 - monthlyHeatShare Qh Qc)

/-- heat lost in distribution per unit of heating need -/
noncomputable def heatLossRate (x : Sim ℝ) (Qh Qc : ℝ) : ℝ :=
  x.heating.hvacLossFactor + x.heating.hotcoldWasteFactor / monthlyHeatShare Qh Qc
/-- cold lost in distribution per unit of cooling need -/
noncomputable def coolLossRate (x : Sim ℝ) (Qh Qc : ℝ) : ℝ :=
  x.cooling.hvacLossFactor + x.heating.hotcoldWasteFactor / monthlyCoolShare Qh Qc

/-- system data in their range -/
structure SystemData (x : Sim ℝ) : Prop where
  heatLoss : 0 ≤ x.heating.hvacLossFactor
  coolLoss : 0 ≤ x.cooling.hvacLossFactor
  waste : 0 ≤ x.heating.hotcoldWasteFactor
  efficiency : 0 < x.heating.efficiency
  cop : 0 < x.cooling.cop * x.cooling.partialLoadValue
  districtHeat : 0 < x.heating.eta_DH_sys * x.heating.eta_DH_network
  districtCold : 0 < x.cooling.eta_DC_COP * x.cooling.eta_DC_network
  absorption : 0 < x.cooling.eta_DC_COP_abs

/-- energy of pumps of `E` watts per square metre that run all year, in megajoules, reduced by their control -/
noncomputable def pumpEnergy (E reduction floorArea : ℝ) : ℝ := 31.536 * E * reduction * floorArea

/-- the single precision number nearest to 3.6 (megajoules per kilowatt hour) -/
noncomputable def singleMJ : ℝ := 15099494 / 4194304

/-- air, in cubic metres, that carries heat `q` (MJ) at a temperature difference `dT`; the smallest normal double keeps the
denominator away from zero -/
noncomputable def airVolume (x : Sim ℝ) (q dT : ℝ) : ℝ := q / (dT * x.phys.rhoCpAir + dblMin)

end ISO.Spec
