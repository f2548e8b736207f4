import Verif.Spec.Machine

/-! # Specification: the systems of a building, and better ones -/

namespace ISO.Spec
open ISO CNum

/-- the parameters of a building that only say how much energy its systems take, not how warm or bright it is -/
structure Equipment (α : Type) where
  heatingEfficiency : α
  coolingEfficiency : α
  heatingLoss : α
  coolingLoss : α
  waste : α
  fanPower : α
  heatingPump : α
  heatingPumpControl : α
  coolingPump : α
  coolingPumpControl : α
  exteriorLights : α
  exteriorEquipment : α

/-- the building with these systems -/
def withEquipment {α : Type} (x : Sim α) (s : Equipment α) : Sim α :=
  { x with
    heating := { x.heating with
      efficiency := s.heatingEfficiency
      hvacLossFactor := s.heatingLoss
      hotcoldWasteFactor := s.waste
      E_pumps := s.heatingPump
      pumpControlReduction := s.heatingPumpControl }
    cooling := { x.cooling with
      cop := s.coolingEfficiency
      hvacLossFactor := s.coolingLoss
      E_pumps := s.coolingPump
      pumpControlReduction := s.coolingPumpControl }
    ventilation := { x.ventilation with fanPower := s.fanPower }
    lights := { x.lights with exteriorEnergy := s.exteriorLights }
    building := { x.building with externalEquipment := s.exteriorEquipment } }

/-- `s'` is no worse than `s`: no lower efficiencies, no larger losses and powers.  Efficiencies and fan powers are above zero, and losses at
most a million times the need. -/
structure NoWorse {M : Machine} (s' s : Equipment (Mach M)) : Prop where
  heatingEfficiency : AtMost s.heatingEfficiency s'.heatingEfficiency
  heatingPositive : clt (0.0 : Mach M) s.heatingEfficiency = true
  coolingEfficiency : AtMost s.coolingEfficiency s'.coolingEfficiency
  coolingPositive : clt (0.0 : Mach M) s.coolingEfficiency = true
  heatingLoss : AtMost s'.heatingLoss s.heatingLoss
  heatingLossSize : AtMost s.heatingLoss (1000000.0 : Mach M)
  coolingLoss : AtMost s'.coolingLoss s.coolingLoss
  coolingLossSize : AtMost s.coolingLoss (1000000.0 : Mach M)
  waste : AtMost s'.waste s.waste
  wasteSize : AtMost s.waste (1000000.0 : Mach M)
  fanPower : AtMost s'.fanPower s.fanPower
  fanPositive : clt (0.0 : Mach M) s'.fanPower = true
  heatingPump : AtMost s'.heatingPump s.heatingPump
  heatingPumpControl : AtMost s'.heatingPumpControl s.heatingPumpControl
  coolingPump : AtMost s'.coolingPump s.coolingPump
  coolingPumpControl : AtMost s'.coolingPumpControl s.coolingPumpControl
  exteriorLights : AtMost s'.exteriorLights s.exteriorLights
  exteriorEquipment : AtMost s'.exteriorEquipment s.exteriorEquipment

/-- `a` is not more than `b`: both are NaN (which is not equal to itself), or both are numbers and `b < a` is false -/
def NoMore {M : Machine} (a b : Mach M) : Prop := ceq a a = ceq b b ∧ clt b a = false

/-- the building with other efficiencies of heating and cooling -/
def withEfficiency {α : Type} (x : Sim α) (heating cooling : α) : Sim α :=
  { x with heating := { x.heating with efficiency := heating }, cooling := { x.cooling with cop := cooling } }

/-- an efficiency: above zero and at most a million -/
structure Efficiency {M : Machine} (a : Mach M) : Prop where
  plain : PlainNumber a
  positive : clt (0.0 : Mach M) a = true
  size : AtMost a (1000000.0 : Mach M)

/-- `a` is no farther from zero than `b`, on the same side: the magnitude is not more, and if `a` is above (below) zero then so is `b` -/
structure NoFarther {M : Machine} (a b : Mach M) : Prop where
  magnitude : NoMore (cabs a) (cabs b)
  above : clt (0.0 : Mach M) a = true → clt (0.0 : Mach M) b = true
  below : clt a (0.0 : Mach M) = true → clt b (0.0 : Mach M) = true

end ISO.Spec
