import Verif.Spec.Output
import Verif.Model.Results
import Verif.Num.Sum

/-!
# Results under their names
-/

namespace ISO.Spec
open ISO Results

/-- the title of a fuel in the printed tables, as the code spells it -/
def fuelTitle : Fuel → Option String
  | .Electricity => some "Elec"
  | .Gas => some "Gas"
  | .other _ => none

/-- the title of a category in the printed tables -/
def categoryTitle : Fuel → Category → Option String
  | _, .Heating => some "Heat"
  | _, .Cooling => some "Cool"
  | .Electricity, .InteriorLights => some "IntLights"
  | .Electricity, .ExteriorLights => some "ExtLights"
  | .Electricity, .Fans => some "Fans"
  | .Electricity, .Pumps => some "Pump"
  | .Electricity, .InteriorEquipment => some "EquipInt"
  | .Electricity, .ExteriorEquipment => some "EquipExt"
  | .Gas, .InteriorEquipment => some "Equip"
  | .Electricity, .WaterSystems => some "tDHW"
  | .Gas, .WaterSystems => some "DHW"
  | _, _ => none

/-- the title of the column for a fuel and a category ("ElecHeat", "GasDHW"; "ElectDHW" is spelt with a t) -/
def columnTitle (f : Fuel) (c : Category) : Option Str := do
  return (← fuelTitle f).toList ++ (← categoryTitle f c).toList

/-- the value in the column with the title `t` of a line with the values `v`, 0 if there is none -/
noncomputable def valueUnder (v : Fin 13 → Dbl) (t : Option Str) : Dbl :=
  match (List.finRange 13).find? fun j => t = useNames[j.1]? with
  | some j => v j
  | none => .fin 0

/-- lists of all fuels and categories, each once, that contain those the program writes -/
structure AllNames (fuels : List Fuel) (categories : List Category) : Prop where
  fuelsOnce : fuels.Nodup
  categoriesOnce : categories.Nodup
  electricity : .Electricity ∈ fuels
  gas : .Gas ∈ fuels
  named : ∀ c ∈ [.Heating, .Cooling, .InteriorLights, .ExteriorLights, .Fans, .Pumps, .InteriorEquipment, .ExteriorEquipment,
    .WaterSystems], c ∈ categories

/-- all energy of a list of results, in kWh/m² -/
noncomputable def allEnergy (rs : List (Fin 13 → Dbl)) : Dbl := (rs.map fun r => ∑ k, r k).sum

end ISO.Spec
