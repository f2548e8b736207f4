import Verif.Model.HourlyRun

/-!
# The objects that hold the results

`EndUses` of the standalone program (a vector of 20 numbers), `EndUses` of OpenStudio (values under a fuel and a category) as the
code under `#else` of `ISOMODEL_STANDALONE` uses it, and `totalEnergyUse`.
-/

namespace ISO.Results
open ISO CNum

variable {α : Type} [CNum α]

/-! ## EndUses.hpp -/

/-- EndUses.hpp:13: a new object holds 20 zeros -/
def newSlots : List α := List.replicate 20 0.0

/-- EndUses.hpp:15-17; `none` is the undefined behaviour of an index out of range -/
def addEndUse (use : Int) (value : α) (data : List α) : Option (List α) :=
  if 0 ≤ use ∧ use < data.length then some (data.set use.toNat value) else none

/-- EndUses.hpp:18-20; `none` is the undefined behaviour of an index out of range -/
def getEndUse (use : Int) (data : List α) : Option α :=
  if 0 ≤ use then data[use.toNat]? else none

/-- `addEndUse(euse++, value)` (HourlyModel.cpp:155-167, MonthlyModel.cpp:1770-1782) -/
def addNext (s : Int × List α) (value : α) : Option (Int × List α) := do
  return (s.1 + 1, ← addEndUse s.1 value s.2)

/-- HourlyModel.cpp:152-167, MonthlyModel.cpp:1765-1782: one result; `v` are the thirteen values in the order of the calls -/
def fill (v : Hourly.EndUses α) : Option (List α) := do
  let s ← [v 0, v 1, v 2, v 3, v 4, v 5, v 6, v 7, v 8, v 9, v 10, v 11, v 12].foldlM addNext ((0 : Int), newSlots)
  return s.2

/-! ## With OpenStudio

The class `EndUses` of OpenStudio is not in this repository.  Simplification: it is a list of values, each with its fuel and its
category; `getEndUse` adds up the values of a fuel and a category. -/

/-- `EndUseFuelType` of OpenStudio: the fuels the code names, and the others -/
inductive Fuel where
  | Electricity | Gas | other (n : Nat)
  deriving DecidableEq

/-- `EndUseCategoryType` of OpenStudio: the categories the code names, and the others -/
inductive Category where
  | Heating | Cooling | InteriorLights | ExteriorLights | Fans | Pumps | InteriorEquipment | ExteriorEquipment | WaterSystems
  | other (n : Nat)
  deriving DecidableEq

/-- an `EndUses` object of OpenStudio -/
abbrev Labelled (α : Type) := List (α × Fuel × Category)

/-- `addEndUse(value, fuelType, category)` of OpenStudio -/
def Labelled.add (value : α) (f : Fuel) (c : Category) (r : Labelled α) : Labelled α := r ++ [(value, f, c)]

/-- `getEndUse(fuelType, category)` of OpenStudio -/
def Labelled.get (f : Fuel) (c : Category) (r : Labelled α) : α := csum ((r.filter fun e => e.2 = (f, c)).map Prod.fst)

/-- HourlyModel.cpp:169-182, MonthlyModel.cpp:1784-1797: one result; `v` are the thirteen values of the standalone branch -/
def label (v : Hourly.EndUses α) : Labelled α :=
  let r : Labelled α := []
  let r := r.add (v 0) .Electricity .Heating
  let r := r.add (v 1) .Electricity .Cooling
  let r := r.add (v 2) .Electricity .InteriorLights
  let r := r.add (v 3) .Electricity .ExteriorLights
  let r := r.add (v 4) .Electricity .Fans
  let r := r.add (v 5) .Electricity .Pumps
  let r := r.add (v 6) .Electricity .InteriorEquipment
  let r := r.add (v 7) .Electricity .ExteriorEquipment
  let r := r.add (v 8) .Electricity .WaterSystems
  let r := r.add (v 9) .Gas .Heating
  let r := r.add (v 10) .Gas .Cooling
  let r := r.add (v 11) .Gas .InteriorEquipment
  r.add (v 12) .Gas .WaterSystems

/-- standalone_main.cpp:31-44 and 70-83: the values of one line in the order they are printed with OpenStudio -/
def printedLabelled (r : Labelled α) : List α :=
  [r.get .Electricity .Heating, r.get .Electricity .Cooling, r.get .Electricity .InteriorLights,
   r.get .Electricity .ExteriorLights, r.get .Electricity .Fans, r.get .Electricity .Pumps,
   r.get .Electricity .InteriorEquipment, r.get .Electricity .ExteriorEquipment, r.get .Electricity .WaterSystems,
   r.get .Gas .Heating, r.get .Gas .Cooling, r.get .Gas .InteriorEquipment, r.get .Gas .WaterSystems]

/-- standalone_main.cpp:46-48 and 85-87: the values of one line in the standalone program; `none` is undefined behaviour -/
def printedSlots (data : List α) : Option (List α) := (List.range 13).mapM fun j : Nat => getEndUse (j : Int) data

/-- ISOResults.cpp:26-40; `fuelTypes` and `categories` are the lists OpenStudio gives -/
def totalEnergyUse (fuelTypes : List Fuel) (categories : List Category) (results : List (Labelled α)) : α :=
  results.foldl (fun total result =>
    fuelTypes.foldl (fun total f =>
      categories.foldl (fun total c => total + result.get f c) total) total) 0.0

end ISO.Results
