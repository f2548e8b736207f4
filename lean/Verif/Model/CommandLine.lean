import Verif.Model.Loading
import Verif.Model.Monthly

/-!
# The command line program: standalone_main.cpp

Reading of the command line by boost is not modelled.  The branches for `_OPENSTUDIOS` and the debug output
(`DEBUG_ISO_MODEL_SIMULATION`) are left out.
-/

namespace ISO.CommandLine
open ISO ISO.User ISO.WeatherText ISO.Epw CNum

/-! ## Printing -/

/-- `std::cout`: the text so far and the precision for numbers, which stays set until it is changed -/
structure Out where
  text : Str
  precision : Nat

/-- a new stream; the precision of a stream is 6 at first -/
def Out.start : Out := ⟨[], 6⟩

/-- `operator<<` for text -/
def Out.put (o : Out) (s : Str) : Out := { o with text := o.text ++ s }

/-- `operator<<` for `int`, of a value that is not negative -/
def Out.int (o : Out) (n : Nat) : Out := o.put (Nat.repr n).toList

/-- `operator<<` for `double`: the text depends on the number and on the precision -/
abbrev Printer (α : Type) := Nat → α → Str

/-- `operator<<` for `double` -/
def Out.double {α : Type} (print : Printer α) (o : Out) (v : α) : Out := o.put (print o.precision v)

/-- `std::setprecision` -/
def Out.setPrecision (o : Out) (n : Nat) : Out := { o with precision := n }

variable {α : Type} [CNum α] [OfInt α]

/-- standalone_main.cpp:25, 65: the column names after the first -/
def columns : Str :=
  ",ElecHeat,ElecCool,ElecIntLights,ElecExtLights,ElecFans,ElecPump,ElecEquipInt,ElecEquipExt,ElectDHW,GasHeat,GasCool,GasEquip,GasDHW".toList

/-- standalone_main.cpp:29-50: one line of the monthly table -/
def monthlyRow (print : Printer α) (o : Out) (i : Nat) (r : Hourly.EndUses α) : Out :=
  let o := o.int (i + 1)
  let o := (List.finRange 13).foldl (fun o j => (Out.setPrecision (o.put ", ".toList) 10).double print (r j)) o
  o.put ['\n']

/-- standalone_main.cpp:68-89: one line of the table of the hourly simulation -/
def hourlyRow (print : Printer α) (o : Out) (i : Nat) (r : Hourly.EndUses α) : Out :=
  let o := o.int (i + 1)
  let o := (List.finRange 13).foldl (fun o j => (o.put ", ".toList).double print (r j)) o
  o.put ['\n']

/-- standalone_main.cpp:28, 67: the loop over the results; `none` is an index past their end -/
def rows (row : Out → Nat → Hourly.EndUses α → Out) (rs : List (Hourly.EndUses α)) (n : Nat) (o : Out) : Option Out :=
  (List.range n).foldlM (fun o i => (rs[i]?).map (row o i)) o

/-- standalone_main.cpp:23-51 -/
def printMonthly (print : Printer α) (rs : List (Hourly.EndUses α)) (o : Out) : Option Out :=
  let o := o.put "Monthly Results:\n".toList
  let o := ((o.put "Month".toList).put columns).put ['\n']
  rows (monthlyRow print) rs 12 o

/-- standalone_main.cpp:59-90 -/
def printHourly (print : Printer α) (aggregateByMonth : Bool) (rs : List (Hourly.EndUses α)) (o : Out) : Option Out :=
  let monthOrHour := if aggregateByMonth then "month".toList else "hour".toList
  let numberOfResults := if aggregateByMonth then 12 else 8760
  let o := ((o.put "Hourly results by ".toList).put monthOrHour).put ":\n".toList
  let o := ((o.put monthOrHour).put columns).put ['\n']
  rows (hourlyRow print) rs numberOfResults o

/-- standalone_main.cpp:100-101 -/
def endUseNames : Fin 13 → Str :=
  ![ "ElecHeat".toList, "ElecCool".toList, "ElecIntLights".toList, "ElecExtLights".toList, "ElecFans".toList, "ElecPump".toList,
     "ElecEquipInt".toList, "ElecEquipExt".toList, "ElectDHW".toList, "GasHeat".toList, "GasCool".toList, "GasEquip".toList,
     "GasDHW".toList ]

/-- standalone_main.cpp:118-121: one line of a comparison; the month is not increased by one -/
def compareRow (print : Printer α) (markdown : Bool) (o : Out) (month : Nat) (monthlyResult hourlyResult : α) : Out :=
  let delim := if markdown then " | ".toList else ", ".toList
  let o := if markdown then o.put "| ".toList else o
  let o := (((o.int month).put delim).double print monthlyResult).put delim
  let o := ((o.double print hourlyResult).put delim).double print (monthlyResult - hourlyResult)
  let o := if markdown then o.put " |".toList else o
  o.put ['\n']

/-- standalone_main.cpp:106-113: the head of a comparison -/
def compareHead (markdown : Bool) (o : Out) (name : Str) : Out :=
  let delim := if markdown then " | ".toList else ", ".toList
  let o := if markdown then o.put "| ".toList else o
  let o := (((o.put "Month".toList).put delim).put "Monthly ".toList).put name
  let o := (((o.put delim).put "Hourly ".toList).put name).put delim
  let o := o.put "Difference".toList
  let o := if markdown then o.put " |".toList else o
  let o := o.put ['\n']
  if markdown then o.put "|---|---|---|---|\n".toList else o

/-- standalone_main.cpp:106-124: the table of one end use -/
def compareUse (print : Printer α) (markdown : Bool) (monthly hourly : List (Hourly.EndUses α)) (o : Out) (endUse : Fin 13) :
    Option Out := do
  let o := compareHead markdown o (endUseNames endUse)
  let o ← (List.range 12).foldlM (fun o month => do
    let m ← monthly[month]?
    let h ← hourly[month]?
    return compareRow print markdown o month (m endUse) (h endUse)) o
  return o.put ['\n']

/-- standalone_main.cpp:100-125 -/
def printCompare (print : Printer α) (markdown : Bool) (monthly hourly : List (Hourly.EndUses α)) (o : Out) : Option Out :=
  (List.finRange 13).foldlM (compareUse print markdown monthly hourly) o

/-! ## The simulations of a loaded user model -/

/-- Simulation.hpp:72-83, UserModel.cpp:35-47: the data of a simulation object, from the parameters and the weather averages -/
def simOf (p : Params α) (w : WeatherData α) : Sim α where
  pop := p.pop
  terrain := p.terrain
  weather := w
  lights := p.lights
  building := p.building
  bldg := p.bldg
  heating := p.heating
  cooling := p.cooling
  ventilation := p.ventilation
  phys := p.phys
  simSettings := p.simSettings

/-- all entries of the weather averages, if all have been written (an unwritten one is uninitialised memory) -/
def complete (e : Entries α) : Option (WeatherData α) :=
  if h : (∀ m s, (e.msolar m s).isSome) ∧ (∀ m i, (e.mhdbt m i).isSome) ∧ (∀ m i, (e.mhEgh m i).isSome) ∧
      (∀ m, (e.mEgh m).isSome) ∧ (∀ m, (e.mdbt m).isSome) ∧ (∀ m, (e.mwind m).isSome) then
    some { msolar := fun m s => (e.msolar m s).get (h.1 m s)
           mhdbt := fun m i => (e.mhdbt m i).get (h.2.1 m i)
           mhEgh := fun m i => (e.mhEgh m i).get (h.2.2.1 m i)
           mEgh := fun m => (e.mEgh m).get (h.2.2.2.1 m)
           mdbt := fun m => (e.mdbt m).get (h.2.2.2.2.1 m)
           mwind := fun m => (e.mwind m).get (h.2.2.2.2.2 m) }
  else none

/-- how a part of the program ends -/
inductive Step (σ : Type) where
  | ok (s : σ)
  /-- the user model is not valid, and a null pointer is dereferenced -/
  | nullPointer
  /-- undefined behaviour inside a simulation -/
  | undefined

/-- the next part of the program, or undefined behaviour -/
def Step.ofOption {σ : Type} : Option σ → Step σ
  | some s => .ok s
  | none => .undefined

/-- sequence -/
def Step.bind {σ τ : Type} (s : Step σ) (f : σ → Step τ) : Step τ :=
  match s with
  | .ok s => f s
  | .nullPointer => .nullPointer
  | .undefined => .undefined

/-- standalone_main.cpp:20-21, 97-98 -/
def monthlyResults (u : UserModel α) : Step (List (Hourly.EndUses α)) :=
  match toMonthlyModel u with
  | none => .nullPointer
  | some b => .ofOption (((monthlyWeather u b).bind complete).bind fun w => Monthly.simulate (simOf b.params w))

/-- the weather averages stand for the ones of the `Location`, which the hourly model does not read -/
def noAverages : WeatherData α := ⟨fun _ _ => 0.0, fun _ _ => 0.0, fun _ _ => 0.0, fun _ => 0.0, fun _ => 0.0, fun _ => 0.0⟩

/-- standalone_main.cpp:56-57, 94-95 -/
def hourlyResults (u : UserModel α) (aggregateByMonth : Bool) : Step (List (Hourly.EndUses α)) :=
  match toHourlyModel u with
  | none => .nullPointer
  | some b => .ofOption ((hourlyWeather u b).bind fun w =>
      (Hourly.simulate aggregateByMonth ⟨simOf b.params noAverages, w, Hourly.Pushed.empty⟩).map (·.2))

/-- standalone_main.cpp:18-52 -/
def runMonthlySimulation (print : Printer α) (u : UserModel α) (o : Out) : Step Out :=
  (monthlyResults u).bind fun rs => .ofOption (printMonthly print rs o)

/-- standalone_main.cpp:54-91 -/
def runHourlySimulation (print : Printer α) (u : UserModel α) (aggregateByMonth : Bool) (o : Out) : Step Out :=
  (hourlyResults u aggregateByMonth).bind fun rs => .ofOption (printHourly print aggregateByMonth rs o)

/-- standalone_main.cpp:93-126 -/
def compare (print : Printer α) (u : UserModel α) (markdown : Bool) (o : Out) : Step Out :=
  (hourlyResults u true).bind fun hourly => (monthlyResults u).bind fun monthly =>
    .ofOption (printCompare print markdown monthly hourly o)

/-! ## The program -/

/-- The options after parsing (standalone_main.cpp:130-161; boost's parser itself is not modelled): the value of a value
option, presence of a switch. -/
structure Options where
  ism : Str
  defaults : Option Str
  monthly : Bool
  hourlyByMonth : Bool
  hourlyByHour : Bool
  compare : Option Str

/-- what the program does after loading -/
inductive Action where
  | runMonthly
  | runHourly (aggregateByMonth : Bool)
  | compare (markdown : Bool)
  | message
  deriving DecidableEq

/-- standalone_main.cpp:201-210 -/
def compareActions (o : Options) : List Action :=
  match o.compare with
  | none => []
  | some v => if v = "md".toList then [.compare true] else if v = "csv".toList then [.compare false] else [.message]

/-- standalone_main.cpp:199-229; `ran` is `simulationRan` -/
def actions (o : Options) : List Action :=
  let ran := false
  let out := []
  let (out, ran) := if o.compare.isSome then (out ++ compareActions o, true) else (out, ran)
  let (out, ran) := if o.monthly then (out ++ [.runMonthly], true) else (out, ran)
  let (out, ran) := if o.hourlyByMonth then (out ++ [.runHourly true], true) else (out, ran)
  let (out, ran) := if o.hourlyByHour then (out ++ [.runHourly false], true) else (out, ran)
  if !ran then out ++ [.runMonthly] else out

/-- standalone_main.cpp:203, 205, 207, 212, 217, 222, 228 -/
def act (print : Printer α) (u : UserModel α) (o : Out) : Action → Step Out
  | .runMonthly => runMonthlySimulation print u o
  | .runHourly b => runHourlySimulation print u b o
  | .compare b => compare print u b o
  | .message => .ok (o.put "No output type given for compare. Please use 'md' or 'csv'.\n".toList)

/-- how the program ends -/
inductive Exit where
  /-- `main` returns after the actions `did`, having printed `text` -/
  | returns (did : List Action) (text : Str)
  /-- a null pointer is dereferenced after the actions `did`, with `text` printed so far -/
  | nullPointer (did : List Action) (text : Str)
  | exception (e : Failure)
  | undefined
  deriving DecidableEq

/-- the actions one after the other -/
def perform (print : Printer α) (u : UserModel α) : List Action → List Action → Out → Exit
  | [], did, o => .returns did o.text
  | a :: as, did, o =>
    match act print u o a with
    | .ok o => perform print u as (did ++ [a]) o
    | .nullPointer => .nullPointer did o.text
    | .undefined => .undefined

/-- standalone_main.cpp:167-176 -/
def loadFor (lib : Library α) (fs : FileSystem) (junk : Params α) (o : Options) : Result (UserModel α) :=
  match o.defaults with
  | some d => loadWithDefaults lib fs o.ism d (newUserModel junk)
  | none => load lib fs o.ism (newUserModel junk)

/-- UserModel.cpp:388-391, 507-510, 528-539: the text printed while loading, where `u` is the loaded user model -/
def loadText (fs : FileSystem) (o : Options) (u : UserModel α) : Str :=
  let notFound := fun f : Str => "ISO Model File Not Found: ".toList ++ f ++ ['\n']
  let weather := if (weatherFile fs u).2 then [] else "Weather File Not Found: ".toList ++ u.params.weatherFilePath ++ ['\n']
  if !fs.exists_ o.ism then notFound o.ism
  else
    match o.defaults with
    | some d => if !fs.exists_ d then notFound d else weather
    | none => weather

/-- standalone_main.cpp:163-231 -/
def main (lib : Library α) (print : Printer α) (fs : FileSystem) (junk : Params α) (o : Options) : Exit :=
  match loadFor lib fs junk o with
  | .ok u => perform print u (actions o) [] (Out.start.put (loadText fs o u))
  | .throw e _ => .exception e
  | .undefined => .undefined

end ISO.CommandLine
