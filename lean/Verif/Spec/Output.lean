import Verif.Model.CommandLine

/-!
# What a reader of the printed tables sees

Lines end with a newline; a line is split at a separator and blanks around the cells are dropped.
-/

namespace ISO.Spec
open ISO ISO.CommandLine

/-- without blanks at both ends -/
def trim (s : Str) : Str := ((s.dropWhile (· = ' ')).reverse.dropWhile (· = ' ')).reverse

/-- the cells of a line -/
def cells (sep : Char) (line : Str) : List Str := (line.splitOn sep).map trim

/-- the cells of all lines that end with a newline -/
def readTable (sep : Char) (text : Str) : List (List Str) := (text.splitOn '\n').dropLast.map (cells sep)

/-- the end uses in the order of the columns -/
def useNames : List Str :=
  ["ElecHeat".toList, "ElecCool".toList, "ElecIntLights".toList, "ElecExtLights".toList, "ElecFans".toList, "ElecPump".toList,
   "ElecEquipInt".toList, "ElecEquipExt".toList, "ElectDHW".toList, "GasHeat".toList, "GasCool".toList, "GasEquip".toList,
   "GasDHW".toList]

/-- a number is printed without newline, comma, bar and blank -/
def Plain {α : Type} (print : Printer α) : Prop := ∀ p v, ∀ c ∈ print p v, c ≠ '\n' ∧ c ≠ ',' ∧ c ≠ '|' ∧ c ≠ ' '

/-- the table of a simulation: title, names, and one line for each result: its number from one and its thirteen values -/
def resultTable {α : Type} (show_ : α → Str) (title first : Str) (rs : List (Fin 13 → α)) : List (List Str) :=
  [title] :: (first :: useNames) ::
    rs.zipIdx.map fun r => (Nat.repr (r.2 + 1)).toList :: List.ofFn fun k => show_ (r.1 k)

/-- the comparison of one end use: names, a line of dashes in markdown, one line for each month, counted from zero, with
the two results and their difference, and an empty line -/
def compareTable {α : Type} [Sub α] (show_ : α → Str) (markdown : Bool) (name : Str) (monthly hourly : List α) : List (List Str) :=
  let frame := fun l : List Str => if markdown then [[]] ++ l ++ [[]] else l
  [frame ["Month".toList, "Monthly ".toList ++ name, "Hourly ".toList ++ name, "Difference".toList]] ++
    (if markdown then [frame ["---".toList, "---".toList, "---".toList, "---".toList]] else []) ++
    ((monthly.zip hourly).zipIdx.map fun r =>
      frame [(Nat.repr r.2).toList, show_ r.1.1, show_ r.1.2, show_ (r.1.1 - r.1.2)]) ++
    [[[]]]

end ISO.Spec
