import Verif.Model.Solar

/-!
# The weather averages as text: EpwData::toISOData, stringSplit, UserModel::initializeSolar

`fmt` is `operator<<(ostream&, double)` and `atof` the library function; both are parameters.
-/

namespace ISO.WeatherText
open ISO ISO.Solar CNum

/-- UserModel.cpp:75-95.  `cur` is the part of the source from `prev` up to the current position. -/
def splitGo (d : Char) (keepEmpty : Bool) : Str → Str → List Str
  | cur, [] => if cur.isEmpty then [] else [cur]
  | cur, c :: t =>
    if c = d then (if keepEmpty || !cur.isEmpty then [cur] else []) ++ splitGo d keepEmpty [] t
    else splitGo d keepEmpty (cur ++ [c]) t

/-- UserModel.cpp:75-95 -/
def stringSplit (source : Str) (d : Char) (keepEmpty : Bool) : List Str := splitGo d keepEmpty [] source

/-- The lines that `while (inputFile.good()) getline(inputFile, line)` sees (UserModel.cpp:453-454): also an
empty line after a final newline.  `cur` is the part of the current line already read. -/
def linesGo : Str → Str → List Str
  | cur, [] => [cur]
  | cur, c :: t => if c = '\n' then cur :: linesGo [] t else linesGo (cur ++ [c]) t

section text
variable {α : Type}

/-- `sstream << i` for an `int` -/
def showInt (i : Nat) : Str := (toString i).toList

/-- EpwData.cpp:78-80: a line of a section with one value per month -/
def valueLine (fmt : α → Str) (v : MonthBins α → α) (bins : Fin 12 → MonthBins α) (i : Fin 12) : Str :=
  showInt i.1 ++ ',' :: fmt (v (bins i))

/-- EpwData.cpp:90-96: a line of a section with several values per month -/
def rowLine {n : Nat} (fmt : α → Str) (v : MonthBins α → Fin n → α) (bins : Fin 12 → MonthBins α) (i : Fin 12) : Str :=
  showInt i.1 ++ (List.ofFn fun c => ',' :: fmt (v (bins i) c)).flatten

/-- EpwData.cpp:77-113 -/
def isoLines (fmt : α → Str) (bins : Fin 12 → MonthBins α) : List Str :=
  ["mdbt".toList] ++ List.ofFn (valueLine fmt (·.dryBulb) bins)
  ++ ["mwind".toList] ++ List.ofFn (valueLine fmt (·.windspeed) bins)
  ++ ["mEgh".toList] ++ List.ofFn (valueLine fmt (·.globalHorizontal) bins)
  ++ ["hdbt".toList] ++ List.ofFn (rowLine fmt (·.hourlyDryBulb) bins)
  ++ ["hEgh".toList] ++ List.ofFn (rowLine fmt (·.hourlyGlobalHorizontal) bins)
  ++ ["solar".toList] ++ List.ofFn (rowLine fmt (·.solar) bins)

end text

variable {α : Type} [CNum α] [OfInt α]

/-- EpwData.cpp:70-115.  `none`: an index out of range (bins shorter than 12; excluded by theorem C17_means). -/
def toISOData (fmt : α → Str) (w : Epw.Weather α) : Option Str := do
  let bins ← calculate w newBins
  if h : 12 ≤ bins.length then
    some ((isoLines fmt fun i => bins[i.1]'(by have := i.2; omega)).map (· ++ ['\n'])).flatten
  else none

/-- The local matrices and vectors of `initializeSolar` (UserModel.cpp:441-446); `none` is an element not yet
written (ublas leaves it uninitialised). -/
structure Entries (α : Type) where
  msolar : Fin 12 → Fin 8 → Option α
  mhdbt : Fin 12 → Fin 24 → Option α
  mhEgh : Fin 12 → Fin 24 → Option α
  mEgh : Fin 12 → Option α
  mdbt : Fin 12 → Option α
  mwind : Fin 12 → Option α

/-- UserModel.cpp:441-446 -/
def Entries.unset : Entries α :=
  ⟨fun _ _ => none, fun _ _ => none, fun _ _ => none, fun _ => none, fun _ => none, fun _ => none⟩

/-- UserModel.cpp:336-352 -/
def weatherState (header : Str) : Int :=
  if header = "solar".toList then 1
  else if header = "hdbt".toList then 2
  else if header = "hEgh".toList then 3
  else if header = "mEgh".toList then 4
  else if header = "mdbt".toList then 5
  else if header = "mwind".toList then 6
  else -1

/-- UserModel.cpp:467-469 and alike: columns 1.. of the split line go to row `row` -/
def putRow {n : Nat} (atof : Str → α) (row : Nat) (ls : List Str) (m : Fin 12 → Fin n → Option α) : Fin 12 → Fin n → Option α :=
  fun r c => if r.1 = row then (match ls[c.1 + 1]? with | some s => some (atof s) | none => m r c) else m r c

/-- UserModel.cpp:482 and alike -/
def putValue (atof : Str → α) (row : Nat) (ls : List Str) (m : Fin 12 → Option α) : Fin 12 → Option α :=
  fun r => if r.1 = row then some (atof (ls.getD 1 [])) else m r

/-- UserModel.cpp:465-493: the `switch` -/
def put (atof : Str → α) (state : Int) (row : Nat) (ls : List Str) (e : Entries α) : Entries α :=
  if state = 1 then { e with msolar := putRow atof row ls e.msolar }
  else if state = 2 then { e with mhdbt := putRow atof row ls e.mhdbt }
  else if state = 3 then { e with mhEgh := putRow atof row ls e.mhEgh }
  else if state = 4 then { e with mEgh := putValue atof row ls e.mEgh }
  else if state = 5 then { e with mdbt := putValue atof row ls e.mdbt }
  else if state = 6 then { e with mwind := putValue atof row ls e.mwind }
  else e

/-- The variables of the loop in `initializeSolar`. -/
structure Reader (α : Type) where
  state : Int
  row : Nat
  entries : Entries α

/-- UserModel.cpp:455-493: the loop body for one line -/
def readLine (atof : Str → α) (r : Reader α) (line : Str) : Reader α :=
  if line.head? = some '#' then r
  else
    let ls := stringSplit line ',' true
    if ls.length = 0 then r
    else if ls.length = 1 then { r with state := weatherState (ls.getD 0 []), row := 0 }
    else if r.row < 12 then { r with row := r.row + 1, entries := put atof r.state r.row ls r.entries }
    else r

/-- UserModel.cpp:437-501: what is stored in the weather data object, from the text -/
def initializeSolar (atof : Str → α) (text : Str) : Entries α :=
  ((linesGo [] text).foldl (readLine atof) ⟨0, 0, Entries.unset⟩).entries

end ISO.WeatherText
