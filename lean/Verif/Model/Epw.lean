import Verif.Num.Dbl
import Verif.Model.Properties
import Verif.Model.TimeFrame

/-!
# Weather data: EpwData.cpp

`atof` is a parameter (library function).  A column is a list; it has 0 entries before the first load
and 8760 afterwards (`resize(8760)` fills with 0).
-/

namespace ISO.Epw
open ISO CNum
variable {α : Type} [CNum α]

/-- EpwData.hpp:49-52.  Latitude, longitude and time zone are uninitialised before the first load
(`none`).  The time zone is `none` also after an out-of-range cast (undefined behaviour). -/
structure EpwData (α : Type) where
  location : Str
  stationid : Str
  timezone : Option Int
  latitude : Option α
  longitude : Option α
  data : Fin 7 → List α

/-- EpwData.cpp:6-9: seven empty columns -/
def construct : EpwData α where
  location := []
  stationid := []
  timezone := none
  latitude := none
  longitude := none
  data := fun _ => []

/-- `std::vector<double>::resize(8760)` -/
def resize (col : List α) : List α :=
  col.take TIMESLICES ++ List.replicate (TIMESLICES - col.length) (0.0 : α)

/-- The string `s` after each of `n` calls `std::getline(linestream, s, ',')`, given the unread rest
of the stream.  `rest = none` is a stream at its end (end of file reached): the call fails and leaves `s`
as it was. -/
def getlineCommas : Nat → Str → Option Str → List Str
  | 0, _, _ => []
  | n + 1, s, none => s :: getlineCommas n s none
  | n + 1, _, some t =>
    match t.dropWhile (· ≠ ',') with
    | [] => t :: getlineCommas n t none
    | _ :: rest => t.takeWhile (· ≠ ',') :: getlineCommas n (t.takeWhile (· ≠ ',')) (some rest)

/-- The values of `s` after the `n` calls for a line.  On an empty line the first call already finds the
end of the stream and leaves `s` empty. (A line such as "a," has an empty unread rest after the first
call; the second call then extracts nothing and leaves `s` empty, since `getline` clears it first.) -/
def fields (n : Nat) (line : Str) : List Str := getlineCommas n [] (some line)

/-- EpwData.cpp:15-47: ten `getline` calls; fields 1, 5, 6, 7, 8 are used. -/
def parseHeader (atof : Str → α) (line : Str) (e : EpwData α) : EpwData α :=
  let f := fun i => (fields 10 line).getD i []
  { e with
    location := f 1
    stationid := f 5
    latitude := some (atof (f 6))
    longitude := some (atof (f 7))
    timezone := cint (atof (f 8)) }

/-- the field numbers read by `parseData`, in column order (EpwData.cpp:56-63) -/
def dataFields : Fin 7 → Nat
  | 0 => 6
  | 1 => 7
  | 2 => 8
  | 3 => 13
  | 4 => 14
  | 5 => 15
  | 6 => 21

/-- EpwData.cpp:48-69: 22 `getline` calls; seven fields are stored in row `row`. -/
def parseData (atof : Str → α) (line : Str) (row : Nat) (e : EpwData α) : EpwData α :=
  { e with data := fun c => (e.data c).set row (atof ((fields 22 line).getD (dataFields c) [])) }

/-- What is left in a file stream: the characters, and whether `eof` was hit (`good()` is false). -/
structure Stream where
  rest : Str
  eof : Bool

/-- `getline(myfile, line)` on a good stream: the text up to the next newline; `eof` when there is no
newline.  (An empty rest gives an empty line and `eof`.) -/
def Stream.getline (s : Stream) : Str × Stream :=
  match s.rest.dropWhile (· ≠ '\n') with
  | [] => (s.rest, ⟨[], true⟩)
  | _ :: rest => (s.rest.takeWhile (· ≠ '\n'), ⟨rest, false⟩)

/-- EpwData.cpp:146-154: the reading loop.  `i` and `row` as in the code.  Terminates because every
turn consumes input or hits the end; `fuel` bounds the number of turns and is always large enough in
`loadFile` (theorem `readLoop_fuel`). -/
def readLoop (atof : Str → α) : Nat → Stream → Nat → Nat → EpwData α → EpwData α
  | 0, _, _, _, e => e
  | fuel + 1, s, i, row, e =>
    if !s.eof && decide (row < TIMESLICES) then
      let (line, s') := s.getline
      if i + 1 = 1 then readLoop atof fuel s' (i + 1) row (parseHeader atof line e)
      else if 8 < i + 1 then readLoop atof fuel s' (i + 1) (row + 1) (parseData atof line row e)
      else readLoop atof fuel s' (i + 1) row e
    else e

/-- EpwData.cpp:135-157; `none` is a file that cannot be opened. -/
def loadFile (atof : Str → α) (file : Option Str) (e : EpwData α) : EpwData α :=
  let e := { e with data := fun c => resize (e.data c) }
  match file with
  | none => e
  | some text => readLoop atof (text.length + 2) ⟨text, false⟩ 0 0 e

/-- EpwData.cpp:117-133.  `data` is the memory the pointer refers to.  `none` is undefined behaviour:
a read past the end of `data` or a write past the end of a column. A negative `block_size` copies
nothing. -/
def loadBlock (blockSize : Int) (data : List α) (e : EpwData α) : Option (EpwData α) :=
  let n := blockSize.toNat
  if data.length < 3 + 7 * n ∨ TIMESLICES < n then none
  else
    match data with
    | lat :: lon :: tz :: cols =>
      some { e with
        latitude := some lat
        longitude := some lon
        timezone := cint tz
        data := fun c => ((cols.drop (c.1 * n)).take n) ++ (resize (e.data c)).drop n }
    | _ => none

/-- The data as the simulations use it: site and seven full columns. -/
structure Weather (α : Type) where
  latitude : α
  longitude : α
  timezone : Int
  data : Fin 7 → Fin 8760 → α

/-- apply a function to every number (no counterpart in the code) -/
def Weather.map {β : Type} (f : α → β) (w : Weather α) : Weather β where
  latitude := f w.latitude
  longitude := f w.longitude
  timezone := w.timezone
  data := fun c i => f (w.data c i)

/-- Column numbers (EpwData.hpp:35-41). -/
def DBT : Fin 7 := 0
def DPT : Fin 7 := 1
def RH : Fin 7 := 2
def EGH : Fin 7 := 3
def EB : Fin 7 := 4
def ED : Fin 7 := 5
def WSPD : Fin 7 := 6

/-- The getters of EpwData.hpp:70-88 as used by SolarRadiation.cpp:40-42, 64-66 and HourlyModel.cpp:42-43:
`none` is undefined behaviour (uninitialised site, or columns shorter than 8760). -/
def toWeather (e : EpwData α) : Option (Weather α) :=
  match e.latitude, e.longitude, e.timezone with
  | some lat, some lon, some tz =>
    if h : ∀ c, (e.data c).length = 8760 then
      some { latitude := lat, longitude := lon, timezone := tz,
             data := fun c i => (e.data c)[i.1]'(by rw [h c]; exact i.2) }
    else none
  | _, _, _ => none

end ISO.Epw
