import Verif.Model.Parameters
import Verif.Model.WeatherText

/-!
# Loading a UserModel: files, weather, cache, and the models built from it

`WeatherData` objects live on a heap and are named by their position in it, because `shared_ptr`s to them are copied
into the cache, into `Location` and into the models built from the user model.  There is one `EpwData` object per user
model; every model built from it shares it.
-/

namespace ISO.User
open ISO ISO.Epw ISO.WeatherText CNum

/-- library functions that read and print numbers -/
structure Library (α : Type) where
  stod : Str → Except Properties.ConvError α
  atof : Str → α
  fmt : α → Str

/-- the file system during one call; a path may exist and not be readable as a file -/
structure FileSystem where
  exists_ : Str → Bool
  read : Str → Option Str

/-- the exceptions of a load -/
inductive Failure where
  | properties (e : Properties.Error)
  | parameter (e : LoadError)
  deriving DecidableEq

/-- how a call ends: it returns, it throws, or it has undefined behaviour -/
inductive Result (σ : Type) where
  | ok (s : σ)
  | throw (e : Failure) (s : σ)
  | undefined

/-- UserModel.hpp:2265-2285.  `heap` holds the `WeatherData` objects, `weather` is `_weather`, `location` the pointer in
`location.m_weather` (null in a new object), `valid` is `none` while uninitialised. -/
structure UserModel (α : Type) where
  params : Params α
  heap : List (Entries α)
  weather : Nat
  cache : List ((α × α) × Nat)
  edata : EpwData α
  location : Option Nat
  valid : Option Bool
  dataFile : Str

section paths

/-- UserModel.cpp:361, 374 -/
def slash (c : Char) : Char := if c = '\\' then '/' else c

/-- UserModel.cpp:355-365: position of the last separator, 0 if there is none -/
def lastSeparator : Str → Nat → Nat → Nat
  | [], _, last => last
  | c :: t, i, last => lastSeparator t (i + 1) (if c = '/' then i else last)

/-- UserModel.cpp:353-377 -/
def resolveFilename (base rel : Str) : Str :=
  let result := base.map slash
  let result := result.take (lastSeparator result 0 0 + 1)
  let rel := if rel.head? = some '/' ∨ rel.head? = some '\\' then rel.tail else rel
  result ++ rel.map slash

end paths

variable {α : Type} [CNum α] [OfInt α]

/-- UserModel.cpp:25-28; `junk` stands for the uninitialised members -/
def newUserModel (junk : Params α) : UserModel α where
  params := newObject junk
  heap := [Entries.unset]
  weather := 0
  cache := []
  edata := construct
  location := none
  valid := none
  dataFile := []

/-- UserModel.cpp:437-501: fills the object `_weather` points to.  `none` is undefined behaviour: weather data not set. -/
def fillWeather (lib : Library α) (u : UserModel α) : Option (UserModel α) := do
  let w ← toWeather u.edata
  let text ← toISOData lib.fmt w
  some { u with heap := u.heap.set u.weather (initializeSolar lib.atof text) }

/-- UserModel.cpp:381-392: the file that is read, and whether it was found -/
def weatherFile (fs : FileSystem) (u : UserModel α) : Str × Bool :=
  if fs.exists_ u.params.weatherFilePath then (u.params.weatherFilePath, true)
  else
    let f := resolveFilename u.dataFile u.params.weatherFilePath
    (f, fs.exists_ f)

/-- UserModel.cpp:379-397 -/
def loadWeather (lib : Library α) (fs : FileSystem) (u : UserModel α) : Result (UserModel α) :=
  let (f, found) := weatherFile fs u
  let u := if found then u else { u with valid := some false }
  let u := { u with edata := loadFile lib.atof (fs.read f) u.edata }
  match fillWeather lib u with
  | none => .undefined
  | some u => .ok { u with location := some u.weather }

/-- UserModel.cpp:399-403 -/
def loadAndSetWeather (lib : Library α) (fs : FileSystem) (u : UserModel α) : Result (UserModel α) :=
  match loadWeather lib fs u with
  | .ok u => .ok { u with valid := some true }
  | r => r

/-- UserModel.cpp:405-411 -/
def latLonLess (a b : α × α) : Bool :=
  bif clt a.1 b.1 then true
  else bif clt b.1 a.1 then false
  else clt a.2 b.2

/-- `std::map::find`: the entry equivalent to the key -/
def cacheFind (k : α × α) : List ((α × α) × Nat) → Option Nat
  | [] => none
  | (k', p) :: t => if !latLonLess k k' && !latLonLess k' k then some p else cacheFind k t

/-- is a coordinate a number?  (The order is not a strict weak order on NaN, which `std::map` requires.) -/
def comparable (k : α × α) : Bool := ceq k.1 k.1 && ceq k.2 k.2

/-- UserModel.cpp:413-435.  Undefined: reads past the data, coordinates that are NaN. The new object is at the end of the
heap. -/
def loadWeatherBlock (lib : Library α) (blockSize : Int) (data : List α) (u : UserModel α) : Result (UserModel α) :=
  match data with
  | lat :: lon :: _ =>
    if !comparable (lat, lon) then .undefined
    else
      match cacheFind (lat, lon) u.cache with
      | some p => .ok { u with weather := p, location := some p, valid := some true }
      | none =>
        let p := u.heap.length
        match loadBlock blockSize data u.edata with
        | none => .undefined
        | some e =>
          match fillWeather lib { u with heap := u.heap ++ [Entries.unset], weather := p,
                                         cache := ((lat, lon), p) :: u.cache, edata := e } with
          | none => .undefined
          | some u => .ok { u with location := some p, valid := some true }
  | _ => .undefined

/-- UserModel.cpp:322-334: the parameters of the file(s) -/
def loadBuilding (lib : Library α) (props : Except Properties.Error Properties.Store) (u : UserModel α) : Result (UserModel α) :=
  match props with
  | .error e => .throw (.properties e) u
  | .ok props =>
    match loadParameters lib.stod props u.params with
    | .ok p => .ok { u with params := p }
    | .throw e p => .throw (.parameter e) { u with params := p }
    | .undefined => .undefined

/-- UserModel.cpp:503-520 -/
def load (lib : Library α) (fs : FileSystem) (buildingFile : Str) (u : UserModel α) : Result (UserModel α) :=
  let u := { u with dataFile := buildingFile, valid := some true }
  if !fs.exists_ buildingFile then .ok { u with valid := some false }
  else
    match loadBuilding lib (Properties.ofFile (fs.read buildingFile)) u with
    | .ok u => loadWeather lib fs u
    | r => r

/-- UserModel.cpp:522-553 -/
def loadWithDefaults (lib : Library α) (fs : FileSystem) (buildingFile defaultsFile : Str) (u : UserModel α) :
    Result (UserModel α) :=
  let u := { u with dataFile := buildingFile, valid := some true }
  if !fs.exists_ buildingFile then .ok { u with valid := some false }
  else if !fs.exists_ defaultsFile then .ok { u with valid := some false }
  else
    match loadBuilding lib (Properties.ofFiles (fs.read buildingFile) (fs.read defaultsFile)) u with
    | .ok u => loadWeather lib fs u
    | r => r

/-- A model built by `toHourlyModel` / `toMonthlyModel`: copies of the parameters and of the pointer to the weather
averages; the hourly weather is the user model's (shared pointer). -/
structure Built (α : Type) where
  params : Params α
  location : Option Nat

/-- UserModel.cpp:35-58: dereferences a null pointer unless valid -/
def toHourlyModel (u : UserModel α) : Option (Built α) :=
  match u.valid with
  | some true => some ⟨u.params, u.location⟩
  | _ => none

/-- UserModel.cpp:35-47, 60-73 -/
def toMonthlyModel (u : UserModel α) : Option (Built α) :=
  match u.valid with
  | some true => some ⟨u.params, u.location⟩
  | _ => none

/-- the weather a built hourly model reads when it is simulated while the user model is in state `u`
(HourlyModel.cpp:42-51 reads the shared `epwData`) -/
def hourlyWeather (u : UserModel α) (_ : Built α) : Option (Weather α) := toWeather u.edata

/-- the weather averages a built monthly model reads (MonthlyModel.cpp:355-356, 612-614, 1077-1110, 1191-1216 read `location.weather()`) -/
def monthlyWeather (u : UserModel α) (b : Built α) : Option (Entries α) := b.location.bind (u.heap[·]?)

/-- the public operations that change a user model; `set` is any of the setters of UserModel.hpp -/
inductive Op (α : Type) where
  | load (buildingFile : Str)
  | loadWithDefaults (buildingFile defaultsFile : Str)
  | loadWeather
  | loadAndSetWeather
  | loadWeatherBlock (blockSize : Int) (data : List α)
  | set (f : Params α → Params α)
  | setValid (b : Bool)

/-- one operation -/
def step (lib : Library α) (fs : FileSystem) (op : Op α) (u : UserModel α) : Result (UserModel α) :=
  match op with
  | .load f => load lib fs f u
  | .loadWithDefaults f d => loadWithDefaults lib fs f d u
  | .loadWeather => loadWeather lib fs u
  | .loadAndSetWeather => loadAndSetWeather lib fs u
  | .loadWeatherBlock n data => loadWeatherBlock lib n data u
  | .set f => .ok { u with params := f u.params }
  | .setValid b => .ok { u with valid := some b }

/-- a history of operations that all return; the file system may change between them -/
def run (lib : Library α) : List (FileSystem × Op α) → UserModel α → Option (UserModel α)
  | [], u => some u
  | (fs, op) :: ops, u =>
    match step lib fs op u with
    | .ok u => run lib ops u
    | _ => none

end ISO.User
