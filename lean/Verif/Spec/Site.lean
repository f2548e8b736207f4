import Verif.Model.Loading
import Verif.Spec.Average

/-! # Specification: weather blocks and the averages the monthly model should see -/

namespace ISO.Spec
open ISO ISO.Epw ISO.WeatherText ISO.User

/-- A well-formed block of a year's weather: a site, a time zone and seven columns of 8760 numbers. -/
structure Block where
  lat : Dbl
  lon : Dbl
  tz : Dbl
  zone : Int
  cols : Fin 7 → List Dbl
  lat_number : lat ≠ .nan
  lon_number : lon ≠ .nan
  zone_eq : CNum.cint tz = some zone
  full : ∀ c, (cols c).length = 8760

namespace Block

def site (b : Block) : Dbl × Dbl := (b.lat, b.lon)

/-- the array handed to the program -/
def array (b : Block) : List Dbl := [b.lat, b.lon, b.tz] ++ (List.ofFn b.cols).flatten

/-- the weather of the block -/
def weather (b : Block) : Weather Dbl where
  latitude := b.lat
  longitude := b.lon
  timezone := b.zone
  data := fun c i => (b.cols c)[i.1]'(by rw [b.full c]; exact i.2)

end Block

/-- `b` is the first block of the history for site `k` -/
def FirstOf (history : List Block) (k : Dbl × Dbl) (b : Block) : Prop :=
  ∃ before after, history = before ++ b :: after ∧ b.site = k ∧ ∀ a ∈ before, a.site ≠ k

/-- `b` is the last block of the history that was the first of its site -/
def LastNew (history : List Block) (b : Block) : Prop :=
  ∃ before after, history = before ++ b :: after ∧ (∀ a ∈ before, a.site ≠ b.site) ∧
    ∀ c ∈ after, ∃ a ∈ before ++ [b], a.site = c.site

/-- the monthly averages of a year's weather, each printed and read once -/
noncomputable def averages (lib : Library Dbl) (w : Weather Dbl) : Entries Dbl where
  mdbt m := some (lib.atof (lib.fmt (monthMean (w.data DBT) (m.1 + 1))))
  mwind m := some (lib.atof (lib.fmt (monthMean (w.data WSPD) (m.1 + 1))))
  mEgh m := some (lib.atof (lib.fmt (monthMean (w.data EGH) (m.1 + 1))))
  mhdbt m h := some (lib.atof (lib.fmt (hourMean (w.data DBT) (m.1 + 1) h.1)))
  mhEgh m h := some (lib.atof (lib.fmt (hourMean (w.data EGH) (m.1 + 1) h.1)))
  msolar m s := some (lib.atof (lib.fmt (monthMean (fun i => Solar.eglobe w i s) (m.1 + 1))))

/-- the same as weather data -/
noncomputable def siteAverages (lib : Library Dbl) (w : Weather Dbl) : WeatherData Dbl where
  mdbt m := lib.atof (lib.fmt (monthMean (w.data DBT) (m.1 + 1)))
  mwind m := lib.atof (lib.fmt (monthMean (w.data WSPD) (m.1 + 1)))
  mEgh m := lib.atof (lib.fmt (monthMean (w.data EGH) (m.1 + 1)))
  mhdbt m h := lib.atof (lib.fmt (hourMean (w.data DBT) (m.1 + 1) h.1))
  mhEgh m h := lib.atof (lib.fmt (hourMean (w.data EGH) (m.1 + 1) h.1))
  msolar m s := lib.atof (lib.fmt (monthMean (fun i => Solar.eglobe w i s) (m.1 + 1)))

/-- numbers are printed as at least one character, without comma or newline -/
def Prints (lib : Library Dbl) : Prop := ∀ x, lib.fmt x ≠ [] ∧ ',' ∉ lib.fmt x ∧ '\n' ∉ lib.fmt x

/-- the path with every backslash as a slash -/
def forward (p : Str) : Str := p.map fun c => if c = '\\' then '/' else c

/-- the path without one leading separator -/
def withoutLeading : Str → Str
  | [] => []
  | c :: t => if c = '/' ∨ c = '\\' then t else c :: t

end ISO.Spec
