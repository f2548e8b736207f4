import Verif.Num.Dbl
import Verif.Model.Epw

/-!
# Solar geometry and radiation: SolarRadiation.hpp, SolarRadiation.cpp
-/

namespace ISO.Solar
open ISO CNum Epw
variable {α : Type} [CNum α] [OfInt α]

/-- SolarRadiation.hpp:32: the constant `PI` (13 decimals, not π) -/
def PI : α := 3.1415926535897

/-- SolarRadiation.cpp:10: azimuths of S, SE, E, NE, N, NW, W, SW -/
def surfaceAzimuths : Fin 8 → α
  | 0 => 0.0
  | 1 => -PI / 4.0
  | 2 => -PI / 2.0
  | 3 => -3.0 * PI / 4.0
  | 4 => PI
  | 5 => 3.0 * PI / 4.0
  | 6 => PI / 2.0
  | 7 => PI / 4.0

/-- SolarRadiation.hpp:44-48: the inputs set by the constructor -/
structure Site (α : Type) where
  surfaceTilt : α
  localMeridian : α
  longitude : α
  latitude : α
  groundReflectance : α

/-- SolarRadiation.cpp:13-44, for the default argument `tilt = PI` (the only one used) -/
def site (w : Weather α) : Site α where
  longitude := w.longitude * PI / 180.0
  localMeridian := OfInt.ofInt w.timezone * 15.0 * PI / 180.0
  latitude := w.latitude * PI / 180.0
  surfaceTilt := PI / 2.0
  groundReflectance := 0.14

/-- SolarRadiation.hpp:81-83 -/
def revolutionAngle (dayOfYear : Int) : α := 2.0 * PI * OfInt.ofInt dayOfYear / 365.0

/-- SolarRadiation.hpp:89-92 -/
def equationOfTime (rev : α) : α :=
  2.2918 * (0.0075 + 0.1868 * ccos rev - 3.2077 * csin rev
    - 1.4615 * ccos (2.0 * rev) - 4.089 * csin (2.0 * rev))

/-- SolarRadiation.hpp:99-101 -/
def apparentSolarTime (s : Site α) (hourOfDay : Int) (eot : α) : α :=
  OfInt.ofInt hourOfDay + eot / 60.0 + (s.longitude - s.localMeridian) / (PI / 12.0)

/-- SolarRadiation.hpp:108-111 -/
def solarDeclination (rev : α) : α :=
  0.006918 - 0.399912 * ccos rev + 0.070257 * csin rev - 0.006758 * ccos (2.0 * rev)
    + 0.000907 * csin (2.0 * rev) - 0.002697 * ccos (3.0 * rev) + 0.00148 * csin (3.0 * rev)

/-- SolarRadiation.hpp:117-119 -/
def solarHourAngle (ast : α) : α := 15.0 * (ast - 12.0) * PI / 180.0

/-- SolarRadiation.hpp:125-127 -/
def solarAltitude (s : Site α) (decl hourAngle : α) : α :=
  casin (ccos s.latitude * ccos decl * ccos hourAngle + csin s.latitude * csin decl)

/-- SolarRadiation.hpp:133-135 -/
def solarAzimuthSin (decl hourAngle alt : α) : α := csin hourAngle * ccos decl / ccos alt

/-- SolarRadiation.hpp:141-144 -/
def solarAzimuthCos (s : Site α) (decl hourAngle alt : α) : α :=
  (ccos hourAngle * ccos decl * csin s.latitude - csin decl * ccos s.latitude) / ccos alt

/-- SolarRadiation.hpp:149-151 -/
def solarAzimuth (azSin azCos : α) : α := catan2 azSin azCos

/-- SolarRadiation.hpp:159-166 -/
def groundReflected (beam diffuse reflectance alt tilt : α) : α :=
  (beam * csin alt + diffuse) * reflectance * (1.0 - ccos tilt) / 2.0

/-- SolarRadiation.hpp:173-175 -/
def surfaceSolarAzimuth (solarAz surfaceAz : α) : α := cabs (solarAz - surfaceAz)

/-- SolarRadiation.hpp:181-184 -/
def angleOfIncidence (alt surfaceSolarAz tilt : α) : α :=
  cacos (ccos alt * ccos surfaceSolarAz * csin tilt + csin alt * ccos tilt)

/-- SolarRadiation.hpp:190-192 -/
def directBeam (beam aoi : α) : α := beam * cmax (ccos aoi) 0.0

/-- SolarRadiation.hpp:198-200 -/
def diffuseFactor (aoi : α) : α :=
  cmax 0.45 (0.55 + 0.437 * ccos aoi + 0.313 * cpow (ccos aoi) 2.0)

/-- SolarRadiation.hpp:206-216 -/
def diffuseIrradiance (diffuse factor tilt : α) : α :=
  bif clt (PI / 2.0) tilt then diffuse * factor * csin tilt
  else diffuse * (factor * csin tilt + ccos tilt)

/-- SolarRadiation.hpp:222-226 -/
def totalIrradiance (direct diffuse ground : α) : α := direct + diffuse + ground

/-- Sun position of one hour (SolarRadiation.cpp:70-80). -/
structure Sun (α : Type) where
  altitude : α
  azimuth : α

/-- SolarRadiation.cpp:70-80 -/
def sun (s : Site α) (dayOfYear hourOfDay : Int) : Sun α :=
  let rev := revolutionAngle dayOfYear
  let eot := equationOfTime rev
  let ast := apparentSolarTime s hourOfDay eot
  let decl := solarDeclination rev
  let ha := solarHourAngle ast
  let alt := solarAltitude s decl ha
  { altitude := alt
    azimuth := solarAzimuth (solarAzimuthSin decl ha alt) (solarAzimuthCos s decl ha alt) }

/-- SolarRadiation.cpp:82 and 86-96: irradiance on a surface of azimuth `surfAz`. -/
def surfaceIrradiance (s : Site α) (p : Sun α) (beam diffuse surfAz : α) : α :=
  let ground := groundReflected beam diffuse s.groundReflectance p.altitude s.surfaceTilt
  let aoi := angleOfIncidence p.altitude (surfaceSolarAzimuth p.azimuth surfAz) s.surfaceTilt
  totalIrradiance (directBeam beam aoi)
    (diffuseIrradiance diffuse (diffuseFactor aoi) s.surfaceTilt) ground

/-- The calendar slice of hour `i` (TimeFrame arrays; every index below 8760 is in range, theorem
`C11_table_size`). -/
def sliceAt (i : Fin 8760) : Slice := TimeFrame.slices.getD i.1 ⟨0, 0, 0, 0, 0⟩

/-- SolarRadiation.cpp:56-98: `m_eglobe` -/
def eglobe (w : Weather α) (i : Fin 8760) (surf : Fin 8) : α :=
  let sl := sliceAt i
  surfaceIrradiance (site w) (sun (site w) sl.ytd sl.hour) (w.data EB i) (w.data ED i)
    (surfaceAzimuths surf)

/-! ## Averages (SolarRadiation.cpp:100-181) -/

/-- Entry `midx` of the vectors SolarRadiation.hpp:54-62. -/
structure MonthBins (α : Type) where
  dryBulb : α
  dewPoint : α
  relativeHumidity : α
  windspeed : α
  globalHorizontal : α
  solar : Fin 8 → α
  hourlyDryBulb : Fin 24 → α
  hourlyDewPoint : Fin 24 → α
  hourlyGlobalHorizontal : Fin 24 → α

/-- SolarRadiation.cpp:124-139 -/
def MonthBins.zero : MonthBins α where
  dryBulb := 0.0
  dewPoint := 0.0
  relativeHumidity := 0.0
  windspeed := 0.0
  globalHorizontal := 0.0
  solar := fun _ => 0.0
  hourlyDryBulb := fun _ => 0.0
  hourlyDewPoint := fun _ => 0.0
  hourlyGlobalHorizontal := fun _ => 0.0

/-- SolarRadiation.cpp:105-120: division by the hour count and by the days of the month -/
def MonthBins.average (cnt days : Nat) (b : MonthBins α) : MonthBins α where
  dryBulb := b.dryBulb / OfInt.ofInt cnt
  dewPoint := b.dewPoint / OfInt.ofInt cnt
  relativeHumidity := b.relativeHumidity / OfInt.ofInt cnt
  windspeed := b.windspeed / OfInt.ofInt cnt
  globalHorizontal := b.globalHorizontal / OfInt.ofInt cnt
  solar := fun s => b.solar s / OfInt.ofInt cnt
  hourlyDryBulb := fun h => b.hourlyDryBulb h / OfInt.ofInt days
  hourlyDewPoint := fun h => b.hourlyDewPoint h / OfInt.ofInt days
  hourlyGlobalHorizontal := fun h => b.hourlyGlobalHorizontal h / OfInt.ofInt days

/-- The hourly values of hour `i` that are averaged. -/
structure HourData (α : Type) where
  dbt : α
  dpt : α
  rh : α
  egh : α
  wspd : α
  eglobe : Fin 8 → α

/-- SolarRadiation.cpp:167-177 -/
def MonthBins.accumulate (hour : Nat) (d : HourData α) (b : MonthBins α) : MonthBins α where
  dryBulb := b.dryBulb + d.dbt
  dewPoint := b.dewPoint + d.dpt
  relativeHumidity := b.relativeHumidity + d.rh
  windspeed := b.windspeed + d.wspd
  globalHorizontal := b.globalHorizontal + d.egh
  solar := fun s => b.solar s + d.eglobe s
  hourlyDryBulb := fun h => if h.1 = hour then b.hourlyDryBulb h + d.dbt else b.hourlyDryBulb h
  hourlyDewPoint := fun h => if h.1 = hour then b.hourlyDewPoint h + d.dpt else b.hourlyDewPoint h
  hourlyGlobalHorizontal := fun h =>
    if h.1 = hour then b.hourlyGlobalHorizontal h + d.egh else b.hourlyGlobalHorizontal h

/-- The local variables of `calculateAverages` and the bins (SolarRadiation.cpp:143-146). `midx` starts
at -1; `next` is `midx + 1`. -/
structure AvgState (α : Type) where
  month : Nat
  next : Nat
  cnt : Nat
  bins : List (MonthBins α)

/-- SolarRadiation.cpp:101-122; nothing happens for `midx = -1` (`next = 0`). `none` is an index out
of range. -/
def monthAvg (st : AvgState α) : Option (List (MonthBins α)) :=
  match st.next with
  | 0 => some st.bins
  | midx + 1 =>
    match st.bins[midx]? with
    | some b => some (st.bins.set midx (b.average st.cnt (TimeFrame.monthLength (midx + 1))))
    | none => none

/-- SolarRadiation.cpp:156-178: one turn of the loop.  `none` is an index out of range. -/
def avgStep (st : AvgState α) (x : Slice × HourData α) : Option (AvgState α) := do
  let st ← if x.1.month ≠ st.month then do
      let bins ← monthAvg st
      if st.next < bins.length then
        some { month := x.1.month, next := st.next + 1, cnt := 0, bins := bins.set st.next MonthBins.zero }
      else none
    else some st
  match st.next with
  | 0 => none
  | midx + 1 =>
    match st.bins[midx]? with
    | some b =>
      if x.1.hour < 24 then
        some { st with cnt := st.cnt + 1, bins := st.bins.set midx (b.accumulate x.1.hour x.2) }
      else none
    | none => none

/-- SolarRadiation.cpp:141-181 on bins with any content (they are zero after construction, lines 16-34,
and hold the averages after a first `Calculate`). -/
def averages (hours : List (Slice × HourData α)) (bins : List (MonthBins α)) :
    Option (List (MonthBins α)) := do
  let st ← hours.foldlM avgStep ⟨0, 0, 0, bins⟩
  monthAvg st

/-- the hourly data of the loop (SolarRadiation.cpp:148-154, 173) -/
def hourData (w : Weather α) (i : Fin 8760) : Slice × HourData α :=
  (sliceAt i, { dbt := w.data DBT i, dpt := w.data DPT i, rh := w.data RH i, egh := w.data EGH i,
                wspd := w.data WSPD i, eglobe := eglobe w i })

/-- SolarRadiation.cpp:185-189 on an object whose bins have the content `bins` -/
def calculate (w : Weather α) (bins : List (MonthBins α)) : Option (List (MonthBins α)) :=
  averages (List.ofFn (hourData w)) bins

/-- SolarRadiation.cpp:16-34: the bins after construction -/
def newBins : List (MonthBins α) := List.replicate 12 MonthBins.zero

end ISO.Solar
