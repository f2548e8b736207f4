import Verif.Model.Hourly
import Verif.Model.Solar

/-!
# The hourly simulation: HourlyModel::simulate and the object that carries it
-/

namespace ISO.Hourly
open ISO CNum Epw
variable {α : Type} [CNum α] [OfInt α]

/-- HourlyModel.cpp:42-52, 65-68: wind, temperature and radiation (eight facades, then the global
horizontal radiation as roof) of hour `i`. -/
def hourWeather (w : Weather α) (i : Fin 8760) : HourWeather α where
  windMps := w.data WSPD i
  temperature := w.data DBT i
  solarRadiation := fun k => if h : k.1 < 8 then Solar.eglobe w i ⟨k.1, h⟩ else w.data EGH i

/-- What one hour needs besides the state: schedule cell and weather (HourlyModel.cpp:58-68; the
schedule look-ups of lines 208-214 use hour of day and day of week). -/
def hourInput (x : Sim α) (win : Window) (w : Weather α) (i : Fin 8760) : Schedule α × HourWeather α :=
  let sl := Solar.sliceAt i
  (scheduleCell x win sl.hour sl.dayOfWeek, hourWeather w i)

/-- HourlyModel.cpp:57-82: the loop over the hours; the results in order. -/
def runHours (x : Sim α) (c : Consts α) (r : Ratios α) :
    List (Schedule α × HourWeather α) → ThermalState α → List (HourResults α)
  | [], _ => []
  | (sch, w) :: rest, st =>
    let out := calculateHour x c r sch w st
    out.2 :: runHours x c r rest out.1

/-- the states after each hour (no counterpart in the code: `TMT1` and `tiHeatCool` are local) -/
def runStates (x : Sim α) (c : Consts α) (r : Ratios α) :
    List (Schedule α × HourWeather α) → ThermalState α → List (ThermalState α)
  | [], _ => []
  | (sch, w) :: rest, st =>
    let out := calculateHour x c r sch w st
    out.1 :: runStates x c r rest out.1

/-- HourlyModel.cpp:40-41 -/
def initialState : ThermalState α := ⟨20.0, 20.0⟩

/-- HourlyModel.cpp:85-99: distribution efficiencies from the annual needs (heating, cooling). -/
def distribution (x : Sim α) (htYear clYear : α) : α × α :=
  let f_dem_ht := cmax (htYear / (clYear + htYear)) 0.1
  let f_dem_cl := cmax (1.0 - f_dem_ht) 0.1
  (1.0 / (1.0 + x.heating.hvacLossFactor + x.heating.hotcoldWasteFactor / f_dem_ht),
   1.0 / (1.0 + x.cooling.hvacLossFactor + x.heating.hotcoldWasteFactor / f_dem_cl))

/-- The thirteen end uses in output order (HourlyModel.cpp:120-132, 154-167). -/
abbrev EndUses (α : Type) := Fin 13 → α

/-- HourlyModel.cpp:101-139, 148-186: the end uses of one hour, in kWh/m2, for the distribution efficiencies
`eta` (heating, cooling). -/
def hourEndUses (x : Sim α) (eta : α × α) (r : HourResults α) : EndUses α :=
  let qht := r.Qneed_ht / eta.1 / x.heating.efficiency
  let qcl := r.Qneed_cl / eta.2 / x.cooling.cop
  let elec := ceq x.heating.energyType 1.0
  fun k => match k with
    | 0 => (bif elec then qht else 0.0) / 1000.0
    | 1 => qcl / 1000.0
    | 2 => r.Q_illum_tot / 1000.0
    | 3 => r.Q_illum_ext_tot / 1000.0
    | 4 => r.Qfan_tot / 1000.0
    | 5 => r.Qpump_tot / 1000.0
    | 6 => r.phi_plug / 1000.0
    | 7 => r.externalEquipmentEnergyWperm2 / 1000.0
    | 8 => r.Q_dhw / 1000.0
    | 9 => (bif elec then 0.0 else qht) / 1000.0
    | 10 => 0.0 / 1000.0
    | 11 => 0.0 / 1000.0
    | 12 => 0.0 / 1000.0

/-- HourlyModel.cpp:91-99: efficiencies from the results of the whole year -/
def yearDistribution (x : Sim α) (rs : List (HourResults α)) : α × α :=
  distribution x (csum (rs.map (·.Qneed_ht))) (csum (rs.map (·.Qneed_cl)))

/-- HourlyModel.cpp:91-139, 148-186: the end uses of every hour (`simulate(false)`). -/
def endUses (x : Sim α) (rs : List (HourResults α)) : List (EndUses α) :=
  rs.map (hourEndUses x (yearDistribution x rs))

/-- HourlyModel.cpp:575 -/
def monthsInHours : List Nat := [0, 744, 1416, 2160, 2880, 3624, 4344, 5088, 5832, 6552, 7296, 8016, 8760]

/-- HourlyModel.cpp:572-584; `none` is the undefined behaviour on fewer than 8760 values. -/
def sumHoursByMonth (hourlyData : List α) : Option (List α) :=
  if hourlyData.length < 8760 then none
  else some ((List.range 12).map fun month =>
    let a := monthsInHours.getD month 0
    let b := monthsInHours.getD (month + 1) 0
    csum ((hourlyData.take b).drop a))

/-- HourlyModel.cpp:141-146 and 148-186 for `aggregateByMonth = true`: every end use is summed by month. -/
def aggregate (hourly : List (EndUses α)) : Option (List (EndUses α)) := do
  let cols ← (List.ofFn fun k : Fin 13 => sumHoursByMonth (hourly.map (· k))).mapM id
  pure ((List.range 12).map fun i => fun k => (cols.getD k.1 []).getD i 0.0)

/-- The raw results of the year for given ratios (HourlyModel.cpp:28-82). -/
def rawResults (x : Sim α) (r : Ratios α) (win : Window) (w : Weather α) : List (HourResults α) :=
  runHours x (initConsts x) r (List.ofFn (hourInput x win w)) initialState

/-- The six member vectors of the object that `initialize` extends with `push_back`
(HourlyModel.hpp:180-186). -/
structure Pushed (α : Type) where
  nlaWMovableShading : List α
  naturalLightRatio : List α
  naturalLightShadeRatioReduction : List α
  saWMovableShading : List α
  solarRatio : List α
  solarShadeRatioReduction : List α

/-- a newly constructed object: empty vectors (HourlyModel.cpp:23) -/
def Pushed.empty : Pushed α := ⟨[], [], [], [], [], []⟩

/-- HourlyModel.cpp:421-427: one turn of the loop.  The index `[i]` reads entry `i` of the whole
vector, which on a second call is the entry of the first call. -/
def pushOne (s : Structure α) (p : Pushed α) (i : Fin 9) : Pushed α :=
  let nlaW := p.nlaWMovableShading ++ [(facade s i).nlams / s.floorArea]
  let nlr := p.naturalLightRatio ++ [(facade s i).nla / s.floorArea]
  let saW := p.saWMovableShading ++ [(facade s i).sams / s.floorArea]
  let sr := p.solarRatio ++ [(facade s i).sa / s.floorArea]
  { nlaWMovableShading := nlaW
    naturalLightRatio := nlr
    naturalLightShadeRatioReduction :=
      p.naturalLightShadeRatioReduction ++ [nlaW.getD i.1 0.0 - nlr.getD i.1 0.0]
    saWMovableShading := saW
    solarRatio := sr
    solarShadeRatioReduction := p.solarShadeRatioReduction ++ [saW.getD i.1 0.0 - sr.getD i.1 0.0] }

/-- HourlyModel.cpp:410-428 -/
def pushAll (s : Structure α) (p : Pushed α) : Pushed α := (List.finRange 9).foldl (pushOne s) p

/-- the entries 0..8 that `calculateHour` reads (HourlyModel.cpp:224-225, 251-252) -/
def Pushed.ratios (p : Pushed α) : Ratios α where
  nlaWMovableShading i := p.nlaWMovableShading.getD i.1 0.0
  naturalLightRatio i := p.naturalLightRatio.getD i.1 0.0
  naturalLightShadeRatioReduction i := p.naturalLightShadeRatioReduction.getD i.1 0.0
  saWMovableShading i := p.saWMovableShading.getD i.1 0.0
  solarRatio i := p.solarRatio.getD i.1 0.0
  solarShadeRatioReduction i := p.solarShadeRatioReduction.getD i.1 0.0

/-- An `HourlyModel` object: parameters, weather and the vectors left by earlier calls. -/
structure Model (α : Type) where
  sim : Sim α
  weather : Weather α
  pushed : Pushed α

/-- HourlyModel.cpp:26-187.  `none` is undefined behaviour (occupancy window not representable as
`int`). -/
def simulate (aggregateByMonth : Bool) (m : Model α) : Option (Model α × List (EndUses α)) := do
  let win ← window m.sim.pop
  let p := pushAll m.sim.bldg m.pushed
  let hourly := endUses m.sim (rawResults m.sim p.ratios win m.weather)
  let out ← if aggregateByMonth then aggregate hourly else some hourly
  pure ({ m with pushed := p }, out)

end ISO.Hourly
