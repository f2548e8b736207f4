import Verif.Model.HourlyRun

/-!
# The monthly model: MonthlyModel.cpp

Function by function; a `Vector` of twelve months is `Fin 12 → α`, of nine facades `Fin 9 → α`, of 24 clock hours
`Fin 24 → α`.  Reference parameters that a function fills are the fields of its result record.  The element-wise vector
functions (MonthlyModel.cpp:100-268) are written at the element: `mult` is `*`, `sum` of two vectors `+`, `dif` `-`,
`maximum`/`minimum` are `cmax`/`cmin`, `abs`/`pow` are `cabs`/`cpow`, and `div` is `vdiv`.  Debug output is left out.
-/

namespace ISO.Monthly
open ISO CNum
variable {α : Type} [CNum α] [OfInt α]

/-! ## Vector functions and tables -/

/-- MonthlyModel.cpp:127-161, one element of the three overloads of `div`: `DBL_MAX` instead of a division by zero. -/
def vdiv (n d : α) : α := bif ceq d 0.0 then dblMax else n / d

/-- MonthlyModel.cpp:170-177: `sum` of a vector (a loop that starts from 0). -/
def vsum {n : Nat} (v : Fin n → α) : α := csum (List.ofFn v)

/-- MonthlyModel.cpp:272-273 -/
def daysInMonth : Fin 12 → α := ![31.0, 28.0, 31.0, 30.0, 31.0, 30.0, 31.0, 31.0, 30.0, 31.0, 30.0, 31.0]
/-- MonthlyModel.cpp:274-275 -/
def hoursInMonth : Fin 12 → α := ![744.0, 672.0, 744.0, 720.0, 744.0, 720.0, 744.0, 744.0, 720.0, 744.0, 720.0, 744.0]
/-- MonthlyModel.cpp:276-277 -/
def megasecondsInMonth : Fin 12 → α :=
  ![2.6784, 2.4192, 2.6784, 2.592, 2.6784, 2.592, 2.6784, 2.6784, 2.592, 2.6784, 2.592, 2.6784]
/-- MonthlyModel.cpp:278-280 -/
def monthFractionOfYear : Fin 12 → α :=
  ![0.0849315068493151, 0.0767123287671233, 0.0849315068493151, 0.0821917808219178, 0.0849315068493151, 0.0821917808219178,
    0.0849315068493151, 0.0849315068493151, 0.0821917808219178, 0.0849315068493151, 0.0821917808219178, 0.0849315068493151]
/-- MonthlyModel.cpp:287: `3.6f`, the nearest single precision number to 3.6, exactly. -/
def kWh2MJ : α := 15099494.0 / 4194304.0

/-! ## scheduleAndOccupancy (MonthlyModel.cpp:295-343) -/

/-- the reference parameters filled by `scheduleAndOccupancy` -/
structure Occupancy (α : Type) where
  weekdayOccupiedMegaseconds : Fin 12 → α
  weekdayUnoccupiedMegaseconds : Fin 12 → α
  weekendOccupiedMegaseconds : Fin 12 → α
  weekendUnoccupiedMegaseconds : Fin 12 → α
  clockHourOccupied : Fin 24 → α
  clockHourUnoccupied : Fin 24 → α
  frac_hrs_wk_day : α
  hoursUnoccupiedPerDay : α
  hoursOccupiedPerDay : α
  frac_hrs_wk_nt : α
  frac_hrs_wke_tot : α

/-- MonthlyModel.cpp:299-302 -/
def hoursPerDay (p : Population α) : α :=
  let h := p.hoursEnd - p.hoursStart
  bif clt h 0.0 then h + 24.0 else h

/-- MonthlyModel.cpp:303-306 (and 459-462) -/
def daysPerWeek (p : Population α) : α :=
  let d := p.daysEnd - p.daysStart + 1.0
  bif clt d 0.0 then d + 7.0 else d

/-- MonthlyModel.cpp:335: is clock hour `h` counted as occupied; `EECALC_WEEKDAY_START` is 7 -/
def hourOccupied (hoursOccupiedPerDay : α) (h : Fin 24) : Bool :=
  !clt (OfInt.ofInt h.val - 7.0 : α) 0.0 && clt (OfInt.ofInt h.val - 7.0 : α) hoursOccupiedPerDay

/-- MonthlyModel.cpp:295-343.  The density ratio of lines 316-318 is not used. -/
def scheduleAndOccupancy (p : Population α) : Occupancy α :=
  let hoursOccupiedPerDay := hoursPerDay p
  let daysOccupiedPerWeek := daysPerWeek p
  let hoursOccupiedDuringWeek := hoursOccupiedPerDay * daysOccupiedPerWeek
  let frac_hrs_wk_day := hoursOccupiedDuringWeek / 168.0
  let hoursUnoccupiedPerDay := 24.0 - hoursOccupiedPerDay
  let hoursUnoccupiedDuringWeek := (daysOccupiedPerWeek - 1.0) * hoursUnoccupiedPerDay
  let frac_hrs_wk_nt := hoursUnoccupiedDuringWeek / 168.0
  let totalWeekendHours := 168.0 - hoursOccupiedDuringWeek - hoursUnoccupiedDuringWeek
  let frac_hrs_wke_tot := totalWeekendHours / 168.0
  let weekendHoursOccupied := (7.0 - daysOccupiedPerWeek) * hoursOccupiedPerDay
  let frac_hrs_wke_day := weekendHoursOccupied / 168.0
  let weekendHoursUnoccupied := totalWeekendHours - weekendHoursOccupied
  let frac_hrs_wke_nt := weekendHoursUnoccupied / 168.0
  { weekdayOccupiedMegaseconds := fun m => megasecondsInMonth m * frac_hrs_wk_day
    weekdayUnoccupiedMegaseconds := fun m => megasecondsInMonth m * frac_hrs_wk_nt
    weekendOccupiedMegaseconds := fun m => megasecondsInMonth m * frac_hrs_wke_day
    weekendUnoccupiedMegaseconds := fun m => megasecondsInMonth m * frac_hrs_wke_nt
    clockHourOccupied := fun h => bif hourOccupied hoursOccupiedPerDay h then 1.0 else 0.0
    clockHourUnoccupied := fun h => bif hourOccupied hoursOccupiedPerDay h then 0.0 else 1.0
    frac_hrs_wk_day := frac_hrs_wk_day
    hoursUnoccupiedPerDay := hoursUnoccupiedPerDay
    hoursOccupiedPerDay := hoursOccupiedPerDay
    frac_hrs_wk_nt := frac_hrs_wk_nt
    frac_hrs_wke_tot := frac_hrs_wke_tot }

/-! ## solarRadiationBreakdown (MonthlyModel.cpp:349-430) -/

/-- MonthlyModel.cpp:364-365 (and 368-369, 372-373, 376-377): matrix times vector, divided by the sum of the vector
(ublas `/=`, a plain division). -/
def weightedAverage (w : Fin 24 → α) (row : Fin 24 → α) : α := vsum (fun h => row h * w h) / vsum w

/-- the reference parameters filled by `solarRadiationBreakdown` -/
structure Breakdown (α : Type) where
  v_hrs_sun_down_mo : Fin 12 → α
  frac_Pgh_wk_nt : Fin 12 → α
  frac_Pgh_wke_day : Fin 12 → α
  frac_Pgh_wke_nt : Fin 12 → α
  v_Tdbt_nt : Fin 12 → α
  v_Tdbt_day : Fin 12 → α

/-- MonthlyModel.cpp:407-412: the first clock hour with radiation different from 0 -/
def sunUp (row : Fin 24 → α) : Option (Fin 24) := (List.finRange 24).find? fun j => !ceq (row j) 0.0

/-- MonthlyModel.cpp:415-420: the last one -/
def sunDown (row : Fin 24 → α) : Option (Fin 24) := (List.finRange 24).reverse.find? fun j => !ceq (row j) 0.0

/-- MonthlyModel.cpp:402-428, one month: hours without sun.  `none`: no hour has radiation, the two times are read
uninitialised. -/
def hoursSunDown (row : Fin 24 → α) (m : Fin 12) : Option α := do
  let up ← sunUp row
  let down ← sunDown row
  let fracUp := (OfInt.ofInt down.val - OfInt.ofInt up.val + 1.0) / 24.0
  let fracDown := 1.0 - fracUp
  return fracDown * hoursInMonth m

/-- twelve values that may each be undefined (no counterpart in the code): undefined as soon as one is -/
def allMonths {β : Type} (f : Fin 12 → Option β) : Option (Fin 12 → β) :=
  if h : ∀ m, (f m).isSome then some fun m => (f m).get (h m) else none

/-- MonthlyModel.cpp:349-399: everything of the breakdown except the sun times -/
def radiationFractions (w : WeatherData α) (o : Occupancy α) (sunDownHours : Fin 12 → α) : Breakdown α :=
  let v_Tdbt_day := fun m => weightedAverage o.clockHourOccupied (w.mhdbt m)
  let v_Tdbt_nt := fun m => weightedAverage o.clockHourUnoccupied (w.mhdbt m)
  let v_Egh_day := fun m => weightedAverage o.clockHourOccupied (w.mhEgh m)
  let v_Egh_nt := fun m => weightedAverage o.clockHourUnoccupied (w.mhEgh m)
  let v_Wgh_wk_day := fun m => v_Egh_day m * o.weekdayOccupiedMegaseconds m
  let v_Wgh_wk_nt := fun m => v_Egh_nt m * o.weekdayUnoccupiedMegaseconds m
  let v_Wgh_wke_day := fun m => v_Egh_day m * o.weekendOccupiedMegaseconds m
  let v_Wgh_wke_nt := fun m => v_Egh_nt m * o.weekendUnoccupiedMegaseconds m
  let v_Wgh_tot := fun m => (v_Wgh_wk_day m + v_Wgh_wk_nt m) + (v_Wgh_wke_day m + v_Wgh_wke_nt m)
  { v_hrs_sun_down_mo := sunDownHours
    frac_Pgh_wk_nt := fun m => vdiv (v_Wgh_wk_nt m) (v_Wgh_tot m)
    frac_Pgh_wke_day := fun m => vdiv (v_Wgh_wke_day m) (v_Wgh_tot m)
    frac_Pgh_wke_nt := fun m => vdiv (v_Wgh_wke_nt m) (v_Wgh_tot m)
    v_Tdbt_nt := v_Tdbt_nt
    v_Tdbt_day := v_Tdbt_day }

/-- MonthlyModel.cpp:349-430 -/
def solarRadiationBreakdown (w : WeatherData α) (o : Occupancy α) : Option (Breakdown α) := do
  let v_hrs_sun_down_mo ← allMonths fun m => hoursSunDown (w.mhEgh m) m
  return radiationFractions w o v_hrs_sun_down_mo

/-! ## lightingEnergyUse (MonthlyModel.cpp:435-482) -/

/-- the reference parameters filled by `lightingEnergyUse` -/
structure LightingUse (α : Type) where
  Q_illum_occ : α
  Q_illum_unocc : α
  Q_illum_tot_yr : α
  v_Q_illum_tot : Fin 12 → α
  v_Q_illum_ext_tot : Fin 12 → α

/-- MonthlyModel.cpp:455-458: lighting hours of a day during the daytime -/
def lightingDayHours (l : Lighting α) (p : Population α) : α :=
  let h := cmin l.n_day_end p.hoursEnd - cmax p.hoursStart l.n_day_start
  bif clt h 0.0 then h + 24.0 else h

/-- MonthlyModel.cpp:466: lighting hours of a day during the nighttime -/
def lightingNightHours (l : Lighting α) (p : Population α) : α :=
  cmax (l.n_day_start - p.hoursStart) 0.0 + cmax (p.hoursEnd - l.n_day_end) 0.0

/-- MonthlyModel.cpp:435-482 -/
def lightingEnergyUse (x : Sim α) (v_hrs_sun_down_mo : Fin 12 → α) : LightingUse α :=
  let lpd_occ := x.lights.powerDensityOccupied
  let lpd_unocc := x.lights.powerDensityUnoccupied
  let F_D := x.lights.dimmingFraction
  let F_O := x.building.lightingOccupancySensor
  let F_C := x.building.constantIllumination
  let daysOccupied := daysPerWeek x.pop
  let t_lt_D := lightingDayHours x.lights x.pop * daysOccupied * x.lights.n_weeks
  let t_lt_N := lightingNightHours x.lights x.pop * daysOccupied * x.lights.n_weeks
  let t_unocc := 8760.0 - t_lt_D - t_lt_N
  let Q_illum_occ := x.bldg.floorArea * lpd_occ * F_C * F_O * (t_lt_D * F_D + t_lt_N) / 1000.0
  let Q_illum_unocc := x.bldg.floorArea * lpd_unocc * t_unocc / 1000.0
  let Q_illum_tot_yr := Q_illum_occ + Q_illum_unocc
  { Q_illum_occ := Q_illum_occ
    Q_illum_unocc := Q_illum_unocc
    Q_illum_tot_yr := Q_illum_tot_yr
    v_Q_illum_tot := fun m => monthFractionOfYear m * Q_illum_tot_yr
    v_Q_illum_ext_tot := fun m => v_hrs_sun_down_mo m * (x.lights.exteriorEnergy / 1000.0) }

/-! ## envelopCalculations (MonthlyModel.cpp:487-515) -/

/-- MonthlyModel.cpp:487-515: `H_tr`.  The vectors the function copies out of the structure are read from the structure
directly in the functions below. -/
def envelopCalculations (s : Structure α) : α :=
  let H_D := vsum fun i => s.wallArea i * s.wallUniform i + s.windowArea i * s.windowUniform i
  H_D + 0.0 + 0.0 + 0.0

/-! ## windowSolarGain (MonthlyModel.cpp:520-579) -/

/-- MonthlyModel.cpp:543, 552: `n_win_SDF_table[(int) code - 1]`; `none` is a read out of bounds or an undefined cast -/
def shadingFactor (code : α) : Option α :=
  match cint code with
  | some 1 => some 0.5
  | some 2 => some 0.35
  | some 3 => some 1.0
  | _ => none

/-- the reference parameters filled by `windowSolarGain` -/
structure SolarAreas (α : Type) where
  v_wall_A_sol : Fin 9 → α
  v_win_hr : Fin 9 → α
  v_wall_R_sc : Fin 9 → α
  v_win_A_sol : Fin 9 → α

/-- nine values that may each be undefined (no counterpart in the code): undefined as soon as one is -/
def allFacades {β : Type} (f : Fin 9 → Option β) : Option (Fin 9 → β) :=
  if h : ∀ i, (f i).isSome then some fun i => (f i).get (h i) else none

/-- MonthlyModel.cpp:546-579 given the looked-up shading factors.  The form factors of lines 569-570 are not used. -/
def solarAreas (s : Structure α) (v_win_SDF : Fin 9 → α) : SolarAreas α :=
  let v_win_ff := 1.0 - s.win_ff
  let v_win_F_shgl := fun i => v_win_SDF i * 1.0
  let v_g_gl := fun i => s.windowNormalIncidenceSolarEnergyTransmittance i * s.win_F_W
  let v_wall_R_sc := fun _ => s.R_sc_ext
  { v_win_A_sol := fun i => v_win_F_shgl i * v_g_gl i * v_win_ff * s.windowArea i
    v_wall_R_sc := v_wall_R_sc
    v_win_hr := fun i => s.wallThermalEmissivity i * 5.0
    v_wall_A_sol := fun i => s.wallSolarAbsorption i * v_wall_R_sc i * s.wallUniform i * s.wallArea i }

/-- MonthlyModel.cpp:520-579 -/
def windowSolarGain (s : Structure α) : Option (SolarAreas α) := do
  let v_win_SDF ← allFacades fun i => shadingFactor (s.windowShadingDevice i)
  return solarAreas s v_win_SDF

/-! ## solarHeatGain (MonthlyModel.cpp:584-671) -/

/-- MonthlyModel.cpp:610-616, one month: irradiance on the nine surfaces, the roof gets the horizontal one -/
def irradiance (w : WeatherData α) (m : Fin 12) : Fin 9 → α := Fin.snoc (w.msolar m) (w.mEgh m)

/-- MonthlyModel.cpp:648-649 -/
def formFactors : Fin 9 → α := ![0.5, 0.5, 0.5, 0.5, 0.5, 0.5, 0.5, 0.5, 1.0]

/-- MonthlyModel.cpp:619-627, one month: solar gain through the glazing -/
def windowGain (s : Structure α) (w : WeatherData α) (a : SolarAreas α) (m : Fin 12) : α :=
  vsum fun j => s.windowShadingCorrectionFactor j * 1.0 * a.v_win_A_sol j * irradiance w m j

/-- MonthlyModel.cpp:639-662, one month: solar gain of the opaque surfaces minus their radiation to the sky -/
def wallGain (s : Structure α) (w : WeatherData α) (a : SolarAreas α) (m : Fin 12) : α :=
  let v_wall_phi_r := fun j => a.v_wall_R_sc j * s.wallUniform j * s.wallArea j * a.v_win_hr j * 11.0
  vsum fun j => a.v_wall_A_sol j * irradiance w m j - v_wall_phi_r j * formFactors j

/-- MonthlyModel.cpp:584-671: `v_E_sol` -/
def solarHeatGain (s : Structure α) (w : WeatherData α) (a : SolarAreas α) (m : Fin 12) : α :=
  (windowGain s w a m + wallGain s w a m) * megasecondsInMonth m

/-! ## heatGainsAndLosses, internalHeatGain, unoccupiedHeatGain (MonthlyModel.cpp:676-754) -/

/-- the reference parameters filled by `heatGainsAndLosses` -/
structure InternalGains (α : Type) where
  phi_int_avg : α
  phi_plug_avg : α
  phi_illum_avg : α
  phi_int_wke_nt : α
  phi_int_wke_day : α
  phi_int_wk_nt : α

/-- MonthlyModel.cpp:676-706 -/
def heatGainsAndLosses (x : Sim α) (frac_hrs_wk_day : α) (l : LightingUse α) : InternalGains α :=
  let phi_int_occ := x.pop.heatGainPerPerson / x.pop.densityOccupied
  let phi_int_unocc := x.pop.heatGainPerPerson / x.pop.densityUnoccupied
  let phi_plug_occ := x.building.electricApplianceHeatGainOccupied + x.building.gasApplianceHeatGainOccupied
  let phi_plug_unocc := x.building.electricApplianceHeatGainUnoccupied + x.building.gasApplianceHeatGainUnoccupied
  let phi_illum_unocc := l.Q_illum_unocc / x.bldg.floorArea / 8760.0 / (1.0 - frac_hrs_wk_day) * 1000.0
  { phi_int_avg := frac_hrs_wk_day * phi_int_occ + (1.0 - frac_hrs_wk_day) * phi_int_unocc
    phi_plug_avg := phi_plug_occ * frac_hrs_wk_day + phi_plug_unocc * (1.0 - frac_hrs_wk_day)
    phi_illum_avg := l.Q_illum_tot_yr / x.bldg.floorArea / 8760.0 * 1000.0
    phi_int_wk_nt := phi_int_unocc + phi_plug_unocc + phi_illum_unocc
    phi_int_wke_day := phi_int_unocc + phi_plug_unocc + phi_illum_unocc
    phi_int_wke_nt := phi_int_unocc + phi_plug_unocc + phi_illum_unocc }

/-- MonthlyModel.cpp:711-724: `phi_I_tot` -/
def internalHeatGain (s : Structure α) (g : InternalGains α) : α :=
  let phi_I_occ := g.phi_int_avg * s.floorArea
  let phi_I_app := g.phi_plug_avg * s.floorArea
  let phi_I_lt := g.phi_illum_avg * s.floorArea
  phi_I_occ + phi_I_app + phi_I_lt

/-- the reference parameters filled by `unoccupiedHeatGain` -/
structure UnoccupiedGains (α : Type) where
  v_P_tot_wke_day : Fin 12 → α
  v_P_tot_wk_nt : Fin 12 → α
  v_P_tot_wke_nt : Fin 12 → α

/-- MonthlyModel.cpp:729-754 -/
def unoccupiedHeatGain (s : Structure α) (g : InternalGains α) (o : Occupancy α) (b : Breakdown α) (v_E_sol : Fin 12 → α) :
    UnoccupiedGains α :=
  let v_W_int_wk_nt := fun m => o.weekdayUnoccupiedMegaseconds m * (g.phi_int_wk_nt * s.floorArea)
  let v_W_int_wke_day := fun m => o.weekendOccupiedMegaseconds m * (g.phi_int_wke_day * s.floorArea)
  let v_W_int_wke_nt := fun m => o.weekendUnoccupiedMegaseconds m * (g.phi_int_wke_nt * s.floorArea)
  let v_W_sol_wk_nt := fun m => v_E_sol m * b.frac_Pgh_wk_nt m
  let v_W_sol_wke_day := fun m => v_E_sol m * b.frac_Pgh_wke_day m
  let v_W_sol_wke_nt := fun m => v_E_sol m * b.frac_Pgh_wke_nt m
  { v_P_tot_wk_nt := fun m => vdiv (v_W_int_wk_nt m + v_W_sol_wk_nt m) (o.weekdayUnoccupiedMegaseconds m)
    v_P_tot_wke_day := fun m => vdiv (v_W_int_wke_day m + v_W_sol_wke_day m) (o.weekendOccupiedMegaseconds m)
    v_P_tot_wke_nt := fun m => vdiv (v_W_int_wke_nt m + v_W_sol_wke_nt m) (o.weekendUnoccupiedMegaseconds m) }

/-! ## interiorTemp (MonthlyModel.cpp:759-1032) -/

/-- MonthlyModel.cpp:767-778: the shift of the set-points by the energy management level; `none` is an undefined cast -/
def managementShift (bem : α) : Option α :=
  match cint bem with
  | none => none
  | some 1 => some 0.0
  | some 2 => some 0.5
  | some 3 => some 1.0
  | some _ => some 0.0

/-- MonthlyModel.cpp:810-822: the time constant in hours -/
def timeConstant (x : Sim α) (H_tr : α) : α :=
  let Cm_int := x.bldg.interiorHeatCapacity * x.bldg.floorArea
  let Cm_env := x.bldg.wallHeatCapacity * vsum x.bldg.wallArea
  let Cm := Cm_int + Cm_env
  let H_tot := H_tr + x.ventilation.H_ve
  Cm / H_tot / 3600.0

/-- MonthlyModel.cpp:836-861: a value of the five periods week night, weekend day, night, day, night -/
def period (wk_nt wke_day wke_nt : α) (k : Nat) : α :=
  if k = 0 then wk_nt else if k % 2 = 1 then wke_day else wke_nt

/-- the data of the five periods in one month: outside temperature, temperature rise by gains, length -/
structure Periods (α : Type) where
  Te : Nat → α
  dT : Nat → α
  ti : Nat → α
  tau : α

/-- MonthlyModel.cpp:886 (and 963): the temperature at the end of a period that starts at `start` -/
def decay (p : Periods α) (start : α) (k : Nat) : α :=
  (start - p.Te k - p.dT k) * cexp ((-1.0 * p.ti k) / p.tau) + p.Te k + p.dT k

/-- MonthlyModel.cpp:882-888 (and 959-965): `v_Tstart` before period `k` when the first period starts at `start` -/
def freeTemp (p : Periods α) (start : α) : Nat → α
  | 0 => start
  | k + 1 => decay p (freeTemp p start k) k

/-- MonthlyModel.cpp:928 (and 988): the average over a period that starts at `start` -/
def periodAverage (p : Periods α) (start : α) (k : Nat) : α :=
  p.tau / p.ti k * (start - p.Te k - p.dT k) * (1.0 - cexp ((-1.0 * p.ti k) / p.tau)) + p.Te k + p.dT k

/-- MonthlyModel.cpp:906-932 (and 970-993): the average temperature of period `k`, not below `lower`; `first` is the start of
the first period, the later ones start at the free-running temperature but not below `lower` -/
def segment (p : Periods α) (first start lower : α) (k : Nat) : α :=
  let s := if k = 0 then first else cmax (freeTemp p start k) lower
  cmax (periodAverage p s k) lower

/-- MonthlyModel.cpp:933-942 (and 1000-1009): weekend average and the value used for week nights (that of period 1) -/
def weekend (p : Periods α) (first start lower : α) : α × α :=
  (csum ((List.range 5).map (segment p first start lower)) / 5.0, segment p first start lower 1)

/-- MonthlyModel.cpp:869-945: (weekend average, week night) heating temperatures of a month -/
def heatingTemps (x : Sim α) (p : Periods α) (ht_tset_ctrl : α) : α × α :=
  bif ceq x.heating.T_ht_ctrl_flag 1.0 then
    weekend p ht_tset_ctrl ht_tset_ctrl x.heating.temperatureSetPointUnoccupied
  else (ht_tset_ctrl, ht_tset_ctrl)

/-- MonthlyModel.cpp:948-1010: (weekend average, week night) cooling temperatures of a month -/
def coolingTemps (x : Sim α) (p : Periods α) (ht_tset_ctrl cl_tset_ctrl : α) : α × α :=
  bif ceq x.cooling.T_cl_ctrl_flag 1.0 then
    weekend p (cmin ht_tset_ctrl x.cooling.temperatureSetPointUnoccupied) cl_tset_ctrl x.cooling.temperatureSetPointUnoccupied
  else (cl_tset_ctrl, cl_tset_ctrl)

/-- MonthlyModel.cpp:836-861, one month -/
def periods (x : Sim α) (o : Occupancy α) (b : Breakdown α) (g : UnoccupiedGains α) (H_tr : α) (m : Fin 12) : Periods α :=
  let H_tot := H_tr + x.ventilation.H_ve
  { Te := period (b.v_Tdbt_nt m) (b.v_Tdbt_day m) (b.v_Tdbt_nt m)
    dT := period (g.v_P_tot_wk_nt m / H_tot) (g.v_P_tot_wke_day m / H_tot) (g.v_P_tot_wke_nt m / H_tot)
    ti := period o.hoursUnoccupiedPerDay o.hoursOccupiedPerDay o.hoursUnoccupiedPerDay
    tau := timeConstant x H_tr }

/-- MonthlyModel.cpp:1019-1020: average of a week -/
def weekAverage (o : Occupancy α) (wk_day wk_nt wke_avg : α) : α :=
  wk_day * o.frac_hrs_wk_day + wk_nt * o.frac_hrs_wk_nt + wke_avg * o.frac_hrs_wke_tot

/-- MonthlyModel.cpp:759-1032, given the shift: (v_Th_avg, v_Tc_avg) -/
def interiorTemp (x : Sim α) (o : Occupancy α) (b : Breakdown α) (g : UnoccupiedGains α) (H_tr T_adj : α) :
    (Fin 12 → α) × (Fin 12 → α) :=
  let ht_tset_ctrl := x.heating.temperatureSetPointOccupied - T_adj
  let cl_tset_ctrl := x.cooling.temperatureSetPointOccupied + T_adj
  (fun m =>
    let t := heatingTemps x (periods x o b g H_tr m) ht_tset_ctrl
    cmin (weekAverage o ht_tset_ctrl t.2 t.1) ht_tset_ctrl,
   fun m =>
    let t := coolingTemps x (periods x o b g H_tr m) ht_tset_ctrl cl_tset_ctrl
    cmin (weekAverage o cl_tset_ctrl t.2 t.1) cl_tset_ctrl)

/-! ## ventilationCalc (MonthlyModel.cpp:1038-1172) -/

/-- MonthlyModel.cpp:1044: L/s to the unit used for flows -/
def supplyFlow (x : Sim α) : α := x.ventilation.supplyRate / x.bldg.floorArea / 3.6

/-- MonthlyModel.cpp:1047-1053: supply minus exhaust -/
def flowDifference (x : Sim α) : α :=
  let qv_ext := -(supplyFlow x - x.ventilation.supplyDifference / x.bldg.floorArea / 3.6)
  supplyFlow x + qv_ext + 0.0

/-- MonthlyModel.cpp:1077-1089 (and 1092-1105), one month: stack flow -/
def stackFlow (x : Sim α) (indoor : Fin 12 → α) (m : Fin 12) : α :=
  let h_stack := x.ventilation.zone_frac * cmax 0.1 x.bldg.buildingHeight
  let d := cpow (cabs (x.weather.mdbt m - indoor m) * h_stack) x.ventilation.stack_exp
  cmax (d * (x.ventilation.stack_coeff * x.bldg.infiltrationRate)) 0.001

/-- MonthlyModel.cpp:1109-1112, one month: wind flow -/
def windFlow (x : Sim α) (m : Fin 12) : α :=
  cpow (x.weather.mwind m * x.weather.mwind m * (x.ventilation.dCp * x.terrain)) x.ventilation.wind_exp
    * x.bldg.infiltrationRate * x.ventilation.wind_coeff

/-- MonthlyModel.cpp:1116-1130, one month: infiltration -/
def infiltration (x : Sim α) (indoor : Fin 12 → α) (m : Fin 12) : α :=
  let sw := cmax (stackFlow x indoor m) (windFlow x m)
    + vdiv (stackFlow x indoor m * windFlow x m * 0.14) x.bldg.infiltrationRate
  sw + cmax 0.0 (-flowDifference x)

/-- MonthlyModel.cpp:1145-1156: fraction of time the ventilation runs -/
def operatingFraction (x : Sim α) (frac_hrs_wk_day : α) : α :=
  if x.ventilation.vent_rate_flag = 0 then 1.0
  else if x.ventilation.vent_rate_flag = 1 then frac_hrs_wk_day
  else frac_hrs_wk_day + (1.0 - frac_hrs_wk_day) * x.pop.densityOccupied / x.pop.densityUnoccupied

/-- MonthlyModel.cpp:1158: mechanical part -/
def mechanicalFlow (x : Sim α) (frac_hrs_wk_day : α) : α :=
  bif ceq x.ventilation.ventType 3.0 then 0.0
  else operatingFraction x frac_hrs_wk_day * supplyFlow x * (1.0 - x.ventilation.exhaustAirRecirculated)
    * (1.0 - x.ventilation.heatRecoveryEfficiency)

/-- MonthlyModel.cpp:1163-1171, one month, for the given indoor temperatures: `v_Hve_ht` or `v_Hve_cl` -/
def ventilationCalc (x : Sim α) (frac_hrs_wk_day : α) (indoor : Fin 12 → α) (m : Fin 12) : α :=
  vdiv ((infiltration x indoor m + mechanicalFlow x frac_hrs_wk_day) * (x.phys.rhoCpAir * 1000000.0)) 3600.0

/-! ## heatingAndCooling (MonthlyModel.cpp:1177-1271) -/

/-- MonthlyModel.cpp:1182-1185, one month: internal and solar gains in MJ -/
def monthlyGain (phi_I_tot : α) (v_E_sol : Fin 12 → α) (m : Fin 12) : α := megasecondsInMonth m * phi_I_tot + v_E_sol m

/-- MonthlyModel.cpp:1191-1195, one month: heat loss for heating -/
def heatLossHeating (x : Sim α) (H_tr : α) (v_Th_avg v_Hve_ht : Fin 12 → α) (m : Fin 12) : α :=
  (v_Th_avg m - x.weather.mdbt m) * megasecondsInMonth m * H_tr
    + v_Hve_ht m * x.bldg.floorArea * (v_Th_avg m - x.weather.mdbt m) * megasecondsInMonth m

/-- MonthlyModel.cpp:1214-1218, one month: heat loss for cooling -/
def heatLossCooling (x : Sim α) (H_tr : α) (v_Tc_avg v_Hve_cl : Fin 12 → α) (m : Fin 12) : α :=
  (v_Tc_avg m - x.weather.mdbt m) * H_tr * megasecondsInMonth m
    + v_Hve_cl m * x.bldg.floorArea * (v_Tc_avg m - x.weather.mdbt m) * megasecondsInMonth m

/-- MonthlyModel.cpp:1205-1206: heating utilisation factor for the gain/loss ratio `gamma` -/
def etaHeating (a_H gamma : α) : α :=
  bif clt 0.0 gamma then (1.0 - cpow gamma a_H) / (1.0 - cpow gamma (a_H + 1.0)) else 1.0 / (gamma + dblMin)

/-- MonthlyModel.cpp:1232: cooling utilisation factor for the loss/gain ratio `gamma` -/
def etaCooling (a_H gamma : α) : α :=
  bif clt 0.0 gamma then (1.0 - cpow gamma a_H) / (1.0 - cpow gamma (a_H + 1.0)) else 1.0

/-- MonthlyModel.cpp:1198-1210, one month: heating need from gain and loss -/
def heatingNeed (a_H gain loss : α) : α := loss - etaHeating a_H (vdiv gain (loss + dblMin)) * gain

/-- MonthlyModel.cpp:1221-1236, one month: cooling need from gain and loss -/
def coolingNeed (a_H gain loss : α) : α := gain - etaCooling a_H (vdiv loss (gain + dblMin)) * loss

/-- the reference parameters filled by `heatingAndCooling` -/
structure Needs (α : Type) where
  v_Qfan_tot : Fin 12 → α
  v_Qneed_ht : Fin 12 → α
  v_Qneed_cl : Fin 12 → α
  Qneed_ht_yr : α
  Qneed_cl_yr : α

/-- MonthlyModel.cpp:1240-1270, one month: fan energy per floor area -/
def fanUse (x : Sim α) (frac_hrs_wk_day : α) (need_ht need_cl Th Tc : α) (m : Fin 12) : α :=
  let T_sup_ht := x.heating.temperatureSetPointOccupied + x.heating.dT_supp_ht
  let T_sup_cl := x.cooling.temperatureSetPointOccupied - x.cooling.dT_supp_cl
  let Vair_ht := vdiv need_ht ((T_sup_ht - Th) * x.phys.rhoCpAir + dblMin)
  let Vair_cl := vdiv need_cl ((Tc - T_sup_cl) * x.phys.rhoCpAir + dblMin)
  let Vair_tot := cmax (Vair_ht + Vair_cl)
    (vdiv (megasecondsInMonth m * (x.ventilation.supplyRate * frac_hrs_wk_day * 1000000.0)) 1000.0)
  let fanEnergy := Vair_tot * (x.ventilation.fanPower * x.ventilation.fanControlFactor / 1000.0)
  vdiv (vdiv fanEnergy x.bldg.floorArea) 3.6

/-- MonthlyModel.cpp:1177-1271 -/
def heatingAndCooling (x : Sim α) (v_E_sol v_Th_avg v_Hve_ht v_Tc_avg v_Hve_cl : Fin 12 → α)
    (tau H_tr phi_I_tot frac_hrs_wk_day : α) : Needs α :=
  let a_H := x.heating.a_H0 + tau / x.heating.tau_H0
  let need_ht := fun m => heatingNeed a_H (monthlyGain phi_I_tot v_E_sol m) (heatLossHeating x H_tr v_Th_avg v_Hve_ht m)
  let need_cl := fun m => coolingNeed a_H (monthlyGain phi_I_tot v_E_sol m) (heatLossCooling x H_tr v_Tc_avg v_Hve_cl m)
  { v_Qfan_tot := fun m => fanUse x frac_hrs_wk_day (need_ht m) (need_cl m) (v_Th_avg m) (v_Tc_avg m) m
    v_Qneed_ht := need_ht
    v_Qneed_cl := need_cl
    Qneed_ht_yr := vsum need_ht
    Qneed_cl_yr := vsum need_cl }

/-! ## hvac (MonthlyModel.cpp:1276-1410) -/

/-- MonthlyModel.cpp:1310-1318: distribution efficiencies for heating and cooling -/
def distribution (x : Sim α) (Qneed_ht_yr Qneed_cl_yr : α) : α × α :=
  let f_waste := x.heating.hotcoldWasteFactor
  let f_dem_ht := cmax (Qneed_ht_yr / (Qneed_cl_yr + Qneed_ht_yr)) 0.1
  let f_dem_cl := cmax (1.0 - f_dem_ht) 0.1
  (1.0 / (1.0 + x.heating.hvacLossFactor + f_waste / f_dem_ht), 1.0 / (1.0 + x.cooling.hvacLossFactor + f_waste / f_dem_cl))

/-- MonthlyModel.cpp:1321-1323: distribution loss of a month -/
def distributionLoss (need eta : α) : α := vdiv (need * (1.0 - eta)) eta

/-- the reference parameters filled by `hvac` -/
structure Carriers (α : Type) where
  v_Qelec_ht : Fin 12 → α
  v_Qgas_ht : Fin 12 → α
  v_Qcl_elec_tot : Fin 12 → α
  v_Qcl_gas_tot : Fin 12 → α

/-- MonthlyModel.cpp:1327-1338, heating: (own system, district) for the delivered energy of a month -/
def heatingSplit (h : Heating α) (need loss : α) : α × α :=
  bif ceq h.DH_YesNo 1.0 then (0.0, need + loss) else (vdiv (loss + need) (h.efficiency + dblMin), 0.0)

/-- MonthlyModel.cpp:1329-1344, cooling -/
def coolingSplit (c : Cooling α) (need loss : α) : α × α :=
  bif ceq c.DC_YesNo 1.0 then (0.0, need + loss) else (vdiv (loss + need) (c.cop * c.partialLoadValue + dblMin), 0.0)

/-- MonthlyModel.cpp:1276-1410 -/
def hvac (x : Sim α) (n : Needs α) : Carriers α :=
  let eta := distribution x n.Qneed_ht_yr n.Qneed_cl_yr
  let ht := fun m => heatingSplit x.heating (n.v_Qneed_ht m) (distributionLoss (n.v_Qneed_ht m) eta.1)
  let cl := fun m => coolingSplit x.cooling (n.v_Qneed_cl m) (distributionLoss (n.v_Qneed_cl m) eta.2)
  let v_Qcl_DC_elec := fun m => vdiv ((cl m).2 * (1.0 - x.cooling.eta_DC_frac_abs)) (x.cooling.eta_DC_COP * x.cooling.eta_DC_network)
  let v_Qcl_DC_abs := fun m => vdiv ((cl m).2 * (1.0 - x.cooling.frac_DC_free)) x.cooling.eta_DC_COP_abs
  let v_Qht_DH_total := fun m => vdiv ((ht m).2 * (1.0 - x.heating.frac_DH_free)) (x.heating.eta_DH_sys * x.heating.eta_DH_network)
  { v_Qcl_elec_tot := fun m => (cl m).1 + v_Qcl_DC_elec m
    v_Qcl_gas_tot := v_Qcl_DC_abs
    v_Qelec_ht := fun m => bif ceq x.heating.energyType 1.0 then (ht m).1 else 0.0
    v_Qgas_ht := fun m => bif ceq x.heating.energyType 1.0 then v_Qht_DH_total m else (ht m).1 + v_Qht_DH_total m }

/-! ## pump (MonthlyModel.cpp:1416-1460) -/

/-- MonthlyModel.cpp:1434-1435 and 1439-1441: a total spread over the months in proportion to `frac` -/
def spread (frac : Fin 12 → α) (total : α) (m : Fin 12) : α := vdiv (frac m * total) (vsum frac)

/-- MonthlyModel.cpp:1427-1436 (heating) and 1429, 1440-1446 (cooling): annual energy of one of the two pump systems -/
def pumpYear (E_pumps pumpControlReduction floorArea : α) : α :=
  vsum (fun m : Fin 12 => megasecondsInMonth m * E_pumps) * pumpControlReduction * floorArea

/-- MonthlyModel.cpp:1416-1460: `v_Q_pump_tot` -/
def pump (x : Sim α) (n : Needs α) : Fin 12 → α :=
  let both := fun m => n.v_Qneed_ht m + n.v_Qneed_cl m
  let Q_pumps_ht := pumpYear x.heating.E_pumps x.heating.pumpControlReduction x.bldg.floorArea
  let v_Q_pumps_ht := spread (fun m => vdiv (n.v_Qneed_ht m) (both m)) Q_pumps_ht
  let Q_pumps_cl := pumpYear x.cooling.E_pumps x.cooling.pumpControlReduction x.bldg.floorArea
  let v_Q_pumps_cl := spread (fun m => vdiv (n.v_Qneed_cl m) (both m)) Q_pumps_cl
  let v_frac_tot := fun m => vdiv (both m) (n.Qneed_ht_yr + n.Qneed_cl_yr)
  bif ceq Q_pumps_ht 0.0 || ceq Q_pumps_cl 0.0 then fun m => v_Q_pumps_ht m + v_Q_pumps_cl m
  else spread v_frac_tot (Q_pumps_ht + Q_pumps_cl)

/-! ## heatedWater (MonthlyModel.cpp:1474-1511) -/

/-- MonthlyModel.cpp:1481-1492, one month: hot water energy before the choice of the fuel -/
def hotWaterNeed (x : Sim α) (m : Fin 12) : α :=
  let Q_dhw_yr := x.heating.hotWaterDemand * (x.heating.dhw_tset - x.heating.dhw_tsupply) * x.phys.rhoCpWater
  let monthly := vdiv (daysInMonth m * Q_dhw_yr) 365.0
  let demand := vdiv (vdiv monthly x.heating.hotWaterDistributionEfficiency) kWh2MJ
  cmax (vdiv (demand - 0.0) x.heating.hotWaterSystemEfficiency) 0.0

/-- MonthlyModel.cpp:1474-1511: (v_Q_dhw_elec, v_Q_dhw_gas) -/
def heatedWater (x : Sim α) : (Fin 12 → α) × (Fin 12 → α) :=
  bif ceq x.heating.hotWaterEnergyType 1.0 then (hotWaterNeed x, fun _ => 0.0) else (fun _ => 0.0, hotWaterNeed x)

/-! ## outputGeneration and simulate (MonthlyModel.cpp:1513-1822) -/

/-- the arguments of `outputGeneration` -/
structure Figures (α : Type) where
  v_Qelec_ht : Fin 12 → α
  v_Qcl_elec_tot : Fin 12 → α
  v_Q_illum_tot : Fin 12 → α
  v_Q_illum_ext_tot : Fin 12 → α
  v_Qfan_tot : Fin 12 → α
  v_Q_pump_tot : Fin 12 → α
  v_Q_dhw_elec : Fin 12 → α
  v_Qgas_ht : Fin 12 → α
  v_Qcl_gas_tot : Fin 12 → α
  v_Q_dhw_gas : Fin 12 → α
  frac_hrs_wk_day : α

/-- MonthlyModel.cpp:1728-1737, one month: plug load in kWh/m2 -/
def plugLoad (occupied unoccupied frac_hrs_wk_day : α) (m : Fin 12) : α :=
  vdiv (hoursInMonth m * (occupied * frac_hrs_wk_day + unoccupied * (1.0 - frac_hrs_wk_day))) 1000.0

/-- MonthlyModel.cpp:1719-1800, one month: the thirteen end uses (standalone branch) -/
def monthEndUses (x : Sim α) (f : Figures α) (m : Fin 12) : Hourly.EndUses α :=
  let perArea := fun v => vdiv v x.bldg.floorArea
  let perAreaMJ := fun v => vdiv (vdiv v x.bldg.floorArea) kWh2MJ
  let b := x.building
  ![perAreaMJ (f.v_Qelec_ht m),
    perAreaMJ (f.v_Qcl_elec_tot m),
    perArea (f.v_Q_illum_tot m),
    perArea (f.v_Q_illum_ext_tot m),
    f.v_Qfan_tot m,
    perAreaMJ (f.v_Q_pump_tot m),
    plugLoad b.electricApplianceHeatGainOccupied b.electricApplianceHeatGainUnoccupied f.frac_hrs_wk_day m,
    0.0,
    perArea (f.v_Q_dhw_elec m),
    perAreaMJ (f.v_Qgas_ht m),
    perAreaMJ (f.v_Qcl_gas_tot m),
    plugLoad b.gasApplianceHeatGainOccupied b.gasApplianceHeatGainUnoccupied f.frac_hrs_wk_day m,
    perArea (f.v_Q_dhw_gas m)]

/-- MonthlyModel.cpp:1719-1803: one result per month -/
def outputGeneration (x : Sim α) (f : Figures α) : List (Hourly.EndUses α) := (List.finRange 12).map (monthEndUses x f)

/-- the intermediate results of `simulate` from the schedule up to the needs (MonthlyModel.cpp:1517-1546 local variables) -/
structure Stages (α : Type) where
  o : Occupancy α
  b : Breakdown α
  l : LightingUse α
  H_tr : α
  areas : SolarAreas α
  v_E_sol : Fin 12 → α
  g : InternalGains α
  phi_I_tot : α
  unocc : UnoccupiedGains α
  T_adj : α
  v_Th_avg : Fin 12 → α
  v_Tc_avg : Fin 12 → α
  v_Hve_ht : Fin 12 → α
  v_Hve_cl : Fin 12 → α
  needs : Needs α

/-- MonthlyModel.cpp:1553-1686 (the calls up to `heatingAndCooling`), for defined sub-results -/
def stagesWith (x : Sim α) (b : Breakdown α) (areas : SolarAreas α) (T_adj : α) : Stages α :=
  let o := scheduleAndOccupancy x.pop
  let l := lightingEnergyUse x b.v_hrs_sun_down_mo
  let H_tr := envelopCalculations x.bldg
  let v_E_sol := solarHeatGain x.bldg x.weather areas
  let g := heatGainsAndLosses x o.frac_hrs_wk_day l
  let phi_I_tot := internalHeatGain x.bldg g
  let unocc := unoccupiedHeatGain x.bldg g o b v_E_sol
  let T := interiorTemp x o b unocc H_tr T_adj
  let v_Hve_ht := ventilationCalc x o.frac_hrs_wk_day T.1
  let v_Hve_cl := ventilationCalc x o.frac_hrs_wk_day T.2
  { o := o, b := b, l := l, H_tr := H_tr, areas := areas, v_E_sol := v_E_sol, g := g, phi_I_tot := phi_I_tot, unocc := unocc,
    T_adj := T_adj, v_Th_avg := T.1, v_Tc_avg := T.2, v_Hve_ht := v_Hve_ht, v_Hve_cl := v_Hve_cl,
    needs := heatingAndCooling x v_E_sol T.1 v_Hve_ht T.2 v_Hve_cl (timeConstant x H_tr) H_tr phi_I_tot o.frac_hrs_wk_day }

/-- MonthlyModel.cpp:1553-1686; `none` is undefined behaviour in one of the functions -/
def stages (x : Sim α) : Option (Stages α) := do
  let b ← solarRadiationBreakdown x.weather (scheduleAndOccupancy x.pop)
  let areas ← windowSolarGain x.bldg
  let T_adj ← managementShift x.building.buildingEnergyManagement
  return stagesWith x b areas T_adj

/-- MonthlyModel.cpp:1687-1717: the arguments of `outputGeneration` -/
def figures (x : Sim α) (s : Stages α) : Figures α :=
  let c := hvac x s.needs
  let w := heatedWater x
  { v_Qelec_ht := c.v_Qelec_ht
    v_Qcl_elec_tot := c.v_Qcl_elec_tot
    v_Q_illum_tot := s.l.v_Q_illum_tot
    v_Q_illum_ext_tot := s.l.v_Q_illum_ext_tot
    v_Qfan_tot := s.needs.v_Qfan_tot
    v_Q_pump_tot := pump x s.needs
    v_Q_dhw_elec := w.1
    v_Qgas_ht := c.v_Qgas_ht
    v_Qcl_gas_tot := c.v_Qcl_gas_tot
    v_Q_dhw_gas := w.2
    frac_hrs_wk_day := s.o.frac_hrs_wk_day }

/-- MonthlyModel.cpp:1513-1718: the monthly simulation; it changes no member (`const`). -/
def simulate (x : Sim α) : Option (List (Hourly.EndUses α)) := do
  let s ← stages x
  return outputGeneration x (figures x s)

end ISO.Monthly
