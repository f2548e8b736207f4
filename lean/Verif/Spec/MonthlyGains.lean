import Verif.Spec.Monthly

/-! # Specification: lighting and solar gains of the monthly method -/

namespace ISO.Spec
open ISO

/-- hours of a day the occupancy window and the lighting day have in common -/
noncomputable def litByDay (x : Sim ℝ) : ℝ := min x.pop.hoursEnd x.lights.n_day_end - max x.pop.hoursStart x.lights.n_day_start

/-- hours of the occupancy window before and after the lighting day -/
noncomputable def litByNight (x : Sim ℝ) : ℝ :=
  max 0 (x.lights.n_day_start - x.pop.hoursStart) + max 0 (x.pop.hoursEnd - x.lights.n_day_end)

/-- days of a year with lighting -/
noncomputable def litDays (x : Sim ℝ) : ℝ := windowDays x.pop * x.lights.n_weeks

/-- Lighting data as one expects them: the window meets the lighting day, and lighting hours do not exceed the year. -/
structure LightingData (x : Sim ℝ) : Prop where
  overlap : 0 ≤ litByDay x
  notJustBefore : x.pop.daysEnd < x.pop.daysStart → x.pop.daysEnd + 1 < x.pop.daysStart
  days : 0 ≤ litDays x
  year : litDays x * (x.pop.hoursEnd - x.pop.hoursStart) ≤ 8760
  floorArea : 0 ≤ x.bldg.floorArea
  occupied : 0 ≤ x.lights.powerDensityOccupied
  unoccupied : 0 ≤ x.lights.powerDensityUnoccupied
  dimming : 0 ≤ x.lights.dimmingFraction
  sensor : 0 ≤ x.building.lightingOccupancySensor
  constant : 0 ≤ x.building.constantIllumination

open Classical in
/-- shading reduction for the shading device codes 1 (one half), 2 (35 %) and 3 (no reduction); digits after the point do not count -/
noncomputable def shading (code : ℝ) : ℝ := if code < 2 then 1 / 2 else if code < 3 then 35 / 100 else 1

/-- solar irradiance on a facade: the eight vertical ones, then the roof -/
noncomputable def irradianceOn (w : WeatherData ℝ) (m : Fin 12) (j : Fin 9) : ℝ :=
  if h : j.val < 8 then w.msolar m ⟨j.val, h⟩ else w.mEgh m

/-- share of the sky a surface sees: half of it for a wall, all of it for the roof -/
noncomputable def skyView (j : Fin 9) : ℝ := if j.val < 8 then 1 / 2 else 1

/-- heat that enters through the windows (W): irradiance times area, reduced by frame, glazing, shading device and obstacles -/
noncomputable def windowHeat (s : Structure ℝ) (w : WeatherData ℝ) (m : Fin 12) : ℝ :=
  ∑ j, irradianceOn w m j * (s.windowArea j * (1 - s.win_ff) * (s.windowNormalIncidenceSolarEnergyTransmittance j * s.win_F_W)
    * shading (s.windowShadingDevice j) * s.windowShadingCorrectionFactor j)

/-- heat the opaque surfaces pass on (W) -/
noncomputable def opaqueHeat (s : Structure ℝ) (w : WeatherData ℝ) (m : Fin 12) : ℝ :=
  ∑ j, irradianceOn w m j * (s.wallSolarAbsorption j * s.R_sc_ext * s.wallUniform j * s.wallArea j)

/-- heat the opaque surfaces lose to the sky (W): 11 K colder, radiation coefficient 5 W/m2K times emissivity -/
noncomputable def skyLoss (s : Structure ℝ) : ℝ :=
  ∑ j, skyView j * (s.R_sc_ext * s.wallUniform j * s.wallArea j * (5 * s.wallThermalEmissivity j) * 11)

end ISO.Spec
