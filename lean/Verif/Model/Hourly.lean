import Verif.Model.Data

/-!
# The hourly (5R1C) model: HourlyModel.cpp

`calculateHour` is split into stages; each stage lists the lines it models.  Everything is generic in
the number type (`Dbl` is the program, `ℝ` the formulas).
-/

namespace ISO.Hourly
open ISO CNum
variable {α : Type} [CNum α]

/-! ## initialize (HourlyModel.cpp:386-498) -/

/-- HourlyModel.cpp:390-405: lighting control → (maxRatioElectricLighting, elightNatural). -/
def lightingControl (sensor dimming : α) (l : Lighting α) : α × α :=
  bif clt sensor 1.0 && clt dimming 1.0 then (l.presenceAutoAd, l.presenceAutoLux)
  else bif clt sensor 1.0 then (l.presenceSensorAd, l.presenceSensorLux)
  else bif clt dimming 1.0 then (l.automaticAd, l.automaticLux)
  else (l.manualSwitchAd, l.manualSwitchLux)

/-- HourlyModel.cpp:222-227 (hpp), the six per-facade results of `structureCalculations`. -/
structure Facade (α : Type) where
  nlams : α
  nla : α
  sams : α
  sa : α
  htot : α
  hWindow : α

/-- HourlyModel.cpp:533-550. -/
def structureCalculations (R_se SHGC wallArea windowArea wallU windowU wallAbs solarFactorWith
    solarFactorWithout : α) : Facade α :=
  let windowT := SHGC / 0.87
  { nlams := windowArea * windowT
    nla := windowArea * windowT
    sams := wallArea * (wallAbs * wallU * R_se) + windowArea * solarFactorWith
    sa := wallArea * (wallAbs * wallU * R_se) + windowArea * solarFactorWithout
    htot := wallArea * wallU + windowArea * windowU
    hWindow := windowArea * windowU }

/-- HourlyModel.cpp:411-419: the call of `structureCalculations` for facade `i`
(the shading device value is passed as `SHGC`, the shading correction factor as `solarFactorWith` and
the transmittance as `solarFactorWithout`). -/
def facade (s : Structure α) (i : Fin 9) : Facade α :=
  structureCalculations s.R_se (s.windowShadingDevice i) (s.wallArea i) (s.windowArea i)
    (s.wallUniform i) (s.windowUniform i) (s.wallSolarAbsorption i)
    (s.windowShadingCorrectionFactor i) (s.windowNormalIncidenceSolarEnergyTransmittance i)

/-- The six member vectors filled by `push_back` in `initialize` (HourlyModel.hpp:180-186), read at
the indices 0..8 by `calculateHour`. -/
structure Ratios (α : Type) where
  nlaWMovableShading : Fin 9 → α
  naturalLightRatio : Fin 9 → α
  naturalLightShadeRatioReduction : Fin 9 → α
  saWMovableShading : Fin 9 → α
  solarRatio : Fin 9 → α
  solarShadeRatioReduction : Fin 9 → α

/-- HourlyModel.cpp:421-427 for an object whose member vectors were empty (first `simulate`). -/
def freshRatios (s : Structure α) : Ratios α where
  nlaWMovableShading i := (facade s i).nlams / s.floorArea
  naturalLightRatio i := (facade s i).nla / s.floorArea
  naturalLightShadeRatioReduction i := (facade s i).nlams / s.floorArea - (facade s i).nla / s.floorArea
  saWMovableShading i := (facade s i).sams / s.floorArea
  solarRatio i := (facade s i).sa / s.floorArea
  solarShadeRatioReduction i := (facade s i).sams / s.floorArea - (facade s i).sa / s.floorArea

/-- HourlyModel.cpp:453-463: effective mass area per floor area. -/
def amOfCm (Cm : α) : α :=
  bif clt 370.0 Cm then 3.5
  else bif clt 260.0 Cm then 3.0 + 0.5 * ((Cm - 260.0) / 110.0)
  else bif clt 165.0 Cm then 2.5 + 0.5 * ((Cm - 165.0) / 95.0)
  else 2.5

/-- HourlyModel.hpp:159-216: the scalar member variables set by `initialize`. -/
structure Consts (α : Type) where
  maxRatioElectricLighting : α
  elightNatural : α
  areaNaturallyLightedRatio : α
  shadingUsePerWPerM2 : α
  q4Pa : α
  h_ms : α
  h_is : α
  H_tris : α
  Cm : α
  Am : α
  hwindowWperkm2 : α
  prs : α
  prsInterior : α
  prsSolar : α
  prm : α
  prmInterior : α
  prmSolar : α
  H_ms : α
  hOpaqueWperkm2 : α
  hem : α
  windImpactHz : α
  windImpactSupplyRatio : α

/-- list of the nine facades (loop `for i = 0; i != 9`) -/
def nine (f : Fin 9 → α) : List α := List.ofFn f

/-- HourlyModel.cpp:390-408, 430-497 (everything of `initialize` except the `push_back` vectors).
Line 449 sums `structure.wallArea()`; lines 465-471 are the two running sums `hWind`, `hWall`. -/
def initConsts (x : Sim α) : Consts α :=
  let s := x.bldg
  let lc := lightingControl x.building.lightingOccupancySensor x.lights.dimmingFraction x.lights
  let areaNaturallyLighted := cmax 0.0001 x.lights.naturallyLightedArea
  let buildingv8 := 0.19 * (x.ventilation.n50 * (s.floorArea * s.buildingHeight))
  let h_ms := x.simSettings.hci + x.simSettings.hri * 1.2
  let h_is := 1.0 / (1.0 / x.simSettings.hci - 1.0 / h_ms)
  let Cm_int := s.interiorHeatCapacity / 1000.0
  let Cm_env := (s.wallHeatCapacity * csum (nine s.wallArea) / s.floorArea) / 1000.0
  let Cm := Cm_int + Cm_env
  let Am := amOfCm Cm
  let hWind := csum (nine fun i => (facade s i).hWindow)
  let hWall := csum (nine fun i => (facade s i).htot - (facade s i).hWindow)
  let hwindowWperkm2 := hWind / s.floorArea
  let prs := (s.totalAreaPerFloorArea - Am - hwindowWperkm2 / h_ms) / s.totalAreaPerFloorArea
  let prm := Am / s.totalAreaPerFloorArea
  let H_ms := h_ms * Am
  let hOpaqueWperkm2 := cmax (hWall / s.floorArea) 0.000001
  { maxRatioElectricLighting := lc.1
    elightNatural := lc.2
    areaNaturallyLightedRatio := areaNaturallyLighted / s.floorArea
    shadingUsePerWPerM2 := s.shadingFactorAtMaxUse / s.irradianceForMaxShadingUse
    q4Pa := cmax 0.000001 (buildingv8 / s.floorArea)
    h_ms := h_ms
    h_is := h_is
    H_tris := h_is * s.totalAreaPerFloorArea
    Cm := Cm
    Am := Am
    hwindowWperkm2 := hwindowWperkm2
    prs := prs
    prsInterior := (1.0 - x.simSettings.phiIntFractionToAirNode) * prs
    prsSolar := (1.0 - x.simSettings.phiSolFractionToAirNode) * prs
    prm := prm
    prmInterior := (1.0 - x.simSettings.phiIntFractionToAirNode) * prm
    prmSolar := (1.0 - x.simSettings.phiSolFractionToAirNode) * prm
    H_ms := H_ms
    hOpaqueWperkm2 := hOpaqueWperkm2
    hem := 1.0 / (1.0 / hOpaqueWperkm2 - 1.0 / H_ms)
    windImpactHz := cmax 0.1 x.ventilation.hzone
    windImpactSupplyRatio := cmax 0.00001 x.ventilation.fanControlFactor }

/-! ## populateSchedules (HourlyModel.cpp:500-531) -/

/-- The seven schedule values of one (hour of day, day of week) cell. -/
structure Schedule (α : Type) where
  ventilation : α
  exteriorEquipment : α
  interiorEquipment : α
  exteriorLighting : α
  interiorLighting : α
  heatingSetpoint : α
  coolingSetpoint : α

/-- The occupancy window after the `(int)` casts of HourlyModel.cpp:502-505. -/
structure Window where
  dayStart : Int
  dayEnd : Int
  hourStart : Int
  hourEnd : Int

/-- HourlyModel.cpp:502-505; `none` is the undefined behaviour of an out-of-range cast. -/
def window (p : Population α) : Option Window := do
  let ds ← cint p.daysStart
  let de ← cint p.daysEnd
  let hs ← cint p.hoursStart
  let he ← cint p.hoursEnd
  pure ⟨ds, de, hs, he⟩

/-- HourlyModel.cpp:508-530: the schedule cell `[h][d]`. -/
def scheduleCell (x : Sim α) (w : Window) (h d : Int) : Schedule α :=
  let hoccupied := decide (w.hourStart ≤ h) && decide (h ≤ w.hourEnd)
  let doccupied := decide (w.dayStart ≤ d) && decide (d ≤ w.dayEnd)
  let popoccupied := hoccupied && doccupied
  { ventilation := bif hoccupied then x.ventilation.supplyRate else 0.0
    exteriorEquipment := x.building.externalEquipment
    interiorEquipment := bif popoccupied then x.building.electricApplianceHeatGainOccupied
      else x.building.electricApplianceHeatGainUnoccupied
    exteriorLighting := 1.0
    interiorLighting := bif popoccupied then x.lights.powerDensityOccupied
      else x.lights.powerDensityUnoccupied
    heatingSetpoint := bif popoccupied then x.heating.temperatureSetPointOccupied
      else x.heating.temperatureSetPointUnoccupied
    coolingSetpoint := bif popoccupied then x.cooling.temperatureSetPointOccupied
      else x.cooling.temperatureSetPointUnoccupied }

/-! ## calculateHour (HourlyModel.cpp:189-383) -/

/-- Weather of one hour: wind, dry bulb temperature and radiation on the 8 facades and the roof
(HourlyModel.cpp:42-52, 66-68). -/
structure HourWeather (α : Type) where
  windMps : α
  temperature : α
  solarRadiation : Fin 9 → α

/-- HourlyModel.cpp:223-231: electricForTotalLightArea. -/
def electricForTotalLightArea (s : Structure α) (c : Consts α) (r : Ratios α) (sol : Fin 9 → α) : α :=
  let lightingContribution := nine fun i =>
    53.0 / c.areaNaturallyLightedRatio * sol i
      * (r.naturalLightRatio i + c.shadingUsePerWPerM2 * r.naturalLightShadeRatioReduction i
          * cmin s.irradianceForMaxShadingUse (sol i))
  let lightingLevel := csum lightingContribution
  let electricForNaturalLightArea :=
    cmax 0.0 (c.maxRatioElectricLighting * (1.0 - lightingLevel / c.elightNatural))
  electricForNaturalLightArea * c.areaNaturallyLightedRatio
    + (1.0 - c.areaNaturallyLightedRatio) * c.maxRatioElectricLighting

/-- HourlyModel.cpp:249-256: qSolarHeatGain. -/
def qSolarHeatGain (s : Structure α) (c : Consts α) (r : Ratios α) (sol : Fin 9 → α) : α :=
  csum (nine fun i =>
    sol i * (r.solarRatio i + r.solarShadeRatioReduction i * c.shadingUsePerWPerM2
      * cmin (sol i) s.irradianceForMaxShadingUse))

/-- Result of the air-flow stage. -/
structure Air (α : Type) where
  qSupplyBySystem : α
  qEnvelope : α
  qEnteringTotal : α
  tEnteringAndSupplied : α

/-- HourlyModel.cpp:267-283: infiltration and ventilation; `tiHeatCool` is the air temperature at the
end of the previous hour, `vent` is `ventExhaustM3phpm2` (line 208). -/
def airFlow (v : Ventilation α) (c : Consts α) (vent temperature windMps tiHeatCool : α) : Air α :=
  let qSupplyBySystem := vent * c.windImpactSupplyRatio
  let exhaustSupply := -(qSupplyBySystem - vent)
  let tAfterExchange := (1.0 - v.heatRecoveryEfficiency) * temperature + v.heatRecoveryEfficiency * 20.0
  let tSuppliedAir := cmax v.ventPreheatDegC tAfterExchange
  let qWind := 0.0769 * c.q4Pa * cpow (v.dCp * windMps * windMps) 0.667
  let qStack := 0.0146 * c.q4Pa
    * cpow (0.5 * c.windImpactHz * (cmax 0.00001 (cabs (temperature - tiHeatCool)))) 0.667
  let qExfiltration := cmax 0.0
    (cmax qStack qWind - cabs exhaustSupply * (0.5 * qStack + 0.667 * qWind / (qStack + qWind)))
  let qEnvelope := cmax 0.0 exhaustSupply + qExfiltration
  let qEnteringTotal := qEnvelope + qSupplyBySystem
  { qSupplyBySystem := qSupplyBySystem
    qEnvelope := qEnvelope
    qEnteringTotal := qEnteringTotal
    tEnteringAndSupplied := (temperature * qEnvelope + tSuppliedAir * qSupplyBySystem) / qEnteringTotal }

/-- The coefficients of the RC network in one hour: HourlyModel.cpp:259, 282-306. -/
structure Net (α : Type) where
  hei : α
  h1 : α
  h2 : α
  h3 : α
  H_ms : α
  H_tris : α
  hem : α
  hw : α
  Cm : α
  tEnt : α
  tOut : α
  phii : α
  phis : α
  phim : α

/-- HourlyModel.cpp:259 and 283-306. -/
def network (x : Sim α) (c : Consts α) (a : Air α) (temperature qSolar phi_int : α) : Net α :=
  let hei := 0.34 * a.qEnteringTotal
  let h1 := 1.0 / (1.0 / hei + 1.0 / c.H_tris)
  let h2 := h1 + c.hwindowWperkm2
  { hei := hei
    h1 := h1
    h2 := h2
    h3 := 1.0 / (1.0 / h2 + 1.0 / c.H_ms)
    H_ms := c.H_ms
    H_tris := c.H_tris
    hem := c.hem
    hw := c.hwindowWperkm2
    Cm := c.Cm
    tEnt := a.tEnteringAndSupplied
    tOut := temperature
    phii := x.simSettings.phiSolFractionToAirNode * qSolar + x.simSettings.phiIntFractionToAirNode * phi_int
    phis := c.prsSolar * qSolar + c.prsInterior * phi_int
    phim := c.prmSolar * qSolar + c.prmInterior * phi_int }

/-- Mass temperature at the end of the hour for heat flow `phi` to the air node.
HourlyModel.cpp:308-309+313 (`phi = phii10`), 310-311+320 (`phi = phii`), 368-374 (`phi = phiiHeatCool`). -/
def tmNext (n : Net α) (phi TMT1 : α) : α :=
  let phimTotal := n.phim + n.hem * n.tOut
    + n.h3 * (n.phis + n.hw * n.tOut + n.h1 * (phi / n.hei + n.tEnt)) / n.h2
  (TMT1 * (n.Cm / 3.6 - 0.5 * (n.h3 + n.hem)) + phimTotal) / (n.Cm / 3.6 + 0.5 * (n.h3 + n.hem))

/-- Air temperature for heat flow `phi` to the air node.
HourlyModel.cpp:314-318 (`phii10`), 321-323 (`phii`), 376-381 (`phiiHeatCool`, where the sums of lines
376 is written in the other order). -/
def tAir (n : Net α) (phi TMT1 : α) : α :=
  let tm := 0.5 * (TMT1 + tmNext n phi TMT1)
  let ts := (n.H_ms * tm + n.phis + n.hw * n.tOut + n.h1 * (n.tEnt + phi / n.hei))
    / (n.H_ms + n.hw + n.h1)
  (n.H_tris * ts + n.hei * n.tEnt + phi) / (n.H_tris + n.hei)

/-- HourlyModel.cpp:318, 323-326: the heating (+) or cooling (-) power. -/
def phiActual (n : Net α) (heatSet coolSet TMT1 : α) : α :=
  let tiPhi10 := tAir n (n.phii + 10.0) TMT1
  let tiPhi0 := tAir n n.phii TMT1
  let phiCooling := 10.0 * (coolSet - tiPhi0) / (tiPhi10 - tiPhi0)
  let phiHeating := 10.0 * (heatSet - tiPhi0) / (tiPhi10 - tiPhi0)
  cmax 0.0 phiHeating + cmin phiCooling 0.0

/-- HourlyModel.cpp:330-341: fan energy. -/
def fanEnergy (x : Sim α) (Qneed_ht Qneed_cl tiHeatCool vent : α) : α :=
  let T_sup_ht := x.heating.temperatureSetPointOccupied + x.heating.dT_supp_ht
  let T_sup_cl := x.cooling.temperatureSetPointOccupied - x.cooling.dT_supp_cl
  let Vair_ht := bif x.heating.forcedAirHeating then
    Qneed_ht / (((T_sup_ht - tiHeatCool) * x.phys.rhoCpAir * 277.777778) + dblMin) else 0.0
  let Vair_cl := bif x.cooling.forcedAirCooling then
    Qneed_cl / (((tiHeatCool - T_sup_cl) * x.phys.rhoCpAir * 277.777778) + dblMin) else 0.0
  let Vair_tot := cmax (Vair_ht + Vair_cl) vent
  Vair_tot * x.ventilation.fanPower * 1000.0 / 3600.0

/-- HourlyModel.cpp:346-352: pump energy. -/
def pumpEnergy (x : Sim α) (Qneed_ht Qneed_cl : α) : α :=
  bif clt 0.0 Qneed_cl then x.cooling.E_pumps * x.cooling.pumpControlReduction
  else bif clt 0.0 Qneed_ht then x.heating.E_pumps * x.heating.pumpControlReduction
  else 0.0

/-- HourlyModel.hpp:40-52. -/
structure HourResults (α : Type) where
  Qneed_ht : α
  Qneed_cl : α
  Q_illum_tot : α
  Q_illum_ext_tot : α
  Qfan_tot : α
  Qpump_tot : α
  phi_plug : α
  externalEquipmentEnergyWperm2 : α
  Q_dhw : α

/-- The two temperatures carried from hour to hour (HourlyModel.cpp:40-41). -/
structure ThermalState (α : Type) where
  TMT1 : α
  tiHeatCool : α

/-- HourlyModel.cpp:189-383. `sch` is the schedule cell of this hour. -/
def calculateHour (x : Sim α) (c : Consts α) (r : Ratios α) (sch : Schedule α) (w : HourWeather α)
    (st : ThermalState α) : ThermalState α × HourResults α :=
  let s := x.bldg
  let vent := sch.ventilation * 3.6 / s.floorArea
  let elec := electricForTotalLightArea s c r w.solarRadiation
  let phi_illum := elec * sch.interiorLighting * x.lights.elecInternalGains
  let phi_int := sch.interiorEquipment + phi_illum
  let qSolar := qSolarHeatGain s c r w.solarRadiation
  let air := airFlow x.ventilation c vent w.temperature w.windMps st.tiHeatCool
  let n := network x c air w.temperature qSolar phi_int
  let phi := phiActual n sch.heatingSetpoint sch.coolingSetpoint st.TMT1
  let Qneed_cl := cmax 0.0 (-phi)
  let Qneed_ht := cmax 0.0 phi
  let phiiHeatCool := phi + n.phii
  ({ TMT1 := tmNext n phiiHeatCool st.TMT1
     tiHeatCool := tAir n phiiHeatCool st.TMT1 },
   { Qneed_ht := Qneed_ht
     Qneed_cl := Qneed_cl
     Q_illum_tot := elec * sch.interiorLighting
     Q_illum_ext_tot := bif clt 0.0 (w.solarRadiation 8) then 0.0
       else x.lights.exteriorEnergy * sch.exteriorLighting / s.floorArea
     Qfan_tot := fanEnergy x Qneed_ht Qneed_cl st.tiHeatCool vent
     Qpump_tot := pumpEnergy x Qneed_ht Qneed_cl
     phi_plug := sch.interiorEquipment
     externalEquipmentEnergyWperm2 := sch.exteriorEquipment / s.floorArea
     Q_dhw := 0.0 })

end ISO.Hourly
