import Verif.Model.HourlyRun
import Verif.Num.Lemmas

/-! Helper lemmas: on finite inputs, with the denominators away from zero, the hourly model at `Dbl` is the
hourly model at `ℝ`. -/

namespace ISO.Hourly
open ISO CNum Dbl
variable {α β : Type}

def Ratios.map (f : α → β) (r : Ratios α) : Ratios β where
  nlaWMovableShading i := f (r.nlaWMovableShading i)
  naturalLightRatio i := f (r.naturalLightRatio i)
  naturalLightShadeRatioReduction i := f (r.naturalLightShadeRatioReduction i)
  saWMovableShading i := f (r.saWMovableShading i)
  solarRatio i := f (r.solarRatio i)
  solarShadeRatioReduction i := f (r.solarShadeRatioReduction i)

def Consts.map (f : α → β) (c : Consts α) : Consts β where
  maxRatioElectricLighting := f c.maxRatioElectricLighting
  elightNatural := f c.elightNatural
  areaNaturallyLightedRatio := f c.areaNaturallyLightedRatio
  shadingUsePerWPerM2 := f c.shadingUsePerWPerM2
  q4Pa := f c.q4Pa
  h_ms := f c.h_ms
  h_is := f c.h_is
  H_tris := f c.H_tris
  Cm := f c.Cm
  Am := f c.Am
  hwindowWperkm2 := f c.hwindowWperkm2
  prs := f c.prs
  prsInterior := f c.prsInterior
  prsSolar := f c.prsSolar
  prm := f c.prm
  prmInterior := f c.prmInterior
  prmSolar := f c.prmSolar
  H_ms := f c.H_ms
  hOpaqueWperkm2 := f c.hOpaqueWperkm2
  hem := f c.hem
  windImpactHz := f c.windImpactHz
  windImpactSupplyRatio := f c.windImpactSupplyRatio

def Schedule.map (f : α → β) (s : Schedule α) : Schedule β where
  ventilation := f s.ventilation
  exteriorEquipment := f s.exteriorEquipment
  interiorEquipment := f s.interiorEquipment
  exteriorLighting := f s.exteriorLighting
  interiorLighting := f s.interiorLighting
  heatingSetpoint := f s.heatingSetpoint
  coolingSetpoint := f s.coolingSetpoint

def HourWeather.map (f : α → β) (w : HourWeather α) : HourWeather β where
  windMps := f w.windMps
  temperature := f w.temperature
  solarRadiation i := f (w.solarRadiation i)

def Air.map (f : α → β) (a : Air α) : Air β where
  qSupplyBySystem := f a.qSupplyBySystem
  qEnvelope := f a.qEnvelope
  qEnteringTotal := f a.qEnteringTotal
  tEnteringAndSupplied := f a.tEnteringAndSupplied

def Net.map (f : α → β) (n : Net α) : Net β where
  hei := f n.hei
  h1 := f n.h1
  h2 := f n.h2
  h3 := f n.h3
  H_ms := f n.H_ms
  H_tris := f n.H_tris
  hem := f n.hem
  hw := f n.hw
  Cm := f n.Cm
  tEnt := f n.tEnt
  tOut := f n.tOut
  phii := f n.phii
  phis := f n.phis
  phim := f n.phim

def ThermalState.map (f : α → β) (s : ThermalState α) : ThermalState β := ⟨f s.TMT1, f s.tiHeatCool⟩

def HourResults.map (f : α → β) (r : HourResults α) : HourResults β where
  Qneed_ht := f r.Qneed_ht
  Qneed_cl := f r.Qneed_cl
  Q_illum_tot := f r.Q_illum_tot
  Q_illum_ext_tot := f r.Q_illum_ext_tot
  Qfan_tot := f r.Qfan_tot
  Qpump_tot := f r.Qpump_tot
  phi_plug := f r.phi_plug
  externalEquipmentEnergyWperm2 := f r.externalEquipmentEnergyWperm2
  Q_dhw := f r.Q_dhw

theorem csum_nine (f : Fin 9 → ℝ) : csum (nine fun i => fin (f i)) = fin (csum (nine f)) := by
  have : (nine fun i => fin (f i)) = (nine f).map fin := by simp [nine]
  rw [this, fin_csum]

theorem csum_nine_real (f : Fin 9 → ℝ) : csum (nine f) = ∑ i, f i := by
  rw [csum_real, nine, List.sum_ofFn]

theorem facade_fin (s : Structure ℝ) (i : Fin 9) :
    (facade (s.map fin) i).nlams = fin (facade s i).nlams ∧ (facade (s.map fin) i).nla = fin (facade s i).nla ∧
    (facade (s.map fin) i).sams = fin (facade s i).sams ∧ (facade (s.map fin) i).sa = fin (facade s i).sa ∧
    (facade (s.map fin) i).htot = fin (facade s i).htot ∧
    (facade (s.map fin) i).hWindow = fin (facade s i).hWindow := by
  have h : (0.87 : ℝ) ≠ 0 := by norm_num
  simp only [facade, structureCalculations, Structure.map, dblfin, ne_eq, h, not_false_eq_true, and_self]

theorem amOfCm_fin (c : ℝ) : amOfCm (fin c) = fin (amOfCm c) := by
  have h1 : (110.0 : ℝ) ≠ 0 := by norm_num
  have h2 : (95.0 : ℝ) ≠ 0 := by norm_num
  simp only [amOfCm, dblfin, ne_eq, h1, h2, not_false_eq_true]

theorem lightingControl_fin (a b : ℝ) (l : Lighting ℝ) :
    lightingControl (fin a) (fin b) (l.map fin) =
      (fin (lightingControl a b l).1, fin (lightingControl a b l).2) := by
  simp only [lightingControl, Lighting.map, dblfin]
  cases clt a 1.0 <;> cases clt b 1.0 <;> rfl

theorem freshRatios_fin (s : Structure ℝ) (h : s.floorArea ≠ 0) :
    freshRatios (s.map fin) = (freshRatios s).map fin := by
  have hf := facade_fin s
  have h' : (s.map fin).floorArea = fin s.floorArea := rfl
  simp only [freshRatios, Ratios.map, h', fun i => (hf i).1, fun i => (hf i).2.1, fun i => (hf i).2.2.1,
    fun i => (hf i).2.2.2.1, dblfin, ne_eq, h, not_false_eq_true]

/-- the denominators in `initialize` -/
structure InitOk (x : Sim ℝ) : Prop where
  floor : x.bldg.floorArea ≠ 0
  hci : x.simSettings.hci ≠ 0
  h_ms : (initConsts x).h_ms ≠ 0
  h_is : 1.0 / x.simSettings.hci - 1.0 / (initConsts x).h_ms ≠ 0
  total : x.bldg.totalAreaPerFloorArea ≠ 0
  irr : x.bldg.irradianceForMaxShadingUse ≠ 0
  hop : (initConsts x).hOpaqueWperkm2 ≠ 0
  H_ms : (initConsts x).H_ms ≠ 0
  hem : 1.0 / (initConsts x).hOpaqueWperkm2 - 1.0 / (initConsts x).H_ms ≠ 0

theorem initConsts_fin (x : Sim ℝ) (h : InitOk x) : initConsts (x.map fin) = (initConsts x).map fin := by
  obtain ⟨h1, h2, h3, h4, h5, h6, h7, h8, h9⟩ := h
  have k : (1000.0 : ℝ) ≠ 0 := by norm_num
  have hf := facade_fin x.bldg
  simp only [initConsts] at h3 h4 h7 h8 h9
  have e1 := fun i => (hf i).2.2.2.2.1
  have e2 := fun i => (hf i).2.2.2.2.2
  have el := lightingControl_fin x.building.lightingOccupancySensor x.lights.dimmingFraction x.lights
  have eb : (x.map fin).bldg = x.bldg.map fin := rfl
  simp only [initConsts, eb, e1, e2]
  simp only [Sim.map, Building.map, Structure.map, SimulationSettings.map, Ventilation.map] at el ⊢
  have ed : (x.lights.map fin).dimmingFraction = fin x.lights.dimmingFraction := rfl
  have en : (x.lights.map fin).naturallyLightedArea = fin x.lights.naturallyLightedArea := rfl
  simp only [ed, en, el, csum_nine, dblfin, amOfCm_fin, ne_eq, h1, h2, h3, h4, h5, h6, h7, h8, h9, k,
    not_false_eq_true, Consts.map]

theorem scheduleCell_fin (x : Sim ℝ) (w : Window) (h d : Int) :
    scheduleCell (x.map fin) w h d = (scheduleCell x w h d).map fin := by
  simp only [scheduleCell, Schedule.map, Sim.map, Ventilation.map, Building.map, Lighting.map, Heating.map,
    Cooling.map, dblfin]

theorem electric_fin (s : Structure ℝ) (c : Consts ℝ) (r : Ratios ℝ) (sol : Fin 9 → ℝ)
    (h1 : c.areaNaturallyLightedRatio ≠ 0) (h2 : c.elightNatural ≠ 0) :
    electricForTotalLightArea (s.map fin) (c.map fin) (r.map fin) (fun i => fin (sol i)) =
      fin (electricForTotalLightArea s c r sol) := by
  simp only [electricForTotalLightArea, Structure.map, Consts.map, Ratios.map, dblfin, ne_eq, h1, h2,
    not_false_eq_true, csum_nine]

theorem solar_fin (s : Structure ℝ) (c : Consts ℝ) (r : Ratios ℝ) (sol : Fin 9 → ℝ) :
    qSolarHeatGain (s.map fin) (c.map fin) (r.map fin) (fun i => fin (sol i)) =
      fin (qSolarHeatGain s c r sol) := by
  simp only [qSolarHeatGain, Structure.map, Consts.map, Ratios.map, dblfin, csum_nine]

/-- wind-driven and stack-driven infiltration (the two local variables of `airFlow`) -/
noncomputable def qWind (v : Ventilation ℝ) (c : Consts ℝ) (w : ℝ) : ℝ :=
  0.0769 * c.q4Pa * cpow (v.dCp * w * w) 0.667
noncomputable def qStack (c : Consts ℝ) (t ti : ℝ) : ℝ :=
  0.0146 * c.q4Pa * cpow (0.5 * c.windImpactHz * (cmax 0.00001 (cabs (t - ti)))) 0.667

theorem airFlow_fin (v : Ventilation ℝ) (c : Consts ℝ) (vent t w ti : ℝ)
    (h1 : 0 ≤ v.dCp * w * w) (h2 : 0 < c.windImpactHz) (h3 : qStack c t ti + qWind v c w ≠ 0)
    (h4 : (airFlow v c vent t w ti).qEnteringTotal ≠ 0) :
    airFlow (v.map fin) (c.map fin) (fin vent) (fin t) (fin w) (fin ti) = (airFlow v c vent t w ti).map fin := by
  have e1 : cpow (fin (v.dCp * w * w)) (fin 0.667) = fin (cpow (v.dCp * w * w) 0.667) :=
    fin_cpow_nonneg h1 (by norm_num)
  have e2 : cpow (fin (0.5 * c.windImpactHz * (cmax 0.00001 (cabs (t - ti))))) (fin 0.667) =
      fin (cpow (0.5 * c.windImpactHz * (cmax 0.00001 (cabs (t - ti)))) 0.667) := by
    refine fin_cpow_nonneg ?_ (by norm_num)
    rw [cmax_real]
    have : (0:ℝ) < max 0.00001 (cabs (t - ti)) := lt_max_of_lt_left (by norm_num)
    positivity
  simp only [qStack, qWind] at h3
  simp only [airFlow] at h4
  simp only [airFlow, Ventilation.map, Consts.map, dblfin, e1, e2, ne_eq, h3, h4, not_false_eq_true, Air.map]

theorem network_fin (x : Sim ℝ) (c : Consts ℝ) (a : Air ℝ) (t qs pi : ℝ)
    (h1 : 0 < a.qEnteringTotal) (h2 : 0 < c.H_tris) (h3 : 0 ≤ c.hwindowWperkm2) (h4 : 0 < c.H_ms) :
    network (x.map fin) (c.map fin) (a.map fin) (fin t) (fin qs) (fin pi) = (network x c a t qs pi).map fin := by
  have k1 : (0.34 * a.qEnteringTotal) ≠ 0 := by positivity
  have k2 : c.H_tris ≠ 0 := h2.ne'
  have k3 : 1.0 / (0.34 * a.qEnteringTotal) + 1.0 / c.H_tris ≠ 0 := by positivity
  have k4 : 1.0 / (1.0 / (0.34 * a.qEnteringTotal) + 1.0 / c.H_tris) + c.hwindowWperkm2 ≠ 0 := by positivity
  have k5 : c.H_ms ≠ 0 := h4.ne'
  have k6 : 1.0 / (1.0 / (1.0 / (0.34 * a.qEnteringTotal) + 1.0 / c.H_tris) + c.hwindowWperkm2) + 1.0 / c.H_ms ≠ 0 := by
    positivity
  simp only [network, Sim.map, SimulationSettings.map, Consts.map, Air.map, dblfin, ne_eq, k1, k2, k3, k4, k5,
    k6, not_false_eq_true, Net.map]

/-- positivity of a network -/
structure NetPos (n : Net ℝ) : Prop where
  hei : 0 < n.hei
  h1 : 0 < n.h1
  h2 : 0 < n.h2
  h3 : 0 < n.h3
  H_ms : 0 < n.H_ms
  H_tris : 0 < n.H_tris
  hem : 0 < n.hem
  hw : 0 ≤ n.hw
  Cm : 0 < n.Cm
  e1 : n.h1 = 1 / (1 / n.hei + 1 / n.H_tris)
  e2 : n.h2 = n.h1 + n.hw
  e3 : n.h3 = 1 / (1 / n.h2 + 1 / n.H_ms)

theorem tmNext_fin {n : Net ℝ} (h : NetPos n) (phi T : ℝ) :
    tmNext (n.map fin) (fin phi) (fin T) = fin (tmNext n phi T) := by
  have k1 := h.hei.ne'
  have k2 := h.h2.ne'
  have k3 : (3.6 : ℝ) ≠ 0 := by norm_num
  have k4 : n.Cm / 3.6 + 0.5 * (n.h3 + n.hem) ≠ 0 := by
    have := h.Cm; have := h.h3; have := h.hem; positivity
  simp only [tmNext, Net.map, dblfin, ne_eq, k1, k2, k3, k4, not_false_eq_true]

theorem tAir_fin {n : Net ℝ} (h : NetPos n) (phi T : ℝ) :
    tAir (n.map fin) (fin phi) (fin T) = fin (tAir n phi T) := by
  have k1 := h.hei.ne'
  have k2 : n.H_ms + n.hw + n.h1 ≠ 0 := by have := h.H_ms; have := h.hw; have := h.h1; positivity
  have k3 : n.H_tris + n.hei ≠ 0 := by have := h.H_tris; have := h.hei; positivity
  simp only [tAir, tmNext_fin h]
  simp only [Net.map, dblfin, ne_eq, k1, k2, k3, not_false_eq_true]

end ISO.Hourly
