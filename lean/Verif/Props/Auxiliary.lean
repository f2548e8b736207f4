import Verif.Props.EndUsesCases
import Verif.Spec.Lighting

/-!
# C23: lighting, fan, pump and equipment energy of the hourly model
-/

namespace ISO.Props
open ISO ISO.Spec ISO.Hourly ISO.Epw CNum Dbl

theorem maxRatio_eq (x : Sim ℝ) : (initConsts x).maxRatioElectricLighting = lightingFactor x := by
  have k : (1.0:ℝ) = 1 := by norm_num
  simp only [initConsts, lightingControl, lightingFactor, k]
  by_cases h1 : x.building.lightingOccupancySensor < 1 <;> by_cases h2 : x.lights.dimmingFraction < 1
  · simp only [(clt_real _ _).mpr h1, (clt_real _ _).mpr h2, Bool.and_self, cond_true, if_pos h1, if_pos h2]
  · simp only [(clt_real _ _).mpr h1, (clt_real_false _ _).mpr (not_lt.mp h2), Bool.and_false, cond_true, cond_false,
      if_pos h1, if_neg h2]
  · simp only [(clt_real _ _).mpr h2, (clt_real_false _ _).mpr (not_lt.mp h1), Bool.false_and, cond_true, cond_false,
      if_neg h1, if_pos h2]
  · simp only [(clt_real_false _ _).mpr (not_lt.mp h2), (clt_real_false _ _).mpr (not_lt.mp h1), Bool.and_self, cond_false,
      if_neg h1, if_neg h2]

/-- daylight can only reduce the electric lighting, and only in the daylit part -/
theorem electric_bounds {x : Sim ℝ} (hx : Physical x) (ha : Auxiliary x) {sol : Fin 9 → ℝ} (hs : ∀ i, 0 ≤ sol i) :
    (1 - daylitFraction x) * lightingFactor x ≤ electricForTotalLightArea x.bldg (initConsts x) (freshRatios x.bldg) sol ∧
    electricForTotalLightArea x.bldg (initConsts x) (freshRatios x.bldg) sol ≤ lightingFactor x := by
  have hc := (physical_consts hx).2
  have hf := ha.factor
  have hd : (initConsts x).areaNaturallyLightedRatio = daylitFraction x := by
    simp only [initConsts, daylitFraction, cmax_real]
  have hd0 : 0 < daylitFraction x := by rw [← hd]; exact hc.nat
  have hd1 := ha.daylit
  have hl : 0 ≤ ∑ i, 53.0 / (initConsts x).areaNaturallyLightedRatio * sol i *
        ((freshRatios x.bldg).naturalLightRatio i + (initConsts x).shadingUsePerWPerM2 *
        (freshRatios x.bldg).naturalLightShadeRatioReduction i * cmin x.bldg.irradianceForMaxShadingUse (sol i)) := by
    refine Finset.sum_nonneg fun i _ => ?_
    have e1 : (freshRatios x.bldg).naturalLightShadeRatioReduction i = 0 := by
      simp only [freshRatios, facade, structureCalculations, sub_self]
    have e2 : 0 ≤ (freshRatios x.bldg).naturalLightRatio i := by
      simp only [freshRatios, facade, structureCalculations]
      have := hx.windowArea i; have := ha.transmittance i; have := hx.floor
      positivity
    rw [e1, mul_zero, zero_mul, add_zero]
    have := hs i; have := hc.nat
    positivity
  simp only [electricForTotalLightArea]
  rw [csum_nine_real, maxRatio_eq, cmax_real]
  generalize (∑ i, 53.0 / (initConsts x).areaNaturallyLightedRatio * sol i *
        ((freshRatios x.bldg).naturalLightRatio i + (initConsts x).shadingUsePerWPerM2 *
        (freshRatios x.bldg).naturalLightShadeRatioReduction i * cmin x.bldg.irradianceForMaxShadingUse (sol i))) = L at *
  rw [hd]
  have hq : 0 ≤ L / (initConsts x).elightNatural := div_nonneg hl hc.lux.le
  generalize L / (initConsts x).elightNatural = q at *
  generalize lightingFactor x = f at *
  generalize daylitFraction x = d at *
  have m0 : 0 ≤ max 0.0 (f * (1.0 - q)) := le_max_of_le_left (by norm_num)
  have m1 : max 0.0 (f * (1.0 - q)) ≤ f := max_le (by norm_num; exact hf) (by norm_num; nlinarith)
  generalize max 0.0 (f * (1.0 - q)) = m at *
  norm_num
  constructor <;> nlinarith

open Classical in
/-- C23: in every hour `i` of a simulation with physically meaningful input in which radiation comes from above the
horizon: interior lighting lies between the part without daylight and the installed power times the control factor;
exterior lighting is on exactly if there is no global radiation; the fan moves at least the scheduled air; pumps run
exactly when there is a need; equipment follows the schedule.  All of them are non-negative numbers. -/
theorem C23_hour {x : Sim ℝ} (hx : Physical x) (hs : Systems x) (ha : Auxiliary x) {w : Weather ℝ} (hz : NotOverhead w)
    (h0 : 0 ≤ x.pop.hoursEnd) (d0 : 0 ≤ x.pop.daysEnd)
    {m' : Model Dbl} {hourly : List (EndUses Dbl)} (h : simulate false (fresh x w) = some (m', hourly))
    {win : Window} (hw : window (x.map fin).pop = some win) (i : ℕ) (hi : i < hourly.length) (i8 : Fin 8760) (hi8 : i8.1 = i)
    (hb : 0 ≤ w.data EB i8) (hd : 0 ≤ w.data ED i8) (hg : 0 ≤ w.data EGH i8)
    (hup : 0 ≤ Spec.Sun.up (SunLemmas.place w) (i / 24 : ℕ) (i % 24 : ℕ) ∨ (w.data EB i8 = 0 ∧ w.data ED i8 = 0)) :
    ∃ light fan heat cool : ℝ,
      (rawResults (x.map fin) (freshRatios (x.map fin).bldg) win (w.map fin))[i]?.map
        (fun q => (q.Qneed_ht, q.Qneed_cl)) = some (fin heat, fin cool) ∧
      hourly[i] 2 = fin light ∧
      hourly[i] 3 = fin (if 0 < w.data EGH i8 then 0 else x.lights.exteriorEnergy / x.bldg.floorArea / 1000) ∧
      hourly[i] 4 = fin fan ∧
      hourly[i] 5 = fin ((if 0 < cool then x.cooling.E_pumps * x.cooling.pumpControlReduction
        else if 0 < heat then x.heating.E_pumps * x.heating.pumpControlReduction else 0) / 1000) ∧
      hourly[i] 6 = fin ((if Occupied x.pop i then x.building.electricApplianceHeatGainOccupied
        else x.building.electricApplianceHeatGainUnoccupied) / 1000) ∧
      hourly[i] 7 = fin (x.building.externalEquipment / x.bldg.floorArea / 1000) ∧
      0 ≤ light ∧
      (1 - daylitFraction x) * lightingFactor x * (if Occupied x.pop i then x.lights.powerDensityOccupied
        else x.lights.powerDensityUnoccupied) / 1000 ≤ light ∧
      light ≤ lightingFactor x * (if Occupied x.pop i then x.lights.powerDensityOccupied
        else x.lights.powerDensityUnoccupied) / 1000 ∧
      0 ≤ fan ∧
      (if OccupiedHour x.pop i then x.ventilation.supplyRate else 0) / x.bldg.floorArea * x.ventilation.fanPower / 1000 ≤ fan := by
  obtain ⟨win', rs, hw', hrs, e, he⟩ := year_fin hx hs hz h
  rw [hw] at hw'
  cases hw'
  have hr' : i < (rs.map (·.map fin)).length := by rw [he, endUses_length] at hi; exact hi
  have hr : i < rs.length := by rw [List.length_map] at hr'; exact hr'
  have hl : i < 8760 := by rw [← hi8]; exact i8.2
  have ei : (⟨i, hl⟩ : Fin 8760) = i8 := Fin.ext hi8.symm
  obtain ⟨st, key⟩ := rawResults_get x (freshRatios x.bldg) win w hrs i hr hl
  rw [ei] at key
  -- the schedule
  have hcell := C13_schedule (x.map fin) x.pop rfl h0 d0 hw (w.map fin) i8
  rw [hourInput_fin x win w i8 (hz.cos i8), hi8] at hcell
  -- radiation
  have hsol : ∀ k, 0 ≤ (hourInput x win w i8).2.solarRadiation k := by
    intro k
    show 0 ≤ (if h : k.1 < 8 then Solar.eglobe w i8 ⟨k.1, h⟩ else w.data EGH i8)
    split_ifs with hk
    · have e2 := C20_sum w i8 ⟨k.1, hk⟩ (hz i8)
      rw [Solar.eglobe_fin w i8 ⟨k.1, hk⟩ (hz.cos i8)] at e2
      rcases hup with hup | ⟨d1, d2⟩
      · rw [← hi8] at hup
        obtain ⟨e', h1, h2, -⟩ := C20_total w i8 ⟨k.1, hk⟩ (hz i8) hup hb hd
        rw [Solar.eglobe_fin w i8 ⟨k.1, hk⟩ (hz.cos i8)] at h1
        rw [Dbl.fin.inj h1]
        exact le_trans (by positivity) h2
      · rw [Dbl.fin.inj e2, d1, d2]
        simp [Spec.Sun.direct, Spec.Sun.sky, Spec.Sun.ground]
    · exact hg
  obtain ⟨l1, l2⟩ := electric_bounds hx ha hsol
  have hroof : (hourInput x win w i8).2.solarRadiation 8 = w.data EGH i8 := rfl
  rw [e]
  clear e hrs
  subst he
  have k1000 : (1000.0:ℝ) = 1000 := by norm_num
  have hfl := hx.floor
  have c1 : (hourInput x win w i8).1.interiorLighting = (if Occupied x.pop i then x.lights.powerDensityOccupied
        else x.lights.powerDensityUnoccupied) := by
    have := congrArg Schedule.interiorLighting hcell
    by_cases ho : Occupied x.pop i
    · rw [if_pos ho]; simp only [Schedule.map, if_pos ho] at this; exact Dbl.fin.inj this
    · rw [if_neg ho]; simp only [Schedule.map, if_neg ho] at this; exact Dbl.fin.inj this
  have c2 : (hourInput x win w i8).1.interiorEquipment = (if Occupied x.pop i then x.building.electricApplianceHeatGainOccupied
        else x.building.electricApplianceHeatGainUnoccupied) := by
    have := congrArg Schedule.interiorEquipment hcell
    by_cases ho : Occupied x.pop i
    · rw [if_pos ho]; simp only [Schedule.map, if_pos ho] at this; exact Dbl.fin.inj this
    · rw [if_neg ho]; simp only [Schedule.map, if_neg ho] at this; exact Dbl.fin.inj this
  have c3 : (hourInput x win w i8).1.ventilation = (if OccupiedHour x.pop i then x.ventilation.supplyRate else 0) := by
    have := congrArg Schedule.ventilation hcell
    by_cases ho : OccupiedHour x.pop i
    · rw [if_pos ho]; simp only [Schedule.map, if_pos ho] at this; exact Dbl.fin.inj this
    · rw [if_neg ho]; simp only [Schedule.map, if_neg ho] at this; exact Dbl.fin.inj this
  have c4 : (hourInput x win w i8).1.exteriorEquipment = x.building.externalEquipment :=
    Dbl.fin.inj (congrArg Schedule.exteriorEquipment hcell)
  have c5 : (hourInput x win w i8).1.exteriorLighting = 1 := Dbl.fin.inj (congrArg Schedule.exteriorLighting hcell)
  have lpos : 0 ≤ (if Occupied x.pop i then x.lights.powerDensityOccupied else x.lights.powerDensityUnoccupied) := by
    split_ifs
    · exact ha.lightingOccupied
    · exact ha.lightingUnoccupied
  generalize (hourInput x win w i8).1 = sch at *
  generalize (hourInput x win w i8).2 = hw8 at *
  have hval : ∀ k : Fin 13, 2 ≤ k.1 → k.1 ≤ 7 → ((endUses (x.map fin) (rs.map (fun q : HourResults ℝ => q.map fin)))[i]'hi) k =
      fin (hourEndUses x (1, 1) (calculateHour x (initConsts x) (freshRatios x.bldg) sch hw8 st).2 k) := by
    intro k h2 h7
    rw [endUses_get _ _ i hi hr', getElem_of_map rfl i hr' hr, hourEndUses_fin' x _ (1, 1) _ k h2 h7, key]
  have hil : (calculateHour x (initConsts x) (freshRatios x.bldg) sch hw8 st).2.Q_illum_tot =
      electricForTotalLightArea x.bldg (initConsts x) (freshRatios x.bldg) hw8.solarRadiation * sch.interiorLighting := rfl
  have hfan : ∃ v : ℝ, sch.ventilation * 3.6 / x.bldg.floorArea ≤ v ∧
      (calculateHour x (initConsts x) (freshRatios x.bldg) sch hw8 st).2.Qfan_tot =
      v * x.ventilation.fanPower * 1000.0 / 3600.0 := by
    refine ⟨cmax _ _, ?_, rfl⟩
    rw [cmax_real]; exact le_max_right _ _
  obtain ⟨v, v1, v2⟩ := hfan
  have fp := ha.fanPower
  have key2 : (if OccupiedHour x.pop i then x.ventilation.supplyRate else 0) / x.bldg.floorArea * x.ventilation.fanPower / 1000
      ≤ v * x.ventilation.fanPower * 1000.0 / 3600.0 / 1000 := by
    rw [← c3]
    have : sch.ventilation / x.bldg.floorArea * x.ventilation.fanPower / 1000 =
      (sch.ventilation * 3.6 / x.bldg.floorArea) * x.ventilation.fanPower * 1000.0 / 3600.0 / 1000 := by norm_num; ring
    rw [this]
    gcongr
  refine ⟨electricForTotalLightArea x.bldg (initConsts x) (freshRatios x.bldg) hw8.solarRadiation * sch.interiorLighting / 1000,
    v * x.ventilation.fanPower * 1000.0 / 3600.0 / 1000,
    (calculateHour x (initConsts x) (freshRatios x.bldg) sch hw8 st).2.Qneed_ht,
    (calculateHour x (initConsts x) (freshRatios x.bldg) sch hw8 st).2.Qneed_cl, ?_, ?_, ?_, ?_, ?_, ?_, ?_, ?_, ?_, ?_, ?_, key2⟩
  · rw [List.getElem?_map, List.getElem?_eq_getElem hr, key]; rfl
  · rw [hval 2 (by decide) (by decide)]
    simp only [hourEndUses, hil, k1000]
  · rw [hval 3 (by decide) (by decide)]
    congr 1
    simp only [hourEndUses, calculateHour, hroof, c5, realnum]
    norm_num
    split_ifs <;> simp
  · rw [hval 4 (by decide) (by decide)]
    simp only [hourEndUses, v2, k1000]
  · rw [hval 5 (by decide) (by decide)]
    congr 1
    have : (calculateHour x (initConsts x) (freshRatios x.bldg) sch hw8 st).2.Qpump_tot =
      pumpEnergy x (calculateHour x (initConsts x) (freshRatios x.bldg) sch hw8 st).2.Qneed_ht
        (calculateHour x (initConsts x) (freshRatios x.bldg) sch hw8 st).2.Qneed_cl := rfl
    simp only [hourEndUses, this, k1000]
    generalize (calculateHour x (initConsts x) (freshRatios x.bldg) sch hw8 st).2.Qneed_ht = ht
    generalize (calculateHour x (initConsts x) (freshRatios x.bldg) sch hw8 st).2.Qneed_cl = cl
    have z : (0.0:ℝ) = 0 := by norm_num
    simp only [pumpEnergy, realnum, z]
  · rw [hval 6 (by decide) (by decide), ← c2]
    simp only [hourEndUses, k1000]; rfl
  · rw [hval 7 (by decide) (by decide), ← c4]
    simp only [hourEndUses, k1000]; rfl
  · rw [c1]
    have : 0 ≤ (1 - daylitFraction x) * lightingFactor x := mul_nonneg (by linarith [ha.daylit]) ha.factor
    have : 0 ≤ electricForTotalLightArea x.bldg (initConsts x) (freshRatios x.bldg) hw8.solarRadiation := this.trans l1
    positivity
  · rw [c1]; gcongr
  · rw [c1]; gcongr
  · refine le_trans ?_ key2
    have := hx.supplyRate
    split_ifs <;> positivity

theorem smallOffice_auxiliary : Auxiliary smallOffice := by
  constructor
  case transmittance => intro i; fin_cases i <;> norm_num [smallOffice, nineOf]
  case factor => unfold lightingFactor; norm_num [smallOffice]
  case daylit => unfold daylitFraction; norm_num [smallOffice]
  all_goals norm_num [smallOffice]

/-- the hypotheses are met by the small office in Chicago in every night hour, e.g. hour 100 -/
example : Physical smallOffice ∧ Systems smallOffice ∧ Auxiliary smallOffice ∧ NotOverhead someWeather ∧
    0 ≤ smallOffice.pop.hoursEnd ∧ 0 ≤ smallOffice.pop.daysEnd ∧
    someWeather.data EB 100 = 0 ∧ someWeather.data ED 100 = 0 ∧ 0 ≤ someWeather.data EGH 100 := by
  refine ⟨smallOffice_physical, smallOffice_systems, smallOffice_auxiliary, notOverhead_of_lat rfl,
    by norm_num [smallOffice], by norm_num [smallOffice], ?_, ?_, ?_⟩
  all_goals simp [someWeather, EB, ED, EGH, DBT]

end ISO.Props
