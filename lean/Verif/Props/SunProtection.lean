import Verif.Spec.SunProtection
import Verif.Props.Effects
import Verif.Props.Response
import Verif.Props.EndUsesCases

/-! # C66: sun protection in the hourly model -/

namespace ISO.Props
open ISO ISO.Spec ISO.Hourly ISO.Epw CNum Dbl

/-- **C66** With better protection no more sun gets in. -/
theorem C66_gain {x y : Sim ℝ} (hx : Physical x) (h : BetterProtected x y) {sun : Fin 9 → ℝ} (hs : ∀ i, 0 ≤ sun i) :
    solarGain (takeSunProtection x y) sun ≤ solarGain x sun := by
  unfold solarGain
  refine div_le_div_of_nonneg_right (Finset.sum_le_sum fun i _ => ?_) hx.floor.le
  refine mul_le_mul_of_nonneg_left (add_le_add ?_ (mul_le_mul_of_nonneg_left ?_ (hx.windowArea i))) (hs i)
  · have := mul_le_mul_of_nonneg_left (h.walls i) (mul_nonneg (hx.wallArea i) (hx.wallU i))
    have e1 : (takeSunProtection x y).bldg.wallArea i * (takeSunProtection x y).bldg.wallSolarAbsorption i *
        (takeSunProtection x y).bldg.wallUniform i * (takeSunProtection x y).bldg.R_se =
      x.bldg.wallArea i * x.bldg.wallUniform i * (y.bldg.wallSolarAbsorption i * y.bldg.R_se) := by
      simp only [takeSunProtection]; ring
    rw [e1]
    linarith
  · show y.bldg.windowNormalIncidenceSolarEnergyTransmittance i + (y.bldg.windowShadingCorrectionFactor i -
        y.bldg.windowNormalIncidenceSolarEnergyTransmittance i) * (y.bldg.shadingFactorAtMaxUse *
          (min (sun i) y.bldg.irradianceForMaxShadingUse / y.bldg.irradianceForMaxShadingUse)) ≤ _
    have a1 := h.glass i
    have a2 := h.shaded i
    have a3 := h.shades i
    have a4 := h.positive
    have a5 := h.strength
    have b0 := h.notNegative
    have b1 := h.atMostAll
    have b2 := h.use
    have hm : min (sun i) x.bldg.irradianceForMaxShadingUse / x.bldg.irradianceForMaxShadingUse ≤
        min (sun i) y.bldg.irradianceForMaxShadingUse / y.bldg.irradianceForMaxShadingUse := by
      rw [div_le_div_iff₀ (by linarith) a4]
      rcases le_total (sun i) y.bldg.irradianceForMaxShadingUse with g | g
      · rw [min_eq_left g, min_eq_left (g.trans a5)]
        exact mul_le_mul_of_nonneg_left a5 (hs i)
      · rw [min_eq_right g, mul_comm]
        exact mul_le_mul_of_nonneg_left (min_le_right _ _) a4.le
    have h0 : 0 ≤ min (sun i) x.bldg.irradianceForMaxShadingUse / x.bldg.irradianceForMaxShadingUse :=
      div_nonneg (le_min (hs i) (by linarith)) (by linarith)
    have h1 : min (sun i) x.bldg.irradianceForMaxShadingUse / x.bldg.irradianceForMaxShadingUse ≤ 1 :=
      div_le_one_of_le₀ (min_le_right _ _) (by linarith)
    generalize min (sun i) x.bldg.irradianceForMaxShadingUse / x.bldg.irradianceForMaxShadingUse = m at *
    generalize min (sun i) y.bldg.irradianceForMaxShadingUse / y.bldg.irradianceForMaxShadingUse = m' at *
    generalize x.bldg.shadingFactorAtMaxUse = f at *
    generalize y.bldg.shadingFactorAtMaxUse = f' at *
    generalize x.bldg.windowNormalIncidenceSolarEnergyTransmittance i = g at *
    generalize y.bldg.windowNormalIncidenceSolarEnergyTransmittance i = g' at *
    generalize x.bldg.windowShadingCorrectionFactor i = s at *
    generalize y.bldg.windowShadingCorrectionFactor i = s' at *
    have hfm : f * m ≤ f' * m' := mul_le_mul b2 hm h0 (b0.trans b2)
    have hf1 : f * m ≤ 1 := mul_le_one₀ b1 h0 h1
    have hf0 : 0 ≤ f * m := mul_nonneg b0 h0
    nlinarith [mul_nonneg (sub_nonneg.2 a3) (sub_nonneg.2 hfm), mul_nonneg (sub_nonneg.2 a1) (sub_nonneg.2 hf1),
      mul_nonneg (sub_nonneg.2 a2) hf0]

/-- shading does not reach the daylight: the formula for the lights with the same glass -/
theorem light_protected (x y : Sim ℝ) (hA : x.bldg.floorArea ≠ 0) (h1 : x.bldg.irradianceForMaxShadingUse ≠ 0)
    (h2 : y.bldg.irradianceForMaxShadingUse ≠ 0) (sol : Fin 9 → ℝ) :
    electricForTotalLightArea ((takeSunProtection x y).map fin).bldg (initConsts ((takeSunProtection x y).map fin))
      (freshRatios ((takeSunProtection x y).map fin).bldg) (fun i => fin (sol i)) =
    electricForTotalLightArea (x.map fin).bldg (initConsts (x.map fin)) (freshRatios (x.map fin).bldg) (fun i => fin (sol i)) := by
  have key : ∀ z : Sim ℝ, z.bldg.floorArea ≠ 0 → z.bldg.irradianceForMaxShadingUse ≠ 0 → ∀ i,
      (freshRatios (z.map fin).bldg).naturalLightRatio i + (initConsts (z.map fin)).shadingUsePerWPerM2 *
        (freshRatios (z.map fin).bldg).naturalLightShadeRatioReduction i *
          cmin (z.map fin).bldg.irradianceForMaxShadingUse (fin (sol i)) =
      fin (z.bldg.windowArea i * (z.bldg.windowShadingDevice i / 0.87) / z.bldg.floorArea) := by
    intro z hz hz' i
    have h87 : (0.87 : ℝ) ≠ 0 := by norm_num
    simp only [freshRatios, initConsts, facade, structureCalculations, Sim.map, Structure.map, dblfin, ne_eq, hz, hz', h87,
      not_false_eq_true, sub_self, mul_zero, zero_mul, add_zero]
  unfold electricForTotalLightArea
  simp only [key x hA h1, key (takeSunProtection x y) hA h2]
  rfl

/-- **C66** Glass, colour and movable shading change nothing but the energy for heating, cooling, fans and pumps.  In particular the lights of
the hourly model never notice that the shading is drawn. -/
theorem C66_daylight (x y : Sim ℝ) (hA : x.bldg.floorArea ≠ 0) (h1 : x.bldg.irradianceForMaxShadingUse ≠ 0)
    (h2 : y.bldg.irradianceForMaxShadingUse ≠ 0) {w : Weather ℝ} (hz : NotOverhead w) (agg : Bool) :
    SameExcept [heatingElectricity, coolingElectricity, heatingGas, Spec.fans, Spec.pumps]
      ((simulate agg (fresh x w)).map Prod.snd) ((simulate agg (fresh (takeSunProtection x y) w)).map Prod.snd) := by
  have hw : window ((takeSunProtection x y).map fin).pop = window (x.map fin).pop := rfl
  refine hourly_results _ agg (x.map fin) ((takeSunProtection x y).map fin) (w.map fin) .empty hw ?_
  intro win
  rw [pushAll_empty, pushAll_empty]
  have hl : ∀ i, electricForTotalLightArea ((takeSunProtection x y).map fin).bldg (initConsts ((takeSunProtection x y).map fin))
      (freshRatios ((takeSunProtection x y).map fin).bldg) (hourWeather (w.map fin) i).solarRadiation =
      electricForTotalLightArea (x.map fin).bldg (initConsts (x.map fin)) (freshRatios (x.map fin).bldg)
        (hourWeather (w.map fin) i).solarRadiation := by
    intro i
    rw [hourWeather_fin w i (hz.cos i)]
    exact light_protected x y hA h1 h2 _
  unfold rawResults
  rw [List.ofFn_eq_map, List.ofFn_eq_map]
  generalize List.finRange 8760 = L
  have key : ∀ (L : List (Fin 8760)) (st st' : ThermalState Dbl) (e e' : Dbl × Dbl) (k : Fin 13),
      k ∉ [heatingElectricity, coolingElectricity, heatingGas, Spec.fans, Spec.pumps] →
      (runHours (x.map fin) (initConsts (x.map fin)) (freshRatios (x.map fin).bldg) (L.map (hourInput (x.map fin) win (w.map fin))) st).map
          (fun z => hourEndUses (x.map fin) e z k) =
        (runHours ((takeSunProtection x y).map fin) (initConsts ((takeSunProtection x y).map fin))
          (freshRatios ((takeSunProtection x y).map fin).bldg)
          (L.map (hourInput ((takeSunProtection x y).map fin) win (w.map fin))) st').map
          (fun z => hourEndUses ((takeSunProtection x y).map fin) e' z k) := by
    intro L
    induction L with
    | nil => intros; rfl
    | cons i L ih =>
      intro st st' e e' k hk
      simp only [List.map_cons, hourInput, runHours]
      refine congrArg₂ List.cons ?_ (ih _ _ _ _ _ hk)
      refine hour_frame _ _ _ _ _ _ _ k hk (fun h => absurd (by decide) h) (fun h => absurd (by decide) h)
        (fun h => absurd (by decide) h) (fun _ => ?_) (fun _ => rfl) (fun h => absurd (by decide) h)
        (fun h => absurd (by decide) h) (fun _ => rfl) (fun _ => rfl) rfl
      have e1 : (scheduleCell ((takeSunProtection x y).map fin) win (Solar.sliceAt i).hour (Solar.sliceAt i).dayOfWeek).interiorLighting =
        (scheduleCell (x.map fin) win (Solar.sliceAt i).hour (Solar.sliceAt i).dayOfWeek).interiorLighting := rfl
      simp only [calculateHour, hl, e1]
  intro k hk
  simp only [endUses, List.map_map]
  exact key L _ _ _ _ k hk

/-- the sun protection is no part of what makes a building physically meaningful, except for the radiation at full use -/
theorem physical_protected {x y : Sim ℝ} (hx : Physical x) (h : 0 < y.bldg.irradianceForMaxShadingUse) :
    Physical (takeSunProtection x y) :=
  { floor := hx.floor, wallArea := hx.wallArea, wallU := hx.wallU, windowArea := hx.windowArea, windowU := hx.windowU
    hci := hx.hci, hri := hx.hri, totalArea := hx.totalArea, irradiance := h, interiorHeatCapacity := hx.interiorHeatCapacity
    wallHeatCapacity := hx.wallHeatCapacity, opaque_ := hx.opaque_, luxSensor := hx.luxSensor, luxAuto := hx.luxAuto
    luxBoth := hx.luxBoth, luxManual := hx.luxManual, supplyRate := hx.supplyRate, dCp := hx.dCp
    setOccupied := hx.setOccupied, setUnoccupied := hx.setUnoccupied }

/-- an hour with other sun protection that lets in no more sun -/
theorem hour_protected {x y : Sim ℝ} (hx : Physical x) (hy : 0 < y.bldg.irradianceForMaxShadingUse)
    (s0 : 0 ≤ x.simSettings.phiSolFractionToAirNode) (s1 : x.simSettings.phiSolFractionToAirNode ≤ 1)
    (hA : massArea x + windowConductance x / massCoefficient x ≤ x.bldg.totalAreaPerFloorArea)
    {sch : Schedule ℝ} (hv : 0 ≤ sch.ventilation) (hset : sch.heatingSetpoint ≤ sch.coolingSetpoint)
    {w : HourWeather ℝ} (hsun : solarGain (takeSunProtection x y) w.solarRadiation ≤ solarGain x w.solarRadiation) (st : ThermalState ℝ)
    {mass air heat cool inside mass' air' heat' cool' inside' : ℝ}
    (e : HourIs x (hourOf x sch w st) mass air heat cool inside)
    (e' : HourIs (takeSunProtection x y) (hourOf (takeSunProtection x y) sch w st) mass' air' heat' cool' inside') :
    cool' ≤ cool ∧ heat ≤ heat' ∧ air' ≤ air ∧ mass' ≤ mass ∧ inside' = inside := by
  have h0 := hy
  have hy := physical_protected hx hy
  have hin : inside' = inside := by
    have k := e.inside
    have k' := e'.inside
    have p1 : (hourOf (takeSunProtection x y) sch w st).2.phi_plug = (hourOf x sch w st).2.phi_plug := rfl
    have p2 : (hourOf (takeSunProtection x y) sch w st).2.Q_illum_tot = (hourOf x sch w st).2.Q_illum_tot := by
      have := light_protected x y hx.floor.ne' hx.irradiance.ne' h0.ne' w.solarRadiation
      exact congrArg (· * fin sch.interiorLighting) this
    rw [p1, p2] at k'
    exact Dbl.fin.inj (k'.symm.trans k)
  subst hin
  obtain ⟨r1, r2, ⟨s, b⟩, c⟩ := hourOf_real hx hv w st e hset
  obtain ⟨r1', r2', ⟨s', b'⟩, c'⟩ := hourOf_real hy hv w st e' hset
  have hv' : 0 ≤ sch.ventilation * 3.6 / x.bldg.floorArea := by have := hx.floor; positivity
  obtain ⟨p1, p2, p3, p4, p5, p6⟩ := network_positive hy hv' st.tiHeatCool inside' w.temperature w.windMps w.solarRadiation
  have hmc : 0 < massCoefficient x := by have := hx.hci; have := hx.hri; unfold massCoefficient; positivity
  have hma : 0 ≤ massArea x := by
    have : 0 ≤ massCoefficient x * massArea x := p2.le
    exact nonneg_of_mul_nonneg_right this hmc
  have hta := hx.totalArea
  have hsh : 0 ≤ 1 - massArea x / x.bldg.totalAreaPerFloorArea -
      windowConductance x / (massCoefficient x * x.bldg.totalAreaPerFloorArea) := by
    have : 1 - massArea x / x.bldg.totalAreaPerFloorArea - windowConductance x / (massCoefficient x * x.bldg.totalAreaPerFloorArea)
      = (x.bldg.totalAreaPerFloorArea - (massArea x + windowConductance x / massCoefficient x)) / x.bldg.totalAreaPerFloorArea := by
      field_simp; ring
    rw [this]; exact div_nonneg (by linarith) hta.le
  have hg : (1 - x.simSettings.phiSolFractionToAirNode) * solarGain (takeSunProtection x y) w.solarRadiation +
      (1 - x.simSettings.phiIntFractionToAirNode) * inside' ≤
      (1 - x.simSettings.phiSolFractionToAirNode) * solarGain x w.solarRadiation +
      (1 - x.simSettings.phiIntFractionToAirNode) * inside' :=
    add_le_add (mul_le_mul_of_nonneg_left hsun (by linarith)) le_rfl
  have hw : Warmer
      (buildingNetwork (takeSunProtection x y) (sch.ventilation * 3.6 / x.bldg.floorArea) st.tiHeatCool inside' w.temperature w.windMps
        w.solarRadiation)
      (buildingNetwork x (sch.ventilation * 3.6 / x.bldg.floorArea) st.tiHeatCool inside' w.temperature w.windMps w.solarRadiation) := by
    constructor <;> try first | rfl | exact le_rfl
    · exact add_le_add (mul_le_mul_of_nonneg_left hsun s0) le_rfl
    · exact mul_le_mul_of_nonneg_left hg hsh
    · exact mul_le_mul_of_nonneg_left hg (by positivity)
  have hp := compare_gains hw p1 p2 p3 p4 p5 p6 le_rfl b' b c' c
  have ha := compare_controlled hw p1 p2 p3 p4 p5 p6 le_rfl b' b c' c le_rfl le_rfl
  exact ⟨r2'.le.trans ((max_le_max le_rfl (by linarith)).trans r2.ge), r1.le.trans ((max_le_max le_rfl hp).trans r1'.ge), ha,
    compare_mass hw p1 p2 p3 p4 p5 le_rfl b' b ha (.inl rfl), rfl⟩

/-- **C66** In an hour with the same weather, schedule and start, the better protected building needs at most as much cooling and at
least as much heating, and its air and its mass are no warmer at the end; lights and appliances give off the same heat. -/
theorem C66_hour {x y : Sim ℝ} (hx : Physical x) (h : BetterProtected x y) (s0 : 0 ≤ x.simSettings.phiSolFractionToAirNode)
    (s1 : x.simSettings.phiSolFractionToAirNode ≤ 1)
    (hA : massArea x + windowConductance x / massCoefficient x ≤ x.bldg.totalAreaPerFloorArea)
    {sch : Schedule ℝ} (hv : 0 ≤ sch.ventilation) (hset : sch.heatingSetpoint ≤ sch.coolingSetpoint)
    {w : HourWeather ℝ} (hs : ∀ i, 0 ≤ w.solarRadiation i) (st : ThermalState ℝ)
    {mass air heat cool inside mass' air' heat' cool' inside' : ℝ}
    (e : HourIs x (hourOf x sch w st) mass air heat cool inside)
    (e' : HourIs (takeSunProtection x y) (hourOf (takeSunProtection x y) sch w st) mass' air' heat' cool' inside') :
    cool' ≤ cool ∧ heat ≤ heat' ∧ air' ≤ air ∧ mass' ≤ mass ∧ inside' = inside :=
  hour_protected hx h.positive s0 s1 hA hv hset (C66_gain hx h hs) st e e'

/-- the small office with shading of a factor that goes with its glass -/
noncomputable def curtains : Sim ℝ :=
  { smallOffice with bldg := { smallOffice.bldg with windowShadingCorrectionFactor := fun i =>
      smallOffice.bldg.windowNormalIncidenceSolarEnergyTransmittance i / 2 } }

/-- the small office with glass and shading half as clear, and shading used fully -/
noncomputable def blinds : Sim ℝ :=
  { smallOffice with bldg := { smallOffice.bldg with
      windowNormalIncidenceSolarEnergyTransmittance := fun i => smallOffice.bldg.windowNormalIncidenceSolarEnergyTransmittance i / 2
      windowShadingCorrectionFactor := fun i => smallOffice.bldg.windowNormalIncidenceSolarEnergyTransmittance i / 4
      shadingFactorAtMaxUse := 1 } }

theorem smallOffice_glass (i : Fin 9) : 0 ≤ smallOffice.bldg.windowNormalIncidenceSolarEnergyTransmittance i ∧
    smallOffice.bldg.windowNormalIncidenceSolarEnergyTransmittance i ≤ 0.426 ∧ smallOffice.bldg.windowShadingCorrectionFactor i ≤ 1 ∧
    (smallOffice.bldg.windowShadingCorrectionFactor i = 1 ∨ smallOffice.bldg.windowArea i = 0) := by
  fin_cases i <;> norm_num [smallOffice, nineOf]

/-- the hypotheses of `C66_hour` hold for the office with curtains and with blinds, for which there are results -/
example (w : HourWeather ℝ) (st : ThermalState ℝ) : Physical curtains ∧ BetterProtected curtains blinds ∧
    0 ≤ curtains.simSettings.phiSolFractionToAirNode ∧ curtains.simSettings.phiSolFractionToAirNode ≤ 1 ∧
    massArea curtains + windowConductance curtains / massCoefficient curtains ≤ curtains.bldg.totalAreaPerFloorArea ∧
    ∃ mass air heat cool inside mass' air' heat' cool' inside',
      HourIs curtains (hourOf curtains morning w st) mass air heat cool inside ∧
      HourIs (takeSunProtection curtains blinds) (hourOf (takeSunProtection curtains blinds) morning w st) mass' air' heat' cool' inside' := by
  have p : Physical curtains := physical_protected (y := curtains) smallOffice_physical (by norm_num [curtains, smallOffice])
  have b : BetterProtected curtains blinds := by
    refine ⟨fun i => le_rfl, fun i => ?_, fun i => ?_, fun i => ?_, ?_, ?_, ?_, ?_, le_rfl⟩
    · show smallOffice.bldg.windowNormalIncidenceSolarEnergyTransmittance i / 2 ≤ _
      have := (smallOffice_glass i).1
      show _ ≤ smallOffice.bldg.windowNormalIncidenceSolarEnergyTransmittance i
      linarith
    · show smallOffice.bldg.windowNormalIncidenceSolarEnergyTransmittance i / 4 ≤ smallOffice.bldg.windowNormalIncidenceSolarEnergyTransmittance i / 2
      have := (smallOffice_glass i).1
      linarith
    · show smallOffice.bldg.windowNormalIncidenceSolarEnergyTransmittance i / 4 ≤ smallOffice.bldg.windowNormalIncidenceSolarEnergyTransmittance i / 2
      have := (smallOffice_glass i).1
      linarith
    all_goals norm_num [curtains, blinds, smallOffice]
  obtain ⟨m, a, h, c, i, e⟩ := C53_exists p (sch := morning) (by norm_num [morning]) w st
  obtain ⟨m', a', h', c', i', e'⟩ := C53_exists (physical_protected p b.positive) (sch := morning) (by norm_num [morning]) w st
  exact ⟨p, b, by norm_num [curtains, smallOffice], by norm_num [curtains, smallOffice], smallOffice_shares.1, m, a, h, c, i, m', a', h', c', i', e, e'⟩

/-- the small office without movable shading -/
noncomputable def unshaded : Sim ℝ :=
  { smallOffice with bldg := { smallOffice.bldg with shadingFactorAtMaxUse := 0 } }

/-- **C66** The example building has shading factors of 1 on glass that lets in 0.426 of the sun, and the hourly model takes the shading factor for the part of
the sun that shaded glass lets in.  So its shading works backwards: without it no hour lets in more sun, and an hour with sun on a window lets in
less. -/
theorem C66_backwards {sun : Fin 9 → ℝ} (hs : ∀ i, 0 ≤ sun i) :
    solarGain unshaded sun ≤ solarGain smallOffice sun ∧
    (∀ i, 0 < sun i → 0 < smallOffice.bldg.windowArea i → solarGain unshaded sun < solarGain smallOffice sun) := by
  have fl : (0 : ℝ) < smallOffice.bldg.floorArea := smallOffice_physical.floor
  have key : ∀ i, sun i * (smallOffice.bldg.wallArea i * smallOffice.bldg.wallSolarAbsorption i * smallOffice.bldg.wallUniform i *
        smallOffice.bldg.R_se + smallOffice.bldg.windowArea i * (smallOffice.bldg.windowNormalIncidenceSolarEnergyTransmittance i +
      (smallOffice.bldg.windowShadingCorrectionFactor i - smallOffice.bldg.windowNormalIncidenceSolarEnergyTransmittance i) *
        (smallOffice.bldg.shadingFactorAtMaxUse * (min (sun i) smallOffice.bldg.irradianceForMaxShadingUse /
          smallOffice.bldg.irradianceForMaxShadingUse)))) =
      sun i * (unshaded.bldg.wallArea i * unshaded.bldg.wallSolarAbsorption i * unshaded.bldg.wallUniform i *
        unshaded.bldg.R_se + unshaded.bldg.windowArea i * (unshaded.bldg.windowNormalIncidenceSolarEnergyTransmittance i +
      (unshaded.bldg.windowShadingCorrectionFactor i - unshaded.bldg.windowNormalIncidenceSolarEnergyTransmittance i) *
        (unshaded.bldg.shadingFactorAtMaxUse * (min (sun i) unshaded.bldg.irradianceForMaxShadingUse /
          unshaded.bldg.irradianceForMaxShadingUse)))) +
      sun i * (smallOffice.bldg.windowArea i * (1 - smallOffice.bldg.windowNormalIncidenceSolarEnergyTransmittance i) *
        (0.5 * (min (sun i) 500 / 500))) := by
    intro i
    have e1 : unshaded.bldg.shadingFactorAtMaxUse = 0 := rfl
    have e2 : smallOffice.bldg.shadingFactorAtMaxUse = 0.5 := rfl
    have e3 : smallOffice.bldg.irradianceForMaxShadingUse = 500 := rfl
    rw [e1, e2, e3]
    simp only [unshaded]
    rcases (smallOffice_glass i).2.2.2 with h | h <;> rw [h] <;> ring
  have nn : ∀ i, 0 ≤ sun i * (smallOffice.bldg.windowArea i * (1 - smallOffice.bldg.windowNormalIncidenceSolarEnergyTransmittance i) *
        (0.5 * (min (sun i) 500 / 500))) := by
    intro i
    have h1 := smallOffice_physical.windowArea i
    have h2 := (smallOffice_glass i).2.1
    have h3 : 0 ≤ min (sun i) 500 := le_min (hs i) (by norm_num)
    have h4 := hs i
    have h5 : 0 ≤ 1 - smallOffice.bldg.windowNormalIncidenceSolarEnergyTransmittance i := by linarith
    positivity
  constructor
  · refine div_le_div_of_nonneg_right (Finset.sum_le_sum fun i _ => ?_) fl.le
    rw [key i]
    linarith [nn i]
  · intro i h1 h2
    refine div_lt_div_of_pos_right (Finset.sum_lt_sum (fun j _ => ?_) ⟨i, Finset.mem_univ i, ?_⟩) fl
    · rw [key j]
      linarith [nn j]
    · rw [key i]
      have h3 := (smallOffice_glass i).2.1
      have h4 : 0 < min (sun i) 500 := lt_min h1 (by norm_num)
      have h5 : 0 < 1 - smallOffice.bldg.windowNormalIncidenceSolarEnergyTransmittance i := by linarith
      have : 0 < sun i * (smallOffice.bldg.windowArea i * (1 - smallOffice.bldg.windowNormalIncidenceSolarEnergyTransmittance i) *
        (0.5 * (min (sun i) 500 / 500))) := by positivity
      linarith

/-- **C66** and so every hour of the example building needs at least as much cooling with shading as without. -/
theorem C66_backwards_hour {sch : Schedule ℝ} (hv : 0 ≤ sch.ventilation) (hset : sch.heatingSetpoint ≤ sch.coolingSetpoint)
    {w : HourWeather ℝ} (hs : ∀ i, 0 ≤ w.solarRadiation i) (st : ThermalState ℝ)
    {mass air heat cool inside mass' air' heat' cool' inside' : ℝ}
    (e : HourIs smallOffice (hourOf smallOffice sch w st) mass air heat cool inside)
    (e' : HourIs unshaded (hourOf unshaded sch w st) mass' air' heat' cool' inside') :
    cool' ≤ cool ∧ heat ≤ heat' := by
  have r := hour_protected (y := unshaded) smallOffice_physical (by norm_num [unshaded, smallOffice]) (by norm_num [smallOffice])
    (by norm_num [smallOffice]) smallOffice_shares.1 hv hset (C66_backwards hs).1 st e e'
  exact ⟨r.1, r.2.1⟩

/-- there are such hours: a sunny one on a weekday morning -/
example (st : ThermalState ℝ) : ∃ mass air heat cool inside mass' air' heat' cool' inside',
      HourIs smallOffice (hourOf smallOffice morning ⟨3, 25, fun _ => 400⟩ st) mass air heat cool inside ∧
      HourIs unshaded (hourOf unshaded morning ⟨3, 25, fun _ => 400⟩ st) mass' air' heat' cool' inside' ∧
      solarGain unshaded (fun _ => 400) < solarGain smallOffice (fun _ => 400) := by
  obtain ⟨m, a, h, c, i, e⟩ := C53_exists smallOffice_physical (sch := morning) (by norm_num [morning]) ⟨3, 25, fun _ => 400⟩ st
  obtain ⟨m', a', h', c', i', e'⟩ := C53_exists (physical_protected (y := unshaded) smallOffice_physical
    (by norm_num [unshaded, smallOffice])) (sch := morning) (by norm_num [morning]) ⟨3, 25, fun _ => 400⟩ st
  exact ⟨m, a, h, c, i, m', a', h', c', i', e, e', (C66_backwards (fun _ => by norm_num)).2 0 (by norm_num) (by norm_num [smallOffice, nineOf])⟩

/-- the hypotheses of `C66_daylight` hold for the example building and any weather at its place -/
example (w : Weather ℝ) (h : w.latitude = 41.98) : smallOffice.bldg.floorArea ≠ 0 ∧ smallOffice.bldg.irradianceForMaxShadingUse ≠ 0 ∧
    unshaded.bldg.irradianceForMaxShadingUse ≠ 0 ∧ NotOverhead w :=
  ⟨smallOffice_physical.floor.ne', smallOffice_physical.irradiance.ne', smallOffice_physical.irradiance.ne', notOverhead_of_lat h⟩

end ISO.Props
