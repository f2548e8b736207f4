import Verif.Lemmas.Comparison
import Verif.Props.HeatBalance

/-!
# C53: how an hour responds to set-points and gains
-/

namespace ISO.Props
open ISO ISO.Spec ISO.Hourly ISO.Epw CNum Dbl

/-- what an hour of the program results in: temperatures of mass and air at its end, the needs for heating and cooling,
and the heat given off by appliances and lights -/
structure HourIs (x : Sim ℝ) (out : ThermalState Dbl × HourResults Dbl) (mass air heat cool inside : ℝ) : Prop where
  mass : out.1.TMT1 = fin mass
  air : out.1.tiHeatCool = fin air
  heat : out.2.Qneed_ht = fin heat
  cool : out.2.Qneed_cl = fin cool
  inside : out.2.phi_plug + out.2.Q_illum_tot * fin x.lights.elecInternalGains = fin inside

/-- the hour of a new model with building `x` -/
noncomputable def hourOf (x : Sim ℝ) (sch : Schedule ℝ) (w : HourWeather ℝ) (st : ThermalState ℝ) :
    ThermalState Dbl × HourResults Dbl :=
  calculateHour (x.map fin) (initConsts (x.map fin)) (freshRatios (x.map fin).bldg) (sch.map fin) (w.map fin) (st.map fin)

theorem hourOf_real {x : Sim ℝ} (hx : Physical x) {sch : Schedule ℝ} (hv : 0 ≤ sch.ventilation) (w : HourWeather ℝ)
    (st : ThermalState ℝ) {mass air heat cool inside : ℝ} (h : HourIs x (hourOf x sch w st) mass air heat cool inside)
    (hset : sch.heatingSetpoint ≤ sch.coolingSetpoint) :
    heat = max 0 (heat - cool) ∧ cool = max 0 (-(heat - cool)) ∧
    (∃ surface, Balanced (buildingNetwork x (sch.ventilation * 3.6 / x.bldg.floorArea) st.tiHeatCool inside w.temperature
      w.windMps w.solarRadiation) st.TMT1 mass surface air (heat - cool)) ∧
    Controlled sch.heatingSetpoint sch.coolingSetpoint air (heat - cool) := by
  have e0 : freshRatios (x.map fin).bldg = (freshRatios x.bldg).map fin := freshRatios_fin x.bldg hx.floor.ne'
  unfold hourOf at h
  rw [e0, initConsts_fin x (physical_consts hx).1, calculateHour_fin' hx _ hv w st] at h
  obtain ⟨e1, e2, e3, e4⟩ := calculateHour_state x (initConsts x) (freshRatios x.bldg) sch w st
  obtain ⟨h1, h2, h3, h4, h5⟩ := h
  have hb := balance_hour hx hv w st
  have hc := hour_controlled hx hv hset w st
  have g1 := Dbl.fin.inj h1
  have g2 := Dbl.fin.inj h2
  have g3 := Dbl.fin.inj h3
  have g4 := Dbl.fin.inj h4
  have g5 : (calculateHour x (initConsts x) (freshRatios x.bldg) sch w st).2.phi_plug +
    (calculateHour x (initConsts x) (freshRatios x.bldg) sch w st).2.Q_illum_tot * x.lights.elecInternalGains = inside := by
    simp only [HourResults.map, fin_mul, fin_add] at h5
    exact Dbl.fin.inj h5
  rw [g1, g2, g3, g4, g5] at hb
  rw [g2, g3, g4] at hc
  rw [g3] at e3
  rw [g4] at e4
  refine ⟨?_, ?_, hb, hc⟩
  · rw [e3, e4]
    generalize hourPhi x (initConsts x) (freshRatios x.bldg) sch w st = p
    rcases le_total 0 p with h | h
    · rw [max_eq_right h, max_eq_left (by linarith : -p ≤ 0), sub_zero, max_eq_right h]
    · rw [max_eq_left h, max_eq_right (by linarith : 0 ≤ -p), max_eq_left (by linarith)]
  · rw [e3, e4]
    generalize hourPhi x (initConsts x) (freshRatios x.bldg) sch w st = p
    rcases le_total 0 p with h | h
    · rw [max_eq_right h, max_eq_left (by linarith : -p ≤ 0), sub_zero, max_eq_left (by linarith)]
    · rw [max_eq_left h, max_eq_right (by linarith : 0 ≤ -p), max_eq_right (by linarith)]; ring

/-- C53: every hour has such results. -/
theorem C53_exists {x : Sim ℝ} (hx : Physical x) {sch : Schedule ℝ} (hv : 0 ≤ sch.ventilation) (w : HourWeather ℝ)
    (st : ThermalState ℝ) : ∃ mass air heat cool inside, HourIs x (hourOf x sch w st) mass air heat cool inside := by
  obtain ⟨mass, air, surface, heat, cool, plug, light, h1, h2, h3, h4, h5, -⟩ :=
    C50_hour hx hv w st (out := hourOf x sch w st) rfl
  refine ⟨mass, air, heat, cool, plug + light * x.lights.elecInternalGains, ?_, ?_, h2, h3, ?_⟩
  · rw [h1]
  · rw [h1]
  · rw [h4, h5]; simp only [dblfin]

/-- C53, no more than needed: whatever the course of an hour (mass temperature at its end, surface and air temperature,
power), if it obeys the heat balances and keeps the air between the set-points, it needs at least the heating and at
least the cooling of the program. -/
theorem C53_least {x : Sim ℝ} (hx : Physical x) {sch : Schedule ℝ} (hv : 0 ≤ sch.ventilation)
    (hset : sch.heatingSetpoint ≤ sch.coolingSetpoint) (w : HourWeather ℝ) (st : ThermalState ℝ)
    {mass air heat cool inside : ℝ} (h : HourIs x (hourOf x sch w st) mass air heat cool inside)
    {mass' surface' air' power' : ℝ}
    (hb : Balanced (buildingNetwork x (sch.ventilation * 3.6 / x.bldg.floorArea) st.tiHeatCool inside w.temperature
      w.windMps w.solarRadiation) st.TMT1 mass' surface' air' power')
    (h1 : sch.heatingSetpoint ≤ air') (h2 : air' ≤ sch.coolingSetpoint) : heat ≤ max 0 power' ∧ cool ≤ max 0 (-power') := by
  obtain ⟨r1, r2, ⟨s, b⟩, c⟩ := hourOf_real hx hv w st h hset
  have hv' : 0 ≤ sch.ventilation * 3.6 / x.bldg.floorArea := by have := hx.floor; positivity
  obtain ⟨p1, p2, p3, p4, p5, p6⟩ := network_positive hx hv' st.tiHeatCool inside w.temperature w.windMps w.solarRadiation
  obtain ⟨l1, l2⟩ := least_power p1 p2 p3 p4 p5 p6 b hb c h1 h2
  exact ⟨r1.le.trans l1, r2.le.trans l2⟩

/-- C53, set-points: of two hours that differ in the set-points only, the one with the higher set-points needs at least
as much heating and at most as much cooling, and ends with air and mass no cooler. -/
theorem C53_setpoints {x : Sim ℝ} (hx : Physical x) {sch : Schedule ℝ} (hv : 0 ≤ sch.ventilation)
    {heatSet coolSet : ℝ} (hset : sch.heatingSetpoint ≤ sch.coolingSetpoint) (hset' : heatSet ≤ coolSet)
    (hh : sch.heatingSetpoint ≤ heatSet) (hc : sch.coolingSetpoint ≤ coolSet) (w : HourWeather ℝ) (st : ThermalState ℝ)
    {mass air heat cool inside mass' air' heat' cool' inside' : ℝ}
    (h : HourIs x (hourOf x sch w st) mass air heat cool inside)
    (h' : HourIs x (hourOf x { sch with heatingSetpoint := heatSet, coolingSetpoint := coolSet } w st)
      mass' air' heat' cool' inside') :
    heat ≤ heat' ∧ cool' ≤ cool ∧ air ≤ air' ∧ mass ≤ mass' := by
  have hi : inside = inside' := by
    have := h.inside
    have e := h'.inside
    exact Dbl.fin.inj (this.symm.trans e)
  subst hi
  obtain ⟨r1, r2, ⟨s, b⟩, c⟩ := hourOf_real hx hv w st h hset
  obtain ⟨r1', r2', ⟨s', b'⟩, c'⟩ := hourOf_real hx
    (sch := { sch with heatingSetpoint := heatSet, coolingSetpoint := coolSet }) hv w st h' hset'
  simp only at b' c'
  have hv' : 0 ≤ sch.ventilation * 3.6 / x.bldg.floorArea := by have := hx.floor; positivity
  obtain ⟨p1, p2, p3, p4, p5, p6⟩ := network_positive hx hv' st.tiHeatCool inside w.temperature w.windMps w.solarRadiation
  have hp := compare_setpoints p1 p2 p3 p4 p5 p6 b b' c c' hh hc
  have ha := compare_controlled (Warmer.refl _) p1 p2 p3 p4 p5 p6 le_rfl b b' c c' hh hc
  have hm := compare_mass (Warmer.refl _) p1 p2 p3 p4 p5 le_rfl b b' ha (.inl rfl)
  exact ⟨r1.le.trans ((max_le_max le_rfl hp).trans r1'.ge),
    r2'.le.trans ((max_le_max le_rfl (by linarith)).trans r2.ge), ha, hm⟩

/-- C53, gains: take two hours of the same building with the same ventilation, outside temperature, wind, set-points and
air temperature at the start; in the second at least as much heat is given off inside and let in by the sun, and the
mass is no cooler at the start.  If each node gets a non-negative share of the gains, the second hour needs at most as
much heating, at least as much cooling, and its air is no cooler at the end; neither is the mass, if it starts the same
or stores enough (half its conductances per hour). -/
theorem C53_gains {x : Sim ℝ} (hx : Physical x) (s0 : 0 ≤ x.simSettings.phiSolFractionToAirNode)
    (s1 : x.simSettings.phiSolFractionToAirNode ≤ 1) (i0 : 0 ≤ x.simSettings.phiIntFractionToAirNode)
    (i1 : x.simSettings.phiIntFractionToAirNode ≤ 1)
    (hA : massArea x + windowConductance x / massCoefficient x ≤ x.bldg.totalAreaPerFloorArea)
    {sch sch' : Schedule ℝ} (hv : 0 ≤ sch.ventilation) (ev : sch'.ventilation = sch.ventilation)
    (eh : sch'.heatingSetpoint = sch.heatingSetpoint) (ec : sch'.coolingSetpoint = sch.coolingSetpoint)
    (hset : sch.heatingSetpoint ≤ sch.coolingSetpoint)
    {w w' : HourWeather ℝ} (et : w'.temperature = w.temperature) (ew : w'.windMps = w.windMps)
    (hsun : solarGain x w.solarRadiation ≤ solarGain x w'.solarRadiation)
    {st st' : ThermalState ℝ} (ea : st'.tiHeatCool = st.tiHeatCool) (hst : st.TMT1 ≤ st'.TMT1)
    {mass air heat cool inside mass' air' heat' cool' inside' : ℝ}
    (h : HourIs x (hourOf x sch w st) mass air heat cool inside)
    (h' : HourIs x (hourOf x sch' w' st') mass' air' heat' cool' inside') (hi : inside ≤ inside') :
    heat' ≤ heat ∧ cool ≤ cool' ∧ air ≤ air' ∧
    (st.TMT1 = st'.TMT1 ∨ (massCoefficient x * massArea x +
        1 / (1 / wallConductance x - 1 / (massCoefficient x * massArea x))) / 2 ≤ heatCapacity x / 3.6 → mass ≤ mass') := by
  obtain ⟨r1, r2, ⟨s, b⟩, c⟩ := hourOf_real hx hv w st h hset
  obtain ⟨r1', r2', ⟨s', b'⟩, c'⟩ := hourOf_real hx (by rw [ev]; exact hv) w' st' h' (by rw [eh, ec]; exact hset)
  rw [ev, ea, et, ew] at b'
  rw [eh, ec] at c'
  have hv' : 0 ≤ sch.ventilation * 3.6 / x.bldg.floorArea := by have := hx.floor; positivity
  obtain ⟨p1, p2, p3, p4, p5, p6⟩ := network_positive hx hv' st.tiHeatCool inside w.temperature w.windMps w.solarRadiation
  have hmc : 0 < massCoefficient x := by have := hx.hci; have := hx.hri; unfold massCoefficient; positivity
  have hma : 0 ≤ massArea x := by
    have : 0 ≤ massCoefficient x * massArea x := p2.le
    exact nonneg_of_mul_nonneg_right this hmc
  have hta := hx.totalArea
  have hsh : 0 ≤ 1 - massArea x / x.bldg.totalAreaPerFloorArea -
      windowConductance x / (massCoefficient x * x.bldg.totalAreaPerFloorArea) := by
    have : 1 - massArea x / x.bldg.totalAreaPerFloorArea - windowConductance x / (massCoefficient x * x.bldg.totalAreaPerFloorArea)
      = (x.bldg.totalAreaPerFloorArea - (massArea x + windowConductance x / massCoefficient x)) / x.bldg.totalAreaPerFloorArea := by
      field_simp; ring
    rw [this]; exact div_nonneg (by linarith) hta.le
  have hg : (1 - x.simSettings.phiSolFractionToAirNode) * solarGain x w.solarRadiation +
      (1 - x.simSettings.phiIntFractionToAirNode) * inside ≤
      (1 - x.simSettings.phiSolFractionToAirNode) * solarGain x w'.solarRadiation +
      (1 - x.simSettings.phiIntFractionToAirNode) * inside' :=
    add_le_add (mul_le_mul_of_nonneg_left hsun (by linarith)) (mul_le_mul_of_nonneg_left hi (by linarith))
  have hw : Warmer
      (buildingNetwork x (sch.ventilation * 3.6 / x.bldg.floorArea) st.tiHeatCool inside w.temperature w.windMps w.solarRadiation)
      (buildingNetwork x (sch.ventilation * 3.6 / x.bldg.floorArea) st.tiHeatCool inside' w.temperature w.windMps
        w'.solarRadiation) := by
    constructor <;> try first | rfl | exact le_rfl
    · exact add_le_add (mul_le_mul_of_nonneg_left hsun s0) (mul_le_mul_of_nonneg_left hi i0)
    · exact mul_le_mul_of_nonneg_left hg hsh
    · exact mul_le_mul_of_nonneg_left hg (by positivity)
  have hp := compare_gains hw p1 p2 p3 p4 p5 p6 hst b b' c c'
  have ha := compare_controlled hw p1 p2 p3 p4 p5 p6 hst b b' c c' le_rfl le_rfl
  exact ⟨r1'.le.trans ((max_le_max le_rfl hp).trans r1.ge),
    r2.le.trans ((max_le_max le_rfl (by linarith)).trans r2'.ge), ha,
    fun hm => compare_mass hw p1 p2 p3 p4 p5 hst b b' ha hm⟩

/-- an hour on a weekday morning in the small office -/
noncomputable def morning : Schedule ℝ where
  ventilation := 158.19
  exteriorEquipment := 0
  interiorEquipment := 4.831
  exteriorLighting := 1
  interiorLighting := 6.339
  heatingSetpoint := 24
  coolingSetpoint := 28

/-- the hypotheses of `C53_gains` on the building hold for the small office, whose mass stores enough -/
theorem smallOffice_shares :
    massArea smallOffice + windowConductance smallOffice / massCoefficient smallOffice ≤
      smallOffice.bldg.totalAreaPerFloorArea ∧
    (massCoefficient smallOffice * massArea smallOffice +
      1 / (1 / wallConductance smallOffice - 1 / (massCoefficient smallOffice * massArea smallOffice))) / 2 ≤
      heatCapacity smallOffice / 3.6 := by
  have hc : heatCapacity smallOffice = (98010 + 29707 * (2 * 84.45 + 2 * 56.3 + 598.76) / 511.16) / 1000 := by
    simp only [heatCapacity, smallOffice, Fin.sum_univ_succ, Fin.sum_univ_zero]
    norm_num [nineOf, Fin.succ]
  have hw : windowConductance smallOffice = 2.653 * (20.65 + 2 * 11.16 + 16.74) / 511.16 := by
    simp only [windowConductance, smallOffice, Fin.sum_univ_succ, Fin.sum_univ_zero]
    norm_num [nineOf, Fin.succ]
  have ho : wallConductance smallOffice = (0.363 * (2 * 84.45 + 2 * 56.3) + 2.494 * 598.76) / 511.16 := by
    simp only [wallConductance, smallOffice, Fin.sum_univ_succ, Fin.sum_univ_zero]
    norm_num [nineOf, Fin.succ]
  have hm : massArea smallOffice = 2.5 := by
    unfold massArea
    rw [if_pos (by rw [hc]; norm_num)]
  have hk : massCoefficient smallOffice = 9.1 := by simp only [massCoefficient, smallOffice]; norm_num
  rw [hc, hw, ho, hm, hk]
  constructor
  · simp only [smallOffice]; norm_num
  · norm_num

/-- with heating at 24 instead of 21 degrees the small office needs at least as much heating that morning, and when a
printer of 1 W/m² is switched on at most as much (with the same weather and start) -/
example (w : HourWeather ℝ) (st : ThermalState ℝ) :
    ∃ mass air heat cool inside mass₁ air₁ heat₁ cool₁ inside₁ mass₂ air₂ heat₂ cool₂ inside₂,
      HourIs smallOffice (hourOf smallOffice morning w st) mass air heat cool inside ∧
      HourIs smallOffice (hourOf smallOffice { morning with heatingSetpoint := 21, coolingSetpoint := 28 } w st)
        mass₁ air₁ heat₁ cool₁ inside₁ ∧
      HourIs smallOffice (hourOf smallOffice { morning with interiorEquipment := 5.831 } w st)
        mass₂ air₂ heat₂ cool₂ inside₂ ∧ heat₁ ≤ heat ∧ heat₂ ≤ heat ∧ mass ≤ mass₂ := by
  obtain ⟨m, a, h, c, i, e⟩ := C53_exists smallOffice_physical (sch := morning) (by norm_num [morning]) w st
  obtain ⟨m₁, a₁, h₁, c₁, i₁, e₁⟩ := C53_exists smallOffice_physical
    (sch := { morning with heatingSetpoint := 21, coolingSetpoint := 28 }) (by norm_num [morning]) w st
  obtain ⟨m₂, a₂, h₂, c₂, i₂, e₂⟩ := C53_exists smallOffice_physical
    (sch := { morning with interiorEquipment := 5.831 }) (by norm_num [morning]) w st
  have hi : i ≤ i₂ := by
    have k1 := e.inside
    have k2 := e₂.inside
    have p1 : (hourOf smallOffice morning w st).2.phi_plug = fin 4.831 := rfl
    have p2 : (hourOf smallOffice { morning with interiorEquipment := 5.831 } w st).2.phi_plug = fin 5.831 := rfl
    have p3 : (hourOf smallOffice { morning with interiorEquipment := 5.831 } w st).2.Q_illum_tot =
      (hourOf smallOffice morning w st).2.Q_illum_tot := rfl
    rw [p1] at k1
    rw [p2, p3] at k2
    generalize (hourOf smallOffice morning w st).2.Q_illum_tot * fin smallOffice.lights.elecInternalGains = q at k1 k2
    cases q with
    | fin q =>
      rw [fin_add] at k1 k2
      have := Dbl.fin.inj k1
      have := Dbl.fin.inj k2
      linarith
    | pinf => cases k1
    | ninf => cases k1
    | nan => cases k1
  have r1 := C53_setpoints smallOffice_physical (sch := { morning with heatingSetpoint := 21, coolingSetpoint := 28 })
    (heatSet := 24) (coolSet := 28) (by norm_num [morning]) (by norm_num) (by norm_num) (by norm_num) (by norm_num)
    w st e₁ e
  have r2 := C53_gains smallOffice_physical (by norm_num [smallOffice]) (by norm_num [smallOffice])
    (by norm_num [smallOffice]) (by norm_num [smallOffice]) smallOffice_shares.1 (sch := morning)
    (sch' := { morning with interiorEquipment := 5.831 }) (by norm_num [morning]) rfl rfl rfl (by norm_num [morning])
    rfl rfl le_rfl rfl le_rfl e e₂ hi
  exact ⟨m, a, h, c, i, m₁, a₁, h₁, c₁, i₁, m₂, a₂, h₂, c₂, i₂, e, e₁, e₂, r1.1, r2.1, r2.2.2.2 (.inl rfl)⟩

end ISO.Props
