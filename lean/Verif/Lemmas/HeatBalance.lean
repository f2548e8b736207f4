import Verif.Lemmas.HourlyYear
import Verif.Spec.HeatBalance

/-! Helper lemmas: the network of the program is that of the specification, and its solution is balanced. -/

namespace ISO.Hourly
open ISO CNum Dbl Spec

theorem amOfCm_spec (x : Sim ℝ) (h : (initConsts x).Cm = heatCapacity x) : (initConsts x).Am = massArea x := by
  have : (initConsts x).Am = amOfCm (initConsts x).Cm := rfl
  rw [this, h]
  simp only [amOfCm, massArea, realnum]
  split_ifs <;> norm_num at * <;> linarith

theorem consts_spec (x : Sim ℝ) :
    (initConsts x).Cm = heatCapacity x ∧ (initConsts x).Am = massArea x ∧ (initConsts x).h_ms = massCoefficient x ∧
    (initConsts x).hwindowWperkm2 = windowConductance x ∧ (initConsts x).hOpaqueWperkm2 = wallConductance x := by
  have e1 : (initConsts x).Cm = heatCapacity x := by
    have : (initConsts x).Cm = x.bldg.interiorHeatCapacity / 1000.0 +
      (x.bldg.wallHeatCapacity * csum (nine x.bldg.wallArea) / x.bldg.floorArea) / 1000.0 := rfl
    rw [this, csum_nine_real, heatCapacity, add_div]; norm_num
  refine ⟨e1, amOfCm_spec x e1, ?_, ?_, ?_⟩
  · have : (initConsts x).h_ms = x.simSettings.hci + x.simSettings.hri * 1.2 := rfl
    rw [this, massCoefficient, mul_comm x.simSettings.hri]
  · have : (initConsts x).hwindowWperkm2 = csum (nine fun i => (facade x.bldg i).hWindow) / x.bldg.floorArea := rfl
    rw [this, csum_nine_real]; rfl
  · have : (initConsts x).hOpaqueWperkm2 =
      cmax (csum (nine fun i => (facade x.bldg i).htot - (facade x.bldg i).hWindow) / x.bldg.floorArea) 0.000001 := rfl
    rw [this, csum_nine_real, cmax_real]
    simp only [facade_wall]; rfl

theorem solar_spec {x : Sim ℝ} (sun : Fin 9 → ℝ) :
    qSolarHeatGain x.bldg (initConsts x) (freshRatios x.bldg) sun = solarGain x sun := by
  have hs : (initConsts x).shadingUsePerWPerM2 = x.bldg.shadingFactorAtMaxUse / x.bldg.irradianceForMaxShadingUse := rfl
  simp only [qSolarHeatGain, csum_nine_real, solarGain, hs]
  rw [Finset.sum_div]
  apply Finset.sum_congr rfl
  intro i _
  simp only [freshRatios, facade, structureCalculations, cmin_real]
  ring

theorem air_spec {x : Sim ℝ} (hf : x.bldg.floorArea ≠ 0) (vent t w ti : ℝ) :
    (airFlow x.ventilation (initConsts x) vent t w ti).qEnteringTotal =
      throughEnvelope x vent t ti w + supplied x vent ∧
    (airFlow x.ventilation (initConsts x) vent t w ti).tEnteringAndSupplied =
      (t * throughEnvelope x vent t ti w + supplyTemperature x t * supplied x vent) /
        (throughEnvelope x vent t ti w + supplied x vent) := by
  have z : (0.0:ℝ) = 0 := by norm_num
  have eq : (initConsts x).q4Pa = leakageAt4Pa x := by
    have : (initConsts x).q4Pa = cmax 0.000001
      (0.19 * (x.ventilation.n50 * (x.bldg.floorArea * x.bldg.buildingHeight)) / x.bldg.floorArea) := rfl
    rw [this, cmax_real, leakageAt4Pa]; congr 1; field_simp
  have eh : (initConsts x).windImpactHz = max 0.1 x.ventilation.hzone := by
    have : (initConsts x).windImpactHz = cmax 0.1 x.ventilation.hzone := rfl
    rw [this, cmax_real]
  have er : (initConsts x).windImpactSupplyRatio = max 0.00001 x.ventilation.fanControlFactor := by
    have : (initConsts x).windImpactSupplyRatio = cmax 0.00001 x.ventilation.fanControlFactor := rfl
    rw [this, cmax_real]
  have es : 0.0146 * (initConsts x).q4Pa *
      cpow (0.5 * (initConsts x).windImpactHz * (cmax 0.00001 (cabs (t - ti)))) 0.667 = stackFlow x t ti := by
    rw [eq, eh]; simp only [stackFlow, realnum]
  have ew : 0.0769 * (initConsts x).q4Pa * cpow (x.ventilation.dCp * w * w) 0.667 = windFlow x w := by
    rw [eq]; simp only [windFlow, realnum]; rw [mul_assoc x.ventilation.dCp, ← sq]
  have ev : cmax 0.0 (-(vent * (initConsts x).windImpactSupplyRatio - vent)) + cmax 0.0
      (cmax (0.0146 * (initConsts x).q4Pa *
        cpow (0.5 * (initConsts x).windImpactHz * (cmax 0.00001 (cabs (t - ti)))) 0.667)
        (0.0769 * (initConsts x).q4Pa * cpow (x.ventilation.dCp * w * w) 0.667) -
      cabs (-(vent * (initConsts x).windImpactSupplyRatio - vent)) *
        (0.5 * (0.0146 * (initConsts x).q4Pa *
        cpow (0.5 * (initConsts x).windImpactHz * (cmax 0.00001 (cabs (t - ti)))) 0.667) +
        0.667 * (0.0769 * (initConsts x).q4Pa * cpow (x.ventilation.dCp * w * w) 0.667) /
        (0.0146 * (initConsts x).q4Pa *
        cpow (0.5 * (initConsts x).windImpactHz * (cmax 0.00001 (cabs (t - ti)))) 0.667 +
        0.0769 * (initConsts x).q4Pa * cpow (x.ventilation.dCp * w * w) 0.667))) = throughEnvelope x vent t ti w := by
    rw [es, ew, er]
    simp only [throughEnvelope, supplied, realnum, z, neg_sub]
  have et : cmax x.ventilation.ventPreheatDegC
      ((1.0 - x.ventilation.heatRecoveryEfficiency) * t + x.ventilation.heatRecoveryEfficiency * 20.0) =
        supplyTemperature x t := by
    rw [cmax_real, supplyTemperature]; congr 1; norm_num; ring
  have eu : vent * (initConsts x).windImpactSupplyRatio = supplied x vent := by rw [er, supplied]
  simp only [airFlow]
  rw [ev, et, eu]
  exact ⟨rfl, rfl⟩

/-- the network of the program as a network of three nodes -/
noncomputable def nodes (n : Net ℝ) : ThreeNodes where
  capacity := n.Cm
  massSurface := n.H_ms
  massOutdoor := n.hem
  surfaceAir := n.H_tris
  surfaceOutdoor := n.hw
  airExchange := n.hei
  outdoor := n.tOut
  entering := n.tEnt
  toAir := n.phii
  toSurface := n.phis
  toMass := n.phim

theorem nodes_spec {x : Sim ℝ} (hf : x.bldg.floorArea ≠ 0) (ht : x.bldg.totalAreaPerFloorArea ≠ 0)
    (sch : Schedule ℝ) (w : HourWeather ℝ) (st : ThermalState ℝ) :
    nodes (hourNet x (initConsts x) (freshRatios x.bldg) sch w st) =
      buildingNetwork x (sch.ventilation * 3.6 / x.bldg.floorArea) st.tiHeatCool
        (sch.interiorEquipment + electricForTotalLightArea x.bldg (initConsts x) (freshRatios x.bldg) w.solarRadiation *
          sch.interiorLighting * x.lights.elecInternalGains) w.temperature w.windMps w.solarRadiation := by
  obtain ⟨c1, c2, c3, c4, c5⟩ := consts_spec x
  obtain ⟨a1, a2⟩ := air_spec hf (sch.ventilation * 3.6 / x.bldg.floorArea) w.temperature w.windMps st.tiHeatCool
  have hs := solar_spec (x := x) w.solarRadiation
  have m1 : (initConsts x).H_ms = massCoefficient x * massArea x := by rw [← c2, ← c3]; rfl
  have k0 : (1.0:ℝ) = 1 := by norm_num
  have m2 : (initConsts x).hem = 1 / (1 / wallConductance x - 1 / (massCoefficient x * massArea x)) := by
    rw [← c5, ← m1]
    have : (initConsts x).hem = 1.0 / (1.0 / (initConsts x).hOpaqueWperkm2 - 1.0 / (initConsts x).H_ms) := rfl
    rw [this, k0]
  have m3 : (initConsts x).H_tris = x.bldg.totalAreaPerFloorArea / (1 / x.simSettings.hci - 1 / massCoefficient x) := by
    have : (initConsts x).H_tris = 1.0 / (1.0 / x.simSettings.hci - 1.0 / (initConsts x).h_ms) *
      x.bldg.totalAreaPerFloorArea := rfl
    rw [this, c3, k0]; ring
  have m4 : (initConsts x).prs = 1 - massArea x / x.bldg.totalAreaPerFloorArea -
      windowConductance x / (massCoefficient x * x.bldg.totalAreaPerFloorArea) := by
    have : (initConsts x).prs = (x.bldg.totalAreaPerFloorArea - (initConsts x).Am -
      (initConsts x).hwindowWperkm2 / (initConsts x).h_ms) / x.bldg.totalAreaPerFloorArea := rfl
    rw [this, c2, c3, c4, sub_div, sub_div, div_self ht, div_div]
  have m5 : (initConsts x).prm = massArea x / x.bldg.totalAreaPerFloorArea := by
    rw [← c2]; rfl
  have m6 : (initConsts x).prsInterior = (1.0 - x.simSettings.phiIntFractionToAirNode) * (initConsts x).prs := rfl
  have m7 : (initConsts x).prsSolar = (1.0 - x.simSettings.phiSolFractionToAirNode) * (initConsts x).prs := rfl
  have m8 : (initConsts x).prmInterior = (1.0 - x.simSettings.phiIntFractionToAirNode) * (initConsts x).prm := rfl
  have m9 : (initConsts x).prmSolar = (1.0 - x.simSettings.phiSolFractionToAirNode) * (initConsts x).prm := rfl
  simp only [nodes, hourNet, network, buildingNetwork, hs, a1, a2, c1, c4, m1, m2, m3, m6, m7, m8, m9, m4, m5, k0]
  congr 1 <;> ring

/-- the temperatures the program computes are balanced, with the surface temperature it uses on the way -/
theorem balanced_net {n : Net ℝ} (h : NetPos n) (phi T : ℝ) :
    Balanced (nodes n) T (tmNext n (phi + n.phii) T)
      ((n.H_ms * (0.5 * (T + tmNext n (phi + n.phii) T)) + n.phis + n.hw * n.tOut +
        n.h1 * (n.tEnt + (phi + n.phii) / n.hei)) / (n.H_ms + n.hw + n.h1))
      (tAir n (phi + n.phii) T) phi := by
  obtain ⟨p1, p2, p3, p4, p5, p6, p7, p8, p9, e1, e2, e3⟩ := h
  have e0 : (0.5:ℝ) = 1 / 2 := by norm_num
  have hc : 0 < n.Cm / 3.6 := by positivity
  have e1' : n.h1 = n.hei * n.H_tris / (n.hei + n.H_tris) := by rw [e1]; field_simp; ring
  have e3' : n.h3 = n.h2 * n.H_ms / (n.h2 + n.H_ms) := by rw [e3]; field_simp; ring
  have hS : n.H_ms + n.hw + n.h1 = n.h2 + n.H_ms := by rw [e2]; ring
  have hT : tAir n (phi + n.phii) T = (n.H_tris * ((n.H_ms * (0.5 * (T + tmNext n (phi + n.phii) T)) + n.phis + n.hw * n.tOut +
        n.h1 * (n.tEnt + (phi + n.phii) / n.hei)) / (n.H_ms + n.hw + n.h1)) + n.hei * n.tEnt + (phi + n.phii)) /
          (n.H_tris + n.hei) := rfl
  have hM : tmNext n (phi + n.phii) T * (n.Cm / 3.6 + 0.5 * (n.h3 + n.hem)) =
      T * (n.Cm / 3.6 - 0.5 * (n.h3 + n.hem)) + (n.phim + n.hem * n.tOut +
        n.h3 * (n.phis + n.hw * n.tOut + n.h1 * ((phi + n.phii) / n.hei + n.tEnt)) / n.h2) := by
    have : 0 < n.Cm / 3.6 + 0.5 * (n.h3 + n.hem) := by positivity
    unfold tmNext
    exact div_mul_cancel₀ _ this.ne'
  rw [hT, hS]
  generalize tmNext n (phi + n.phii) T = T' at *
  generalize hX : n.phis + n.hw * n.tOut + n.h1 * ((phi + n.phii) / n.hei + n.tEnt) = X at *
  have hsX : n.H_ms * (0.5 * (T + T')) + n.phis + n.hw * n.tOut + n.h1 * (n.tEnt + (phi + n.phii) / n.hei) =
      n.H_ms * (0.5 * (T + T')) + X := by rw [← hX]; ring
  rw [hsX]
  generalize hts : (n.H_ms * (0.5 * (T + T')) + X) / (n.h2 + n.H_ms) = ts at *
  have hts' : n.H_ms * (0.5 * (T + T')) + X = ts * (n.h2 + n.H_ms) := by
    rw [← hts]; field_simp
  have hta : ∀ q, n.H_tris * ((n.H_tris * ts + n.hei * n.tEnt + q) / (n.H_tris + n.hei) - ts) =
      n.h1 * (q / n.hei + n.tEnt - ts) := by
    intro q; rw [e1']; field_simp; ring
  have hh : n.h3 * X / n.h2 = n.H_ms * (ts - 0.5 * (T + T')) + n.h3 * (0.5 * (T + T')) := by
    have : X = ts * (n.h2 + n.H_ms) - n.H_ms * (0.5 * (T + T')) := by linarith
    rw [this, e3']; field_simp; ring
  constructor
  · simp only [nodes]
    rw [hh, e0] at hM
    rw [e0] at *
    linear_combination hM
  · simp only [nodes]
    rw [hta, e0] at *
    rw [e2] at hts'
    linear_combination -hX - hts'
  · simp only [nodes]
    have hd : n.H_tris + n.hei ≠ 0 := by positivity
    field_simp
    ring

/-- the balances determine the temperatures -/
theorem balanced_unique {n : ThreeNodes} (h1 : 0 < n.capacity) (h2 : 0 < n.massSurface) (h3 : 0 < n.massOutdoor)
    (h4 : 0 < n.surfaceAir) (h5 : 0 ≤ n.surfaceOutdoor) (h6 : 0 < n.airExchange) {T T₁ T₂ s₁ s₂ a₁ a₂ p : ℝ}
    (b₁ : Balanced n T T₁ s₁ a₁ p) (b₂ : Balanced n T T₂ s₂ a₂ p) : T₁ = T₂ ∧ s₁ = s₂ ∧ a₁ = a₂ := by
  obtain ⟨m1, f1, i1⟩ := b₁
  obtain ⟨m2, f2, i2⟩ := b₂
  have hc : 0 < n.capacity / 3.6 := by positivity
  generalize n.capacity / 3.6 = c at *
  have q1 : c * (T₁ - T₂) = n.massSurface * ((s₁ - s₂) - (T₁ - T₂) / 2) - n.massOutdoor * ((T₁ - T₂) / 2) := by
    linear_combination m1 - m2
  have q2 : n.massSurface * ((s₁ - s₂) - (T₁ - T₂) / 2) + n.surfaceOutdoor * (s₁ - s₂) =
      n.surfaceAir * ((a₁ - a₂) - (s₁ - s₂)) := by linear_combination f1 - f2
  have q3 : n.airExchange * (a₁ - a₂) + n.surfaceAir * ((a₁ - a₂) - (s₁ - s₂)) = 0 := by linear_combination i1 - i2
  have key : c * (T₁ - T₂) ^ 2 / 2 + n.massOutdoor * ((T₁ - T₂) / 2) ^ 2 +
      n.massSurface * ((s₁ - s₂) - (T₁ - T₂) / 2) ^ 2 + n.surfaceOutdoor * (s₁ - s₂) ^ 2 +
      n.surfaceAir * ((a₁ - a₂) - (s₁ - s₂)) ^ 2 + n.airExchange * (a₁ - a₂) ^ 2 = 0 := by
    linear_combination (T₁ - T₂) / 2 * q1 + (s₁ - s₂) * q2 + (a₁ - a₂) * q3
  have k1 : c * (T₁ - T₂) ^ 2 / 2 ≥ 0 := by positivity
  have k2 : n.massOutdoor * ((T₁ - T₂) / 2) ^ 2 ≥ 0 := by positivity
  have k3 : n.massSurface * ((s₁ - s₂) - (T₁ - T₂) / 2) ^ 2 ≥ 0 := by positivity
  have k4 : n.surfaceOutdoor * (s₁ - s₂) ^ 2 ≥ 0 := by positivity
  have k5 : n.surfaceAir * ((a₁ - a₂) - (s₁ - s₂)) ^ 2 ≥ 0 := by positivity
  have k6 : n.airExchange * (a₁ - a₂) ^ 2 ≥ 0 := by positivity
  have z1 : c * (T₁ - T₂) ^ 2 / 2 = 0 := by linarith
  have z6 : n.airExchange * (a₁ - a₂) ^ 2 = 0 := by linarith
  have z5 : n.surfaceAir * ((a₁ - a₂) - (s₁ - s₂)) ^ 2 = 0 := by linarith
  have y1 : T₁ - T₂ = 0 := by
    rcases mul_eq_zero.mp (by linarith : c * (T₁ - T₂) ^ 2 = 0) with h | h
    · exact absurd h hc.ne'
    · exact pow_eq_zero_iff (by norm_num) |>.mp h
  have y6 : a₁ - a₂ = 0 := by
    rcases mul_eq_zero.mp z6 with h | h
    · exact absurd h h6.ne'
    · exact pow_eq_zero_iff (by norm_num) |>.mp h
  have y5 : (a₁ - a₂) - (s₁ - s₂) = 0 := by
    rcases mul_eq_zero.mp z5 with h | h
    · exact absurd h h4.ne'
    · exact pow_eq_zero_iff (by norm_num) |>.mp h
  exact ⟨by linarith, by linarith, by linarith⟩

/-- Annual balance: whenever the balances hold in every hour, what the building gains (inside, from the sun, by
heating minus cooling) is what it loses to the outside plus what its mass stores over the year. -/
theorem balanced_sum {n : ℕ} (nets : Fin n → ThreeNodes) {capacity : ℝ} (hc : ∀ i, (nets i).capacity = capacity)
    (mass surface air power : ℕ → ℝ)
    (h : ∀ i : Fin n, Balanced (nets i) (mass i) (mass (i + 1)) (surface i) (air (i + 1)) (power i)) :
    ∑ i : Fin n, power i + ∑ i : Fin n, ((nets i).toAir + (nets i).toSurface + (nets i).toMass) =
      ∑ i : Fin n, losses (nets i) (mass i) (mass (i + 1)) (surface i) (air (i + 1)) +
        capacity / 3.6 * (mass n - mass 0) := by
  have tel : ∑ i : Fin n, (mass (i + 1) - mass i) = mass n - mass 0 := by
    rw [Fin.sum_univ_eq_sum_range (fun i => mass (i + 1) - mass i) n, Finset.sum_range_sub]
  rw [← tel, Finset.mul_sum, ← Finset.sum_add_distrib, ← Finset.sum_add_distrib]
  apply Finset.sum_congr rfl
  intro i _
  obtain ⟨h1, h2, h3⟩ := h i
  rw [hc i] at h1
  unfold losses
  linear_combination -h3 - h2 - h1

theorem stateAt_fin {x : Sim ℝ} (hx : Physical x) (r : Ratios ℝ)
    (l : List (Schedule ℝ × HourWeather ℝ)) (hl : ∀ a ∈ l, 0 ≤ a.1.ventilation) (st : ThermalState ℝ) (i : ℕ) :
    stateAt (x.map fin) ((initConsts x).map fin) (r.map fin) (l.map fun a => (a.1.map fin, a.2.map fin)) (st.map fin) i =
      (stateAt x (initConsts x) r l st i).map fin := by
  induction l generalizing st i with
  | nil => cases i <;> rfl
  | cons a l ih =>
    cases i with
    | zero => rfl
    | succ i =>
      simp only [List.map_cons, stateAt, calculateHour_fin' hx r (hl a (by simp)) a.2 st]
      exact ih (fun b hb => hl b (by simp [hb])) _ _

theorem runStates_stateAt {α : Type} [CNum α] [OfInt α] (x : Sim α) (c : Consts α) (r : Ratios α)
    (l : List (Schedule α × HourWeather α)) (st : ThermalState α) (i : ℕ) (h : i < l.length) :
    (runStates x c r l st)[i]? = some (stateAt x c r l st (i + 1)) := by
  induction l generalizing st i with
  | nil => simp at h
  | cons a l ih =>
    cases i with
    | zero => simp [runStates, stateAt]
    | succ i =>
      simp only [runStates, List.getElem?_cons_succ]
      rw [ih _ _ (by simpa using h)]; rfl

/-- one hour of a new model is balanced -/
theorem balance_hour {x : Sim ℝ} (hx : Physical x) {sch : Schedule ℝ} (hv : 0 ≤ sch.ventilation) (w : HourWeather ℝ)
    (st : ThermalState ℝ) : ∃ surface, Balanced
      (buildingNetwork x (sch.ventilation * 3.6 / x.bldg.floorArea) st.tiHeatCool
        ((calculateHour x (initConsts x) (freshRatios x.bldg) sch w st).2.phi_plug +
          (calculateHour x (initConsts x) (freshRatios x.bldg) sch w st).2.Q_illum_tot * x.lights.elecInternalGains)
        w.temperature w.windMps w.solarRadiation)
      st.TMT1 (calculateHour x (initConsts x) (freshRatios x.bldg) sch w st).1.TMT1 surface
      (calculateHour x (initConsts x) (freshRatios x.bldg) sch w st).1.tiHeatCool
      ((calculateHour x (initConsts x) (freshRatios x.bldg) sch w st).2.Qneed_ht -
        (calculateHour x (initConsts x) (freshRatios x.bldg) sch w st).2.Qneed_cl) := by
  have hn := hourNet_pos hx (freshRatios x.bldg) hv w st
  obtain ⟨e1, e2, e3, e4⟩ := calculateHour_state x (initConsts x) (freshRatios x.bldg) sch w st
  have e5 : (calculateHour x (initConsts x) (freshRatios x.bldg) sch w st).2.phi_plug = sch.interiorEquipment := rfl
  have e6 : (calculateHour x (initConsts x) (freshRatios x.bldg) sch w st).2.Q_illum_tot =
    electricForTotalLightArea x.bldg (initConsts x) (freshRatios x.bldg) w.solarRadiation * sch.interiorLighting := rfl
  have e7 := nodes_spec hx.floor.ne' hx.totalArea.ne' sch w st
  rw [e5, e6, ← e7, e1, e2, e3, e4]
  have e8 : max 0 (hourPhi x (initConsts x) (freshRatios x.bldg) sch w st) -
      max 0 (-hourPhi x (initConsts x) (freshRatios x.bldg) sch w st) =
        hourPhi x (initConsts x) (freshRatios x.bldg) sch w st := by
    generalize hourPhi x (initConsts x) (freshRatios x.bldg) sch w st = p
    rcases le_total 0 p with h | h
    · rw [max_eq_right h, max_eq_left (by linarith)]; ring
    · rw [max_eq_left h, max_eq_right (by linarith)]; ring
  rw [e8]
  exact ⟨_, balanced_net hn _ _⟩

/-- any number of hours of a new model are balanced -/
theorem balance_list {x : Sim ℝ} (hx : Physical x) (l : List (Schedule ℝ × HourWeather ℝ))
    (hl : ∀ a ∈ l, 0 ≤ a.1.ventilation) (st : ThermalState ℝ) :
    ∃ mass air surface heat cool plug light : ℕ → ℝ, mass 0 = st.TMT1 ∧ air 0 = st.tiHeatCool ∧
      ∀ i (h : i < l.length),
      (runStates (x.map fin) ((initConsts x).map fin) ((freshRatios x.bldg).map fin)
        (l.map fun a => (a.1.map fin, a.2.map fin)) (st.map fin))[i]? = some ⟨fin (mass (i + 1)), fin (air (i + 1))⟩ ∧
      (∃ q, (runHours (x.map fin) ((initConsts x).map fin) ((freshRatios x.bldg).map fin)
        (l.map fun a => (a.1.map fin, a.2.map fin)) (st.map fin))[i]? = some q ∧
        q.Qneed_ht = fin (heat i) ∧ q.Qneed_cl = fin (cool i) ∧
        q.phi_plug = fin (plug i) ∧ q.Q_illum_tot = fin (light i)) ∧
      Balanced (buildingNetwork x (l[i].1.ventilation * 3.6 / x.bldg.floorArea) (air i)
          (plug i + light i * x.lights.elecInternalGains) l[i].2.temperature l[i].2.windMps l[i].2.solarRadiation)
        (mass i) (mass (i + 1)) (surface i) (air (i + 1)) (heat i - cool i) := by
  generalize hS : stateAt x (initConsts x) (freshRatios x.bldg) l st = S
  have hS0 : S 0 = st := by rw [← hS]; cases l <;> rfl
  have hstep : ∀ i (h : i < l.length), S (i + 1) = (calculateHour x (initConsts x) (freshRatios x.bldg)
      l[i].1 l[i].2 (S i)).1 := by
    intro i h
    rw [← hS, stateAt_succ x (initConsts x) (freshRatios x.bldg) l st i h]
  have hbal := fun i : Fin l.length => balance_hour hx (hl l[i] (List.getElem_mem _)) l[i].2 (S i.1)
  choose surf hsurf using hbal
  obtain ⟨R, hR⟩ : ∃ R : ℕ → HourResults ℝ, ∀ i (h : i < l.length),
      R i = (calculateHour x (initConsts x) (freshRatios x.bldg) l[i].1 l[i].2 (S i)).2 :=
    ⟨fun j => if h : j < l.length then (calculateHour x (initConsts x) (freshRatios x.bldg) l[j].1 l[j].2 (S j)).2
      else ⟨0, 0, 0, 0, 0, 0, 0, 0, 0⟩, fun i h => by simp only [h, dif_pos]⟩
  refine ⟨fun j => (S j).TMT1, fun j => (S j).tiHeatCool, fun j => if h : j < l.length then surf ⟨j, h⟩ else 0,
    fun j => (R j).Qneed_ht, fun j => (R j).Qneed_cl, fun j => (R j).phi_plug, fun j => (R j).Q_illum_tot,
    congrArg _ hS0, congrArg _ hS0, ?_⟩
  intro i h
  refine ⟨?_, ?_, ?_⟩
  · rw [runStates_stateAt _ _ _ _ _ _ (by rw [List.length_map]; exact h), stateAt_fin hx _ l hl, hS]
    rfl
  · have hlen : i < (runHours (x.map fin) ((initConsts x).map fin) ((freshRatios x.bldg).map fin)
        (l.map fun a => (a.1.map fin, a.2.map fin)) (st.map fin)).length := by
      rw [runHours_length, List.length_map]; exact h
    refine ⟨_, List.getElem?_eq_getElem hlen, ?_⟩
    rw [runHours_get _ _ _ _ _ i hlen (by rw [List.length_map]; exact h), List.getElem_map, stateAt_fin hx _ l hl, hS,
      calculateHour_fin' hx _ (hl l[i] (List.getElem_mem _))]
    simp only [hR i h]
    exact ⟨rfl, rfl, rfl, rfl⟩
  · have hb := hsurf ⟨i, h⟩
    simp only [h, dif_pos, hR i h, hstep i h]
    exact hb

/-- the conductances of a physical building -/
theorem network_positive {x : Sim ℝ} (hx : Physical x) {extract : ℝ} (hv : 0 ≤ extract) (indoor inside outdoor wind : ℝ)
    (sun : Fin 9 → ℝ) :
    0 < (buildingNetwork x extract indoor inside outdoor wind sun).capacity ∧
    0 < (buildingNetwork x extract indoor inside outdoor wind sun).massSurface ∧
    0 < (buildingNetwork x extract indoor inside outdoor wind sun).massOutdoor ∧
    0 < (buildingNetwork x extract indoor inside outdoor wind sun).surfaceAir ∧
    0 ≤ (buildingNetwork x extract indoor inside outdoor wind sun).surfaceOutdoor ∧
    0 < (buildingNetwork x extract indoor inside outdoor wind sun).airExchange := by
  have hf := hx.floor
  have hv' : 0 ≤ extract * x.bldg.floorArea / 3.6 := by positivity
  have e7 := nodes_spec hx.floor.ne' hx.totalArea.ne' ⟨extract * x.bldg.floorArea / 3.6, 0, inside, 0, 0, 0, 0⟩
    ⟨wind, outdoor, sun⟩ ⟨0, indoor⟩
  have ev : extract * x.bldg.floorArea / 3.6 * 3.6 / x.bldg.floorArea = extract := by
    rw [div_mul_cancel₀ _ (by norm_num), mul_div_assoc, div_self hf.ne', mul_one]
  simp only [ev, mul_zero, zero_mul, add_zero] at e7
  have hn := hourNet_pos hx (freshRatios x.bldg) (sch := ⟨extract * x.bldg.floorArea / 3.6, 0, inside, 0, 0, 0, 0⟩) hv'
    ⟨wind, outdoor, sun⟩ ⟨0, indoor⟩
  rw [← e7]
  exact ⟨hn.Cm, hn.H_ms, hn.hem, hn.H_tris, hn.hw, hn.hei⟩

end ISO.Hourly
