import Verif.Props.EndUses

/-!
# C23, C25, C26: a building with demand and a building without
-/

namespace ISO.Props
open ISO ISO.Spec ISO.Hourly ISO.Epw CNum Dbl

/-! ### a building without any demand -/

/-- the small office, empty and without equipment, with set-points 18 and 24 -/
noncomputable def stillHouse : Sim ℝ :=
  { smallOffice with
    lights := { smallOffice.lights with powerDensityOccupied := 0, powerDensityUnoccupied := 0 }
    building := { smallOffice.building with electricApplianceHeatGainOccupied := 0, electricApplianceHeatGainUnoccupied := 0 }
    heating := { smallOffice.heating with temperatureSetPointOccupied := 18, temperatureSetPointUnoccupied := 18 }
    cooling := { smallOffice.cooling with temperatureSetPointOccupied := 24, temperatureSetPointUnoccupied := 24 } }

/-- 20 degrees, no sun, no wind, all year -/
noncomputable def stillWeather : Weather ℝ where
  latitude := 41.98
  longitude := -87.92
  timezone := -6
  data := fun c _ => if c = DBT then 20 else 0

theorem stillHouse_physical : Physical stillHouse := by
  constructor
  case opaque_ =>
    simp only [stillHouse, smallOffice, Fin.sum_univ_succ, Fin.sum_univ_zero]
    norm_num [nineOf, Fin.succ]
  case wallArea => intro i; fin_cases i <;> norm_num [stillHouse, smallOffice, nineOf]
  case wallU => intro i; fin_cases i <;> norm_num [stillHouse, smallOffice, nineOf]
  case windowArea => intro i; fin_cases i <;> norm_num [stillHouse, smallOffice, nineOf]
  case windowU => intro i; fin_cases i <;> norm_num [stillHouse, smallOffice, nineOf]
  all_goals norm_num [stillHouse, smallOffice]

theorem stillHouse_systems : Systems stillHouse := by
  constructor <;> norm_num [stillHouse, smallOffice]

theorem notOverhead_of_lat {w : Weather ℝ} (h : w.latitude = 41.98) : NotOverhead w := fun _ =>
  C19_never_zenith _ (by simp only [SunLemmas.place, h]; norm_num [abs_of_pos])
    (by simp only [SunLemmas.place, h]; norm_num [abs_of_pos]) _ _

/-- a network in equilibrium with its surroundings stays there -/
theorem equilibrium {n : Net ℝ} (h : NetPos n) (h1 : n.tOut = 20) (h2 : n.tEnt = 20) (h4 : n.phis = 0)
    (h5 : n.phim = 0) : tmNext n 0 20 = 20 ∧ tAir n 0 20 = 20 := by
  have k1 : tmNext n 0 20 = 20 := by
    have e2 := h.e2
    have k2 := h.h2.ne'
    have hD := (denom_pos h).ne'
    unfold tmNext
    simp only [h1, h2, h4, h5]
    rw [div_eq_iff hD]
    have : n.h3 * (0 + n.hw * 20 + n.h1 * (0 / n.hei + 20)) / n.h2 = 20 * n.h3 := by
      rw [div_eq_iff k2, zero_div, e2]; ring
    rw [this]; norm_num; ring
  refine ⟨k1, ?_⟩
  have k2 : n.H_ms + n.hw + n.h1 ≠ 0 := by have := h.H_ms; have := h.hw; have := h.h1; positivity
  have k3 : n.H_tris + n.hei ≠ 0 := by have := h.H_tris; have := h.hei; positivity
  unfold tAir
  simp only [k1, h1, h2, h4, zero_div]
  have : (n.H_ms * (0.5 * (20 + 20)) + 0 + n.hw * 20 + n.h1 * (20 + 0)) / (n.H_ms + n.hw + n.h1) = 20 := by
    rw [div_eq_iff k2]; norm_num; ring
  rw [this, div_eq_iff k3]; ring

/-- an hour without sun and gains at 20 degrees -/
theorem still_hour {x : Sim ℝ} (hx : Physical x) (r : Ratios ℝ) {sch : Schedule ℝ} (hv : 0 ≤ sch.ventilation)
    (h1 : sch.interiorEquipment = 0) (h2 : sch.interiorLighting = 0) (h3 : sch.heatingSetpoint ≤ 20)
    (h4 : 20 ≤ sch.coolingSetpoint) (hp : x.ventilation.ventPreheatDegC ≤ 20) {w : HourWeather ℝ} (h5 : w.temperature = 20)
    (h6 : ∀ i, w.solarRadiation i = 0) :
    (calculateHour x (initConsts x) r sch w ⟨20, 20⟩).1 = ⟨20, 20⟩ ∧
    (calculateHour x (initConsts x) r sch w ⟨20, 20⟩).2.Qneed_ht = 0 ∧
    (calculateHour x (initConsts x) r sch w ⟨20, 20⟩).2.Qneed_cl = 0 := by
  have hn := hourNet_pos hx r hv w ⟨20, 20⟩
  have hvp : 0 ≤ sch.ventilation * 3.6 / x.bldg.floorArea := by have := hx.floor; positivity
  have hqe := qEnteringTotal_pos (v := x.ventilation) (physical_consts hx).2 hvp w.temperature w.windMps 20
  have hsol : qSolarHeatGain x.bldg (initConsts x) r w.solarRadiation = 0 := by
    unfold qSolarHeatGain; rw [csum_nine_real]
    exact Finset.sum_eq_zero fun i _ => by rw [h6 i, zero_mul]
  have n1 : (hourNet x (initConsts x) r sch w ⟨20, 20⟩).tOut = 20 := h5
  have n2 : (hourNet x (initConsts x) r sch w ⟨20, 20⟩).tEnt = 20 := by
    show (airFlow _ _ _ _ _ _).tEnteringAndSupplied = 20
    have e : ∀ a b c d e f, (airFlow a b c d e f : Air ℝ).tEnteringAndSupplied =
        (d * (airFlow a b c d e f).qEnvelope + cmax a.ventPreheatDegC ((1.0 - a.heatRecoveryEfficiency) * d
          + a.heatRecoveryEfficiency * 20.0) * (airFlow a b c d e f).qSupplyBySystem) / (airFlow a b c d e f).qEnteringTotal :=
      fun _ _ _ _ _ _ => rfl
    have q : ∀ a b c d e f, (airFlow a b c d e f : Air ℝ).qEnteringTotal =
      (airFlow a b c d e f).qEnvelope + (airFlow a b c d e f).qSupplyBySystem := fun _ _ _ _ _ _ => rfl
    rw [e, div_eq_iff hqe.ne', q, h5, cmax_real, max_eq_right]
    · norm_num; ring
    · norm_num; linarith
  have z : sch.interiorEquipment + electricForTotalLightArea x.bldg (initConsts x) r w.solarRadiation * sch.interiorLighting
      * x.lights.elecInternalGains = 0 := by rw [h1, h2]; ring
  have n3 : (hourNet x (initConsts x) r sch w ⟨20, 20⟩).phii = 0 := by
    simp only [hourNet, network, hsol, z]; ring
  have n4 : (hourNet x (initConsts x) r sch w ⟨20, 20⟩).phis = 0 := by
    simp only [hourNet, network, hsol, z]; ring
  have n5 : (hourNet x (initConsts x) r sch w ⟨20, 20⟩).phim = 0 := by
    simp only [hourNet, network, hsol, z]; ring
  obtain ⟨q1, q2⟩ := equilibrium hn n1 n2 n4 n5
  obtain ⟨-, t2, t3⟩ := tAir_controlled hn (h3.trans h4) 20
  rw [n3, q2] at t2 t3
  have hphi : hourPhi x (initConsts x) r sch w ⟨20, 20⟩ = 0 := by
    unfold hourPhi
    simp only []
    apply le_antisymm
    · exact not_lt.mp fun h => absurd (t2.mp h) (not_lt.mpr h3)
    · exact not_lt.mp fun h => absurd (t3.mp h) (not_lt.mpr h4)
  obtain ⟨s1, s2, s3, s4⟩ := calculateHour_state x (initConsts x) r sch w ⟨20, 20⟩
  rw [hphi] at s1 s2 s3 s4
  rw [n3, add_zero, q1] at s1
  rw [n3, add_zero, q2] at s2
  refine ⟨?_, by rw [s3]; simp, by rw [s4]; simp⟩
  generalize (calculateHour x (initConsts x) r sch w ⟨20, 20⟩).1 = s at s1 s2 ⊢
  cases s; simp only at s1 s2; rw [s1, s2]

theorem still_run {x : Sim ℝ} (r : Ratios ℝ) (l : List (Schedule ℝ × HourWeather ℝ))
    (hl : ∀ a ∈ l, (calculateHour x (initConsts x) r a.1 a.2 ⟨20, 20⟩).1 = ⟨20, 20⟩ ∧
      (calculateHour x (initConsts x) r a.1 a.2 ⟨20, 20⟩).2.Qneed_ht = 0 ∧
      (calculateHour x (initConsts x) r a.1 a.2 ⟨20, 20⟩).2.Qneed_cl = 0) :
    ∀ q ∈ runHours x (initConsts x) r l ⟨20, 20⟩, q.Qneed_ht = 0 ∧ q.Qneed_cl = 0 := by
  induction l with
  | nil => simp [runHours]
  | cons a l ih =>
    intro q hq
    have ha := hl a (by simp)
    simp only [runHours, List.mem_cons] at hq
    rcases hq with rfl | hq
    · exact ha.2
    · rw [ha.1] at hq
      exact ih (fun b hb => hl b (by simp [hb])) q hq

theorem still_needs (win : Window) : ∀ q ∈ rawResults stillHouse (freshRatios stillHouse.bldg) win stillWeather,
    q.Qneed_ht = 0 ∧ q.Qneed_cl = 0 := by
  have e0 : (initialState : ThermalState ℝ) = ⟨20, 20⟩ := by
    simp only [initialState]; norm_num
  unfold rawResults
  rw [e0]
  apply still_run
  intro a ha
  obtain ⟨i, rfl⟩ := (List.mem_ofFn' _ _).mp ha
  have hok := hourInput_ok stillHouse_physical win stillWeather i
  have hs : ∀ h d, (scheduleCell stillHouse win h d).interiorEquipment = 0 ∧ (scheduleCell stillHouse win h d).interiorLighting = 0 ∧
      (scheduleCell stillHouse win h d).heatingSetpoint = 18 ∧ (scheduleCell stillHouse win h d).coolingSetpoint = 24 := by
    intro h d
    simp only [scheduleCell, stillHouse]
    cases (decide (win.hourStart ≤ h) && decide (h ≤ win.hourEnd) && (decide (win.dayStart ≤ d) && decide (d ≤ win.dayEnd)))
      <;> simp
  obtain ⟨c1, c2, c3, c4⟩ := hs (Solar.sliceAt i).hour (Solar.sliceAt i).dayOfWeek
  refine still_hour stillHouse_physical _ hok.vent c1 c2 ?_ ?_ ?_ ?_ ?_
  · exact c3.le.trans (by norm_num)
  · exact le_trans (by norm_num) c4.ge
  · norm_num [stillHouse, smallOffice]
  · rfl
  · intro k
    show (if h : k.1 < 8 then Solar.eglobe stillWeather i ⟨k.1, h⟩ else stillWeather.data EGH i) = 0
    split_ifs with hk
    · have hup := notOverhead_of_lat (w := stillWeather) rfl i
      have := C20_sum stillWeather i ⟨k.1, hk⟩ hup
      rw [Solar.eglobe_fin stillWeather i ⟨k.1, hk⟩ (NotOverhead.cos (notOverhead_of_lat rfl) i)] at this
      have e := Dbl.fin.inj this
      have d1 : stillWeather.data EB i = 0 := rfl
      have d2 : stillWeather.data ED i = 0 := rfl
      rw [e, d1, d2]
      simp [Spec.Sun.direct, Spec.Sun.sky, Spec.Sun.ground]
    · rfl

/-- C26: a reachable failure.  A physically meaningful building with sensible systems, whose free temperature always
stays between its set-points, gets NaN as heating and cooling energy in every hour of the year. -/
theorem C26_still : Physical stillHouse ∧ Systems stillHouse ∧ NotOverhead stillWeather ∧
    ∃ m' hourly, simulate false (fresh stillHouse stillWeather) = some (m', hourly) ∧ hourly.length = 8760 ∧
      ∀ u ∈ hourly, u 1 = nan ∧ (u 0 = nan ∨ u 9 = nan) := by
  refine ⟨stillHouse_physical, stillHouse_systems, notOverhead_of_lat rfl, ?_⟩
  obtain ⟨win, hw⟩ := window_ok (p := stillHouse.pop) (by norm_num [stillHouse, smallOffice])
    (by norm_num [stillHouse, smallOffice]) (by norm_num [stillHouse, smallOffice]) (by norm_num [stillHouse, smallOffice])
  apply C26_no_demand (fresh stillHouse stillWeather) (win := win) hw
  have e : rawResults (stillHouse.map fin) (freshRatios (stillHouse.map fin).bldg) win (stillWeather.map fin) =
      (rawResults stillHouse (freshRatios stillHouse.bldg) win stillWeather).map (·.map fin) := by
    have e0 : (stillHouse.map fin).bldg = stillHouse.bldg.map fin := rfl
    rw [e0, freshRatios_fin _ stillHouse_physical.floor.ne', rawResults_fin_systems stillHouse_physical stillHouse_systems
      _ win _ (NotOverhead.cos (notOverhead_of_lat rfl))]
  have hp : (pushAll (fresh stillHouse stillWeather).sim.bldg (fresh stillHouse stillWeather).pushed).ratios =
    freshRatios (stillHouse.map fin).bldg := pushAll_empty _
  rw [hp]
  show ∀ q ∈ rawResults (stillHouse.map fin) _ win (stillWeather.map fin), _
  rw [e]
  intro q hq
  obtain ⟨q, hq', rfl⟩ := List.mem_map.mp hq
  obtain ⟨h1, h2⟩ := still_needs win q hq'
  exact ⟨by show fin _ = fin 0; rw [h1], by show fin _ = fin 0; rw [h2]⟩

/-! ### a building with demand -/

theorem smallOffice_systems : Systems smallOffice := by
  constructor <;> norm_num [smallOffice]

theorem par_le {a b : ℝ} (ha : 0 < a) (hb : 0 < b) : 1 / (1 / a + 1 / b) ≤ a := by
  rw [div_le_iff₀ (by positivity), mul_add, mul_one_div_cancel ha.ne']
  have : 0 ≤ a * (1 / b) := by positivity
  linarith

/-- a building in the cold with gains only cannot warm up much in an hour -/
theorem cold_hour {n : Net ℝ} (h : NetPos n) (h1 : n.tOut = 0) (h2 : n.tEnt = 0) (h3 : 0 ≤ n.phii) (h4 : 0 ≤ n.phis)
    (h5 : 0 ≤ n.phim) {T : ℝ} (hT : 0 ≤ T) :
    tAir n n.phii T ≤ T + (n.phim + n.phis + n.phii) / (n.Cm / 3.6) + (n.phis + n.phii) / n.H_ms + n.phii / n.H_tris := by
  have hD := denom_pos h
  have p1 := h.hei; have p2 := h.h1; have p3 := h.h2; have p4 := h.h3; have p5 := h.H_ms; have p6 := h.H_tris
  have p7 := h.hem; have p8 := h.hw; have p9 := h.Cm
  have q1 : n.h1 ≤ n.hei := by rw [h.e1]; exact par_le h.hei h.H_tris
  have q2 : n.h3 ≤ n.h2 := by rw [h.e3]; exact par_le h.h2 h.H_ms
  have a1 : n.h1 * (n.phii / n.hei) ≤ n.phii := by
    rw [mul_div_assoc', div_le_iff₀ p1]; nlinarith
  have a2 : n.h3 * (n.phis + n.h1 * (n.phii / n.hei)) / n.h2 ≤ n.phis + n.phii := by
    rw [div_le_iff₀ p3]
    have : 0 ≤ n.h1 * (n.phii / n.hei) := by positivity
    nlinarith
  have k : (0.5:ℝ) = 1 / 2 := by norm_num
  have c0 : (0:ℝ) < n.Cm / 3.6 := by positivity
  have b1 : tmNext n n.phii T ≤ T + (n.phim + n.phis + n.phii) / (n.Cm / 3.6) := by
    unfold tmNext
    simp only [h1, h2, mul_zero, add_zero]
    rw [div_le_iff₀ hD]
    generalize n.Cm / 3.6 = c at *
    have e : (n.phim + n.phis + n.phii) / c * (c + 0.5 * (n.h3 + n.hem)) ≥ n.phim + n.phis + n.phii := by
      rw [ge_iff_le, div_mul_eq_mul_div, le_div_iff₀ c0]
      have : 0 ≤ n.phim + n.phis + n.phii := by positivity
      rw [k]; nlinarith
    rw [k] at *
    nlinarith
  have b2 : 0 ≤ (n.phim + n.phis + n.phii) / (n.Cm / 3.6) := by positivity
  generalize (n.phim + n.phis + n.phii) / (n.Cm / 3.6) = B at *
  unfold tAir
  generalize tmNext n n.phii T = T' at *
  simp only [h1, h2, mul_zero, add_zero, zero_add]
  have b3 : (n.H_ms * (0.5 * (T + T')) + n.phis + n.h1 * (n.phii / n.hei)) / (n.H_ms + n.hw + n.h1) ≤
      T + B + (n.phis + n.phii) / n.H_ms := by
    rw [div_le_iff₀ (by positivity)]
    have e : (n.phis + n.phii) / n.H_ms * n.H_ms = n.phis + n.phii := div_mul_cancel₀ _ p5.ne'
    have e0 : 0 ≤ (n.phis + n.phii) / n.H_ms := by positivity
    rw [k]; nlinarith
  have b4 : 0 ≤ (n.phis + n.phii) / n.H_ms := by positivity
  generalize (n.H_ms * (0.5 * (T + T')) + n.phis + n.h1 * (n.phii / n.hei)) / (n.H_ms + n.hw + n.h1) = ts at *
  generalize (n.phis + n.phii) / n.H_ms = E at *
  rw [div_le_iff₀ (by positivity)]
  have e : n.phii / n.H_tris * n.H_tris = n.phii := div_mul_cancel₀ _ p6.ne'
  have e0 : 0 ≤ n.phii / n.H_tris := by positivity
  nlinarith

theorem office_consts : (initConsts smallOffice).Cm ≥ 100 ∧ (initConsts smallOffice).H_ms ≥ 22 ∧
    (initConsts smallOffice).H_tris ≥ 15 ∧ 0 ≤ (initConsts smallOffice).prsInterior ∧
    (initConsts smallOffice).prsInterior ≤ 0.5 ∧ 0 ≤ (initConsts smallOffice).prmInterior ∧
    (initConsts smallOffice).prmInterior ≤ 0.5 ∧ (initConsts smallOffice).maxRatioElectricLighting = 1 := by
  obtain ⟨a1, a2⟩ := amOfCm_bounds (initConsts smallOffice).Cm
  have hhw : (initConsts smallOffice).hwindowWperkm2 ≤ 1 := by
    show csum (nine fun i => (facade smallOffice.bldg i).hWindow) / smallOffice.bldg.floorArea ≤ 1
    rw [csum_nine_real]
    simp only [facade, structureCalculations, smallOffice, Fin.sum_univ_succ, Fin.sum_univ_zero]
    norm_num [nineOf, Fin.succ]
  have hhw0 := (physical_consts smallOffice_physical).2.hw
  have ems : (initConsts smallOffice).h_ms = 9.1 := by
    show smallOffice.simSettings.hci + smallOffice.simSettings.hri * 1.2 = 9.1
    norm_num [smallOffice]
  have eAm : (initConsts smallOffice).Am = amOfCm (initConsts smallOffice).Cm := rfl
  have eprs : (initConsts smallOffice).prs = (4.5 - (initConsts smallOffice).Am -
      (initConsts smallOffice).hwindowWperkm2 / 9.1) / 4.5 := by
    rw [← ems]; simp only [initConsts, smallOffice]
  have eprm : (initConsts smallOffice).prm = (initConsts smallOffice).Am / 4.5 := by
    simp only [initConsts, smallOffice]
  have ep1 : (initConsts smallOffice).prsInterior = 0.5 * (initConsts smallOffice).prs := by
    have : (initConsts smallOffice).prsInterior = (1.0 - smallOffice.simSettings.phiIntFractionToAirNode) * (initConsts smallOffice).prs := rfl
    rw [this]; norm_num [smallOffice]
  have ep2 : (initConsts smallOffice).prmInterior = 0.5 * (initConsts smallOffice).prm := by
    have : (initConsts smallOffice).prmInterior = (1.0 - smallOffice.simSettings.phiIntFractionToAirNode) * (initConsts smallOffice).prm := rfl
    rw [this]; norm_num [smallOffice]
  rw [← eAm] at a1 a2
  refine ⟨?_, ?_, ?_, ?_, ?_, ?_, ?_, ?_⟩
  · show smallOffice.bldg.interiorHeatCapacity / 1000.0 + (smallOffice.bldg.wallHeatCapacity *
      csum (nine smallOffice.bldg.wallArea) / smallOffice.bldg.floorArea) / 1000.0 ≥ 100
    rw [csum_nine_real]
    simp only [smallOffice, Fin.sum_univ_succ, Fin.sum_univ_zero]
    norm_num [nineOf, Fin.succ]
  · show (initConsts smallOffice).h_ms * (initConsts smallOffice).Am ≥ 22
    rw [ems]; norm_num at a1 ⊢; linarith
  · show (initConsts smallOffice).h_is * smallOffice.bldg.totalAreaPerFloorArea ≥ 15
    have : (initConsts smallOffice).h_is = 1.0 / (1.0 / smallOffice.simSettings.hci - 1.0 / (initConsts smallOffice).h_ms) := rfl
    rw [this, ems]; norm_num [smallOffice]
  · rw [ep1, eprs]; norm_num at a1 a2 ⊢; linarith
  · rw [ep1, eprs]; norm_num at a1 a2 ⊢; linarith
  · rw [ep2, eprm]; norm_num at a1 a2 ⊢; linarith
  · rw [ep2, eprm]; norm_num at a1 a2 ⊢; linarith
  · have c : clt (1:ℝ) 1.0 = false := by rw [clt_real_false]; norm_num
    simp only [initConsts, lightingControl, smallOffice, c, Bool.and_false, cond_false]

theorem office_bound {C M R ps pm : ℝ} (o1 : C ≥ 100) (o2 : M ≥ 22) (o3 : R ≥ 15) (o5 : ps ≤ 0.5) (o7 : pm ≤ 0.5) :
    20 + (pm * 4.834 + ps * 4.834 + 2.417) / (C / 3.6) + (ps * 4.834 + 2.417) / M + 2.417 / R < 24 := by
  have hC : (0:ℝ) < C / 3.6 := div_pos (by linarith) (by norm_num)
  have g1 : (pm * 4.834 + ps * 4.834 + 2.417) / (C / 3.6) ≤ 1 := by
    rw [div_le_one hC]; norm_num at *; linarith
  have g2 : (ps * 4.834 + 2.417) / M ≤ 1 := by
    rw [div_le_one (by linarith)]; norm_num at *; linarith
  have g3 : (2.417:ℝ) / R ≤ 1 := by
    rw [div_le_one (by linarith)]; norm_num at *; linarith
  linarith

/-- the first hour of the small office: unoccupied, cold and dark -/
theorem office_cold {w : HourWeather ℝ} (hsol : ∀ k, w.solarRadiation k = 0) (htemp : w.temperature = 0) :
    0 < hourPhi smallOffice (initConsts smallOffice) (freshRatios smallOffice.bldg)
      ⟨0, 0, 2.248, 1, 2.586, 24, 28⟩ w ⟨20, 20⟩ := by
  have hn := hourNet_pos smallOffice_physical (freshRatios smallOffice.bldg) (sch := ⟨0, 0, 2.248, 1, 2.586, 24, 28⟩)
    le_rfl w ⟨20, 20⟩
  obtain ⟨-, t2, -⟩ := tAir_controlled hn (heat := 24) (cool := 28) (by norm_num) 20
  have hqs : qSolarHeatGain smallOffice.bldg (initConsts smallOffice) (freshRatios smallOffice.bldg) w.solarRadiation = 0 := by
    unfold qSolarHeatGain; rw [csum_nine_real]
    exact Finset.sum_eq_zero fun i _ => by rw [hsol i, zero_mul]
  obtain ⟨o1, o2, o3, o4, o5, o6, o7, o8⟩ := office_consts
  have hel : electricForTotalLightArea smallOffice.bldg (initConsts smallOffice) (freshRatios smallOffice.bldg) w.solarRadiation = 1 := by
    simp only [electricForTotalLightArea]
    rw [csum_nine_real, o8]
    have : (∑ i, 53.0 / (initConsts smallOffice).areaNaturallyLightedRatio * w.solarRadiation i *
        ((freshRatios smallOffice.bldg).naturalLightRatio i + (initConsts smallOffice).shadingUsePerWPerM2 *
        (freshRatios smallOffice.bldg).naturalLightShadeRatioReduction i *
        cmin smallOffice.bldg.irradianceForMaxShadingUse (w.solarRadiation i))) = 0 :=
      Finset.sum_eq_zero fun i _ => by rw [hsol i, mul_zero, zero_mul]
    rw [this, zero_div, cmax_real]; norm_num
  have m1 : (hourNet smallOffice (initConsts smallOffice) (freshRatios smallOffice.bldg) ⟨0, 0, 2.248, 1, 2.586, 24, 28⟩ w ⟨20, 20⟩).tOut = 0 := htemp
  have m2 : (hourNet smallOffice (initConsts smallOffice) (freshRatios smallOffice.bldg) ⟨0, 0, 2.248, 1, 2.586, 24, 28⟩ w ⟨20, 20⟩).tEnt = 0 := by
    show (airFlow _ _ _ _ _ _).tEnteringAndSupplied = 0
    simp only [airFlow, htemp]
    norm_num
  have z : (2.248:ℝ) + electricForTotalLightArea smallOffice.bldg (initConsts smallOffice) (freshRatios smallOffice.bldg) w.solarRadiation
      * 2.586 * smallOffice.lights.elecInternalGains = 4.834 := by
    rw [hel]; norm_num [smallOffice]
  have m3 : (hourNet smallOffice (initConsts smallOffice) (freshRatios smallOffice.bldg) ⟨0, 0, 2.248, 1, 2.586, 24, 28⟩ w ⟨20, 20⟩).phii = 2.417 := by
    simp only [hourNet, network, hqs, z]; norm_num [smallOffice]
  have m4 : (hourNet smallOffice (initConsts smallOffice) (freshRatios smallOffice.bldg) ⟨0, 0, 2.248, 1, 2.586, 24, 28⟩ w ⟨20, 20⟩).phis =
      (initConsts smallOffice).prsInterior * 4.834 := by
    simp only [hourNet, network, hqs, z, mul_zero, zero_add]
  have m5 : (hourNet smallOffice (initConsts smallOffice) (freshRatios smallOffice.bldg) ⟨0, 0, 2.248, 1, 2.586, 24, 28⟩ w ⟨20, 20⟩).phim =
      (initConsts smallOffice).prmInterior * 4.834 := by
    simp only [hourNet, network, hqs, z, mul_zero, zero_add]
  have m6 : (hourNet smallOffice (initConsts smallOffice) (freshRatios smallOffice.bldg) ⟨0, 0, 2.248, 1, 2.586, 24, 28⟩ w ⟨20, 20⟩).Cm =
    (initConsts smallOffice).Cm := rfl
  have m7 : (hourNet smallOffice (initConsts smallOffice) (freshRatios smallOffice.bldg) ⟨0, 0, 2.248, 1, 2.586, 24, 28⟩ w ⟨20, 20⟩).H_ms =
    (initConsts smallOffice).H_ms := rfl
  have m8 : (hourNet smallOffice (initConsts smallOffice) (freshRatios smallOffice.bldg) ⟨0, 0, 2.248, 1, 2.586, 24, 28⟩ w ⟨20, 20⟩).H_tris =
    (initConsts smallOffice).H_tris := rfl
  have bound := cold_hour hn m1 m2 (by rw [m3]; norm_num) (by rw [m4]; positivity) (by rw [m5]; positivity)
    (T := 20) (by norm_num)
  rw [m4, m5, m6, m7, m8] at bound
  rw [m3] at bound
  have := t2.mpr (lt_of_le_of_lt (by rw [m3]; exact bound) (office_bound o1 o2 o3 o5 o7))
  exact this

/-- the small office needs heating in the first hour of a year that starts cold and dark -/
theorem office_heats_in {w : Weather ℝ} (hz : NotOverhead w) (t0 : w.data DBT 0 = 0) (d1 : w.data EB 0 = 0) (d2 : w.data ED 0 = 0)
    (d3 : w.data EGH 0 = 0) : ∃ win, window (smallOffice.map fin).pop = some win ∧
    ∃ q ∈ rawResults (smallOffice.map fin) (freshRatios (smallOffice.map fin).bldg) win (w.map fin), q.Qneed_ht ≠ fin 0 := by
  obtain ⟨win, hw⟩ := window_ok (p := smallOffice.pop) (by norm_num [smallOffice])
    (by norm_num [smallOffice]) (by norm_num [smallOffice]) (by norm_num [smallOffice])
  have hwin := window_fin hw
  have e : rawResults (smallOffice.map fin) (freshRatios (smallOffice.map fin).bldg) win (w.map fin) =
      (rawResults smallOffice (freshRatios smallOffice.bldg) win w).map (·.map fin) := by
    have e0 : (smallOffice.map fin).bldg = smallOffice.bldg.map fin := rfl
    rw [e0, freshRatios_fin _ smallOffice_physical.floor.ne', rawResults_fin_systems smallOffice_physical smallOffice_systems
      _ win _ (NotOverhead.cos hz)]
  refine ⟨win, hw, ?_⟩
  rw [e]
  -- hour 0
  have hcell : (hourInput smallOffice win w 0).1 = ⟨0, 0, 2.248, 1, 2.586, 24, 28⟩ := by
    obtain ⟨-, e2, e3⟩ := Solar.sliceAt_spec 0
    have t : truncR smallOffice.pop.hoursStart = 8 := by
      have : smallOffice.pop.hoursStart = ((8 : ℤ) : ℝ) := by norm_num [smallOffice]
      rw [this]; unfold truncR; rw [if_pos (by norm_num), Int.floor_intCast]
    simp only [hourInput, scheduleCell, e2, hwin, t]
    norm_num [smallOffice]
  have hsol : ∀ k, (hourInput smallOffice win w 0).2.solarRadiation k = 0 := by
    intro k
    show (if h : k.1 < 8 then Solar.eglobe w 0 ⟨k.1, h⟩ else w.data EGH 0) = 0
    split_ifs with hk
    · have hup := hz 0
      have := C20_sum w 0 ⟨k.1, hk⟩ hup
      rw [Solar.eglobe_fin w 0 ⟨k.1, hk⟩ (NotOverhead.cos hz 0)] at this
      have e := Dbl.fin.inj this
      rw [e, d1, d2]
      simp [Spec.Sun.direct, Spec.Sun.sky, Spec.Sun.ground]
    · exact d3
  have htemp : (hourInput smallOffice win w 0).2.temperature = 0 := by
    exact t0
  have hraw : ∃ q ∈ rawResults smallOffice (freshRatios smallOffice.bldg) win w,
      q = (calculateHour smallOffice (initConsts smallOffice) (freshRatios smallOffice.bldg)
        (hourInput smallOffice win w 0).1 (hourInput smallOffice win w 0).2 ⟨20, 20⟩).2 := by
    have e0 : (initialState : ThermalState ℝ) = ⟨20, 20⟩ := by
      simp only [initialState]; norm_num
    unfold rawResults
    rw [e0]
    have : List.ofFn (hourInput smallOffice win w) = hourInput smallOffice win w 0 ::
      List.ofFn (fun i : Fin 8759 => hourInput smallOffice win w i.succ) := List.ofFn_succ
    rw [this]
    exact ⟨_, List.mem_cons_self, rfl⟩
  obtain ⟨q, hq, hq'⟩ := hraw
  refine ⟨q.map fin, List.mem_map_of_mem hq, ?_⟩
  show fin q.Qneed_ht ≠ fin 0
  rw [hq', hcell]
  clear hq' hq q hcell e
  generalize (hourInput smallOffice win w 0).2 = w' at *
  obtain ⟨-, -, s3, -⟩ := calculateHour_state smallOffice (initConsts smallOffice) (freshRatios smallOffice.bldg)
    ⟨0, 0, 2.248, 1, 2.586, 24, 28⟩ w' ⟨20, 20⟩
  rw [s3]
  have hpos := office_cold hsol htemp
  rw [max_eq_right hpos.le]
  intro hc
  exact hpos.ne' (Dbl.fin.inj hc)

/-- the small office needs heating in the first hour of the year -/
theorem office_heats : ∃ win, window (smallOffice.map fin).pop = some win ∧
    ∃ q ∈ rawResults (smallOffice.map fin) (freshRatios (smallOffice.map fin).bldg) win (someWeather.map fin),
      q.Qneed_ht ≠ fin 0 ∨ q.Qneed_cl ≠ fin 0 := by
  obtain ⟨win, hw, q, hq, h⟩ := office_heats_in (w := someWeather) (notOverhead_of_lat rfl) (by simp [someWeather])
    (by simp [someWeather, EB, DBT, EGH]) (by simp [someWeather, EB, DBT, EGH, ED]) (by simp [someWeather, DBT, EGH])
  exact ⟨win, hw, q, hq, .inl h⟩

/-- the hypotheses of `C25_delivered` and `C26_finite` are met by the small office in Chicago -/
example : Physical smallOffice ∧ Systems smallOffice ∧ NotOverhead someWeather ∧
    ∃ m' hourly win, simulate false (fresh smallOffice someWeather) = some (m', hourly) ∧
      window (smallOffice.map fin).pop = some win ∧
      ∃ q ∈ rawResults (smallOffice.map fin) (freshRatios (smallOffice.map fin).bldg) win (someWeather.map fin),
        q.Qneed_ht ≠ fin 0 ∨ q.Qneed_cl ≠ fin 0 := by
  obtain ⟨win, hw, hq⟩ := office_heats
  exact ⟨smallOffice_physical, smallOffice_systems, notOverhead_of_lat rfl, _, _, win, simulate_of_window hw, hw, hq⟩

end ISO.Props
