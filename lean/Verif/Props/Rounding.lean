import Verif.Lemmas.Machine
import Verif.Lemmas.HourlySim
import Verif.Lemmas.AggregateOrder
import Verif.Props.Repeat
import Verif.Props.Aggregate
import Verif.Props.SmallOffice

/-!
# C63: signs in rounded arithmetic
-/

namespace ISO.Props
open ISO ISO.Spec ISO.Hourly ISO.Epw CNum Mach

/-- C63, heating and cooling: on every machine, whatever the building, schedule, weather, thermal state and the results of the mathematical
functions, the needs of an hour are numbers (equal to themselves, so not NaN), not below zero, and one of them is zero. -/
theorem C63_needs {M : Machine} (x : Sim (Mach M)) (c : Consts (Mach M)) (r : Ratios (Mach M)) (sch : Schedule (Mach M))
    (w : HourWeather (Mach M)) (st : ThermalState (Mach M)) {ht cl : Mach M}
    (h1 : (calculateHour x c r sch w st).2.Qneed_ht = ht) (h2 : (calculateHour x c r sch w st).2.Qneed_cl = cl) :
    (ceq ht ht = true ∧ NotNegative ht) ∧ (ceq cl cl = true ∧ NotNegative cl) ∧ (ceq ht 0.0 = true ∨ ceq cl 0.0 = true) := by
  have hz : Fl.eq (Fl.num false 0) (Fl.num false 0) = true := by simp [Fl.eq, Fl.isNan]
  have self : ∀ a : Mach M, Fl.isNan a = false → ceq a a = true := by
    intro a ha
    show Fl.eq a a = true
    simp [Fl.eq, ha]
  have nan0 : ∀ a : Mach M, Fl.isNan (cmax 0.0 a : Mach M) = false := by
    intro a
    rcases cmax_cases (0.0 : Mach M) a with ⟨h, e⟩ | ⟨-, e⟩ <;> rw [e]
    · exact (Fl.lt_true h).2.1
    · rw [zero]; rfl
  have key : ∀ phi : Mach M, cmax 0.0 phi = (0.0 : Mach M) ∨ cmax 0.0 (-phi) = (0.0 : Mach M) := by
    intro phi
    rcases cmax_cases (0.0 : Mach M) phi with ⟨h, -⟩ | ⟨-, e⟩
    · right
      rcases cmax_cases (0.0 : Mach M) (-phi) with ⟨h', -⟩ | ⟨-, e⟩
      · exfalso
        have a1 := (Fl.lt_true h).2.2
        have a2 := (Fl.lt_true h').2.2
        rw [zero] at a1 a2
        have z : (Fl.num false 0).key = 0 := by simp [Fl.key]
        rw [z] at a1 a2
        have p1 := Fl.plus_of_key a1
        have p2 := Fl.plus_of_key a2
        rcases phi with ⟨s, m⟩ | ⟨s⟩ | _
        · cases s
          · exact Bool.noConfusion (show true = false from p2)
          · exact Bool.noConfusion (show true = false from p1)
        · cases s
          · exact Bool.noConfusion (show true = false from p2)
          · exact Bool.noConfusion (show true = false from p1)
        · exact Bool.noConfusion (show true = false from (Fl.lt_true h).2.1)
      · exact e
    · exact .inl e
  have e1 : ht = cmax 0.0 (phiActual (network x c (airFlow x.ventilation c (sch.ventilation * 3.6 / x.bldg.floorArea) w.temperature
      w.windMps st.tiHeatCool) w.temperature (qSolarHeatGain x.bldg c r w.solarRadiation)
      (sch.interiorEquipment + electricForTotalLightArea x.bldg c r w.solarRadiation * sch.interiorLighting * x.lights.elecInternalGains))
      sch.heatingSetpoint sch.coolingSetpoint st.TMT1) := h1.symm
  have e2 : cl = cmax 0.0 (-(phiActual (network x c (airFlow x.ventilation c (sch.ventilation * 3.6 / x.bldg.floorArea) w.temperature
      w.windMps st.tiHeatCool) w.temperature (qSolarHeatGain x.bldg c r w.solarRadiation)
      (sch.interiorEquipment + electricForTotalLightArea x.bldg c r w.solarRadiation * sch.interiorLighting * x.lights.elecInternalGains))
      sch.heatingSetpoint sch.coolingSetpoint st.TMT1)) := h2.symm
  rw [e1, e2]
  refine ⟨⟨self _ (nan0 _), (notNegative_iff _).mpr (plus_cmax (plus_lit _ _ _) _).n⟩,
    ⟨self _ (nan0 _), (notNegative_iff _).mpr (plus_cmax (plus_lit _ _ _) _).n⟩, ?_⟩
  rcases key (phiActual (network x c (airFlow x.ventilation c (sch.ventilation * 3.6 / x.bldg.floorArea) w.temperature
      w.windMps st.tiHeatCool) w.temperature (qSolarHeatGain x.bldg c r w.solarRadiation)
      (sch.interiorEquipment + electricForTotalLightArea x.bldg c r w.solarRadiation * sch.interiorLighting * x.lights.elecInternalGains))
      sch.heatingSetpoint sch.coolingSetpoint st.TMT1) with h | h
  · left; rw [h, zero]; exact hz
  · right; rw [h, zero]; exact hz

/-- the results of an hour are not below zero -/
structure HourSigns {M : Machine} (q : HourResults (Mach M)) : Prop where
  ht : P q.Qneed_ht
  cl : P q.Qneed_cl
  illum : N q.Q_illum_tot
  illumExt : N q.Q_illum_ext_tot
  fan : N q.Qfan_tot
  pump : N q.Qpump_tot
  plug : N q.phi_plug
  equipment : N q.externalEquipmentEnergyWperm2
  dhw : N q.Q_dhw

theorem plus_elec {M : Machine} {x : Sim (Mach M)} (hx : SensibleUse x) (r : Ratios (Mach M)) (sol : Fin 9 → Mach M) :
    P (electricForTotalLightArea x.bldg (initConsts x) r sol) := by
  have hmax : P (initConsts x).maxRatioElectricLighting := by
    show P (lightingControl _ _ _).1
    unfold lightingControl
    generalize (clt x.building.lightingOccupancySensor 1.0 && clt x.lights.dimmingFraction 1.0) = a
    generalize clt x.building.lightingOccupancySensor 1.0 = b
    generalize clt x.lights.dimmingFraction 1.0 = c
    cases a <;> cases b <;> cases c <;>
      first
      | exact hx.presenceAuto.plus
      | exact hx.presence.plus
      | exact hx.automatic.plus
      | exact hx.manual.plus
  have hd : P (cmax (0.0001 : Mach M) x.lights.naturallyLightedArea) := plus_cmax (plus_lit _ _ _) _
  have hle : AtMost (cmax (0.0001 : Mach M) x.lights.naturallyLightedArea) x.bldg.floorArea := by
    rcases cmax_cases (0.0001 : Mach M) x.lights.naturallyLightedArea with ⟨-, e⟩ | ⟨-, e⟩ <;> rw [e]
    · exact hx.daylight
    · exact hx.daylight'
  have ha : P (initConsts x).areaNaturallyLightedRatio := plus_div hd hx.floorArea.plus
  have h1 : P (1.0 - (initConsts x).areaNaturallyLightedRatio) := plus_one_sub_div hd hx.floorArea.plus hle
  exact plus_add (plus_mul (plus_cmax (plus_lit _ _ _) _) ha) (plus_mul h1 hmax)

theorem plus_pump {M : Machine} {x : Sim (Mach M)} (hx : SensibleUse x) (a b : Mach M) : P (pumpEnergy x a b) := by
  unfold pumpEnergy
  generalize clt 0.0 b = c
  generalize clt 0.0 a = d
  cases c
  · cases d
    · exact plus_lit _ _ _
    · exact plus_mul hx.pumpHeating.plus hx.pumpHeating'.plus
  · exact plus_mul hx.pumpCooling.plus hx.pumpCooling'.plus

theorem hourSigns {M : Machine} {x : Sim (Mach M)} (hx : SensibleUse x) (r : Ratios (Mach M)) (win : Window) (h d : Int)
    (w : HourWeather (Mach M)) (st : ThermalState (Mach M)) :
    HourSigns (calculateHour x (initConsts x) r (scheduleCell x win h d) w st).2 := by
  have light : P (scheduleCell x win h d).interiorLighting := by
    unfold scheduleCell
    dsimp only
    generalize (decide (win.hourStart ≤ h) && decide (h ≤ win.hourEnd) && (decide (win.dayStart ≤ d) && decide (d ≤ win.dayEnd))) = b
    cases b
    · exact hx.lightUnoccupied.plus
    · exact hx.lightOccupied.plus
  have plug : P (scheduleCell x win h d).interiorEquipment := by
    unfold scheduleCell
    dsimp only
    generalize (decide (win.hourStart ≤ h) && decide (h ≤ win.hourEnd) && (decide (win.dayStart ≤ d) && decide (d ≤ win.dayEnd))) = b
    cases b
    · exact hx.plugUnoccupied.plus
    · exact hx.plugOccupied.plus
  have vent : PlainNumber (scheduleCell x win h d).ventilation := by
    unfold scheduleCell
    dsimp only
    generalize (decide (win.hourStart ≤ h) && decide (h ≤ win.hourEnd)) = b
    cases b
    · exact lit_plain _ _ _ (by norm_num)
    · exact hx.supply
  have v1 : P ((scheduleCell x win h d).ventilation * 3.6 / x.bldg.floorArea) :=
    plus_div (plus_mul vent.plus (plus_lit _ _ _)) hx.floorArea.plus
  have v2 : Fl.isNan ((scheduleCell x win h d).ventilation * 3.6 / x.bldg.floorArea : Mach M) = false :=
    div_isNan (mul_isNan vent (lit_plain _ _ _ (by norm_num))) hx.floorArea hx.floor
  constructor
  case ht => exact plus_cmax (plus_lit _ _ _) _
  case cl => exact plus_cmax (plus_lit _ _ _) _
  case illum => exact (plus_mul (plus_elec hx r _) light).n
  case illumExt =>
    show N (bif clt 0.0 (w.solarRadiation 8) then 0.0 else x.lights.exteriorEnergy * 1.0 / x.bldg.floorArea)
    generalize clt 0.0 (w.solarRadiation 8) = b
    cases b
    · exact (plus_div (plus_mul hx.lightExterior.plus (plus_lit _ _ _)) hx.floorArea.plus).n
    · exact (plus_lit _ _ _).n
  case fan =>
    exact nn_div (nn_mul (nn_mul (nn_cmax v1 v2 _) hx.fanPower.plus) (plus_lit _ _ _)) (plus_lit _ _ _)
  case pump =>
    exact (plus_pump hx _ _).n
  case plug => exact plug.n
  case equipment => exact (plus_div hx.equipment.plus hx.floorArea.plus).n
  case dhw => exact (plus_lit _ _ _).n

/-- the distribution efficiencies have the sign bit clear, whatever the needs of the year -/
theorem plus_distribution {M : Machine} {x : Sim (Mach M)} (hx : SensibleUse x) (rs : List (HourResults (Mach M)))
    (h : ∀ q ∈ rs, HourSigns q) : P (yearDistribution x rs).1 ∧ P (yearDistribution x rs).2 := by
  have a : P (csum (rs.map (·.Qneed_ht))) := plus_csum _ (by simpa using fun q hq => (h q hq).ht)
  have b : P (csum (rs.map (·.Qneed_cl))) := plus_csum _ (by simpa using fun q hq => (h q hq).cl)
  unfold yearDistribution
  generalize csum (rs.map (·.Qneed_ht)) = ht at a
  generalize csum (rs.map (·.Qneed_cl)) = cl at b
  have f1 : P (cmax (ht / (cl + ht)) 0.1) := by
    rcases cmax_cases (ht / (cl + ht)) (0.1 : Mach M) with ⟨-, e⟩ | ⟨-, e⟩ <;> rw [e]
    · exact plus_lit _ _ _
    · exact plus_div a (plus_add b a)
  have f2 : P (cmax (1.0 - cmax (ht / (cl + ht)) 0.1) 0.1) :=
    plus_cmax_pos (Mach.lit_pos _ _ _ 4 (by norm_num) (by norm_num)) (M.toRounding.ofReal_not_nan _ _) _
  exact ⟨plus_div (plus_lit _ _ _) (plus_add (plus_add (plus_lit _ _ _) hx.lossHeating.plus) (plus_div hx.waste.plus f1)),
    plus_div (plus_lit _ _ _) (plus_add (plus_add (plus_lit _ _ _) hx.lossCooling.plus) (plus_div hx.waste.plus f2))⟩

theorem endUse_signs {M : Machine} {x : Sim (Mach M)} (hx : SensibleUse x) {eta : Mach M × Mach M} (h1 : P eta.1) (h2 : P eta.2)
    {q : HourResults (Mach M)} (h : HourSigns q) (k : Fin 13) : N (hourEndUses x eta q k) := by
  have l : P (1000.0 : Mach M) := plus_lit _ _ _
  have z : P (0.0 : Mach M) := plus_lit _ _ _
  have ht : P (q.Qneed_ht / eta.1 / x.heating.efficiency) := plus_div (plus_div h.ht h1) hx.efficiency.plus
  have cl : P (q.Qneed_cl / eta.2 / x.cooling.cop) := plus_div (plus_div h.cl h2) hx.cop.plus
  unfold hourEndUses
  generalize ceq x.heating.energyType 1.0 = b
  fin_cases k
  · cases b
    · exact nn_div z.n l
    · exact nn_div ht.n l
  · exact nn_div cl.n l
  · exact nn_div h.illum l
  · exact nn_div h.illumExt l
  · exact nn_div h.fan l
  · exact nn_div h.pump l
  · exact nn_div h.plug l
  · exact nn_div h.equipment l
  · exact nn_div h.dhw l
  · cases b
    · exact nn_div ht.n l
    · exact nn_div z.n l
  · exact nn_div z.n l
  · exact nn_div z.n l
  · exact nn_div z.n l

/-- C63, hourly model: on every machine (any monotone rounding, overflow and underflow included, any mathematical library), for every building
with sensible quantities and any weather, occupancy, set-points and earlier calls, no number the simulation returns is below zero, hour by hour
and month by month. -/
theorem C63_hourly {M : Machine} (m : Model (Mach M)) (hx : SensibleUse m.sim) (agg : Bool) {m' : Model (Mach M)}
    {out : List (EndUses (Mach M))} (h : simulate agg m = some (m', out)) : ∀ u ∈ out, ∀ k, NotNegative (u k) := by
  rw [simulate_eq, Option.bind_eq_some_iff] at h
  obtain ⟨win, -, h⟩ := h
  rw [Option.map_eq_some_iff] at h
  obtain ⟨o, ho, e⟩ := h
  obtain rfl : o = out := congrArg Prod.snd e
  have hr : ∀ q ∈ rawResults m.sim (pushAll m.sim.bldg m.pushed).ratios win m.weather, HourSigns q := by
    refine runHours_forall m.sim _ _ _ _ fun a ha st => ?_
    rw [List.mem_ofFn] at ha
    obtain ⟨i, rfl⟩ := ha
    exact hourSigns hx _ win _ _ _ st
  have hl := rawResults_length m.sim (pushAll m.sim.bldg m.pushed).ratios win m.weather
  generalize rawResults m.sim (pushAll m.sim.bldg m.pushed).ratios win m.weather = rs at ho hr hl
  have he : ∀ u ∈ endUses m.sim rs, ∀ k, N (u k) := by
    intro u hu k
    unfold endUses at hu
    obtain ⟨q, hq, rfl⟩ := List.mem_map.mp hu
    exact endUse_signs hx (plus_distribution hx rs hr).1 (plus_distribution hx rs hr).2 (hr q hq) k
  have hl' : (endUses m.sim rs).length = 8760 := by rw [endUses_length, hl]
  generalize endUses m.sim rs = us at ho he hl'
  intro u hu k
  rw [notNegative_iff]
  cases agg with
  | false => cases ho; exact he u hu k
  | true =>
    obtain ⟨o', h1, h2, h3⟩ := aggregate_order hl'
    rw [if_pos rfl, h1] at ho
    cases ho
    obtain ⟨j, hj, rfl⟩ := List.getElem_of_mem hu
    rw [h3 j hj k]
    refine nn_csum _ ?_
    intro a ha
    obtain ⟨i, -, rfl⟩ := List.mem_map.mp ha
    rw [List.getD_eq_getElem?_getD, List.getElem?_map]
    cases hc : us[i]? with
    | none => exact (plus_lit _ _ _).n
    | some v => exact he v (List.mem_of_getElem? hc) k

end ISO.Props
