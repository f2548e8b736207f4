import Verif.Lemmas.HourlyMass
import Verif.Lemmas.HourlySim
import Verif.Spec.Numbers
import Verif.Spec.Occupancy
import Verif.Props.Schedule
import Verif.Props.Solar

/-!
# C21, C22, C24: thermostat and thermal mass of the hourly model
-/

namespace ISO.Props
open ISO ISO.Spec ISO.Hourly ISO.Epw CNum Dbl

/-! ## C21 -/

/-- C21, one hour: whatever the building, schedule, weather and thermal state (NaN and infinities included), the
heating and the cooling need are non-negative and at least one of them is zero. -/
theorem C21_hour (x : Sim Dbl) (c : Consts Dbl) (r : Ratios Dbl) (sch : Schedule Dbl) (w : HourWeather Dbl)
    (st : ThermalState Dbl) :
    IsNonneg (calculateHour x c r sch w st).2.Qneed_ht ∧ IsNonneg (calculateHour x c r sch w st).2.Qneed_cl ∧
    ((calculateHour x c r sch w st).2.Qneed_ht = fin 0 ∨ (calculateHour x c r sch w st).2.Qneed_cl = fin 0) := by
  have key : ∀ phi : Dbl, IsNonneg (cmax 0.0 phi) ∧ IsNonneg (cmax 0.0 (-phi)) ∧
      (cmax 0.0 phi = fin 0 ∨ cmax 0.0 (-phi) = fin 0) := by
    have z : (0.0 : Dbl) = fin 0 := by rw [fin_lit]; norm_num
    have z' : ∀ a : ℝ, cmax 0.0 (fin a) = fin (max 0 a) := by
      intro a; rw [z, fin_cmax, cmax_real]
    intro phi
    cases phi with
    | fin a =>
      rw [fin_neg, z', z']
      refine ⟨.inr ⟨_, le_max_left _ _, rfl⟩, .inr ⟨_, le_max_left _ _, rfl⟩, ?_⟩
      rcases le_total a 0 with h | h
      · left; rw [max_eq_left h]
      · right; rw [max_eq_left (by linarith)]
    | pinf =>
      have e1 : cmax (0.0 : Dbl) pinf = pinf := rfl
      have e2 : cmax (0.0 : Dbl) (-pinf) = 0.0 := rfl
      rw [e1, e2, z]
      exact ⟨.inl rfl, .inr ⟨0, le_rfl, rfl⟩, .inr rfl⟩
    | ninf =>
      have e1 : cmax (0.0 : Dbl) (-ninf) = pinf := rfl
      have e2 : cmax (0.0 : Dbl) ninf = 0.0 := rfl
      rw [e1, e2, z]
      exact ⟨.inr ⟨0, le_rfl, rfl⟩, .inl rfl, .inl rfl⟩
    | nan =>
      have e1 : cmax (0.0 : Dbl) (-nan) = 0.0 := rfl
      have e2 : cmax (0.0 : Dbl) nan = 0.0 := rfl
      rw [e1, e2, z]
      exact ⟨.inr ⟨0, le_rfl, rfl⟩, .inr ⟨0, le_rfl, rfl⟩, .inl rfl⟩
  exact key _

/-- C21: the same in every hour of every simulated year. -/
theorem C21_year (x : Sim Dbl) (r : Ratios Dbl) (win : Window) (w : Weather Dbl) :
    ∀ q ∈ rawResults x r win w, IsNonneg q.Qneed_ht ∧ IsNonneg q.Qneed_cl ∧ (q.Qneed_ht = fin 0 ∨ q.Qneed_cl = fin 0) :=
  runHours_forall x _ r _ _ fun a _ st => C21_hour x _ r a.1 a.2 st

/-! ## C22 -/

/-- a small office is physically meaningful (used in the examples below) -/
theorem smallOffice_physical : Physical smallOffice := by
  constructor
  case opaque_ =>
    simp only [smallOffice, Fin.sum_univ_succ, Fin.sum_univ_zero]
    norm_num [nineOf, Fin.succ]
  case wallArea => intro i; fin_cases i <;> norm_num [smallOffice, nineOf]
  case wallU => intro i; fin_cases i <;> norm_num [smallOffice, nineOf]
  case windowArea => intro i; fin_cases i <;> norm_num [smallOffice, nineOf]
  case windowU => intro i; fin_cases i <;> norm_num [smallOffice, nineOf]
  all_goals norm_num [smallOffice]

/-- the schedule cell with heating and cooling switched off (a thermostat that never reacts) -/
def switchedOff (s : Schedule Dbl) : Schedule Dbl := { s with heatingSetpoint := ninf, coolingSetpoint := pinf }

theorem off_phi {n : Net ℝ} (h : NetPos n) (T : ℝ) : phiActual (n.map fin) ninf pinf (fin T) = fin 0 := by
  have k : tAir n (n.phii + 10.0) T - tAir n n.phii T = 10 * gainAir n := by
    rw [tAir_affine h (n.phii + 10.0) T, tAir_affine h n.phii T]; norm_num; ring
  have kp : (0:ℝ) < 10 * gainAir n := by have := gainAir_pos h; positivity
  have e : (n.map fin).phii = fin n.phii := rfl
  have z : (0.0 : Dbl) = fin 0 := by rw [fin_lit]; norm_num
  simp only [phiActual, e, fin_add, fin_lit, tAir_fin h, fin_sub, k]
  have s1 : ∀ a : ℝ, (pinf : Dbl) - fin a = pinf := fun _ => rfl
  have s2 : ∀ a : ℝ, (ninf : Dbl) - fin a = ninf := fun _ => rfl
  have m1 : (fin (10.0:ℝ)) * pinf = pinf := by
    show infOfSign 10.0 = pinf
    unfold infOfSign; rw [if_pos (by norm_num)]
  have m2 : (fin (10.0:ℝ)) * ninf = ninf := by
    show neg (infOfSign 10.0) = ninf
    unfold infOfSign; rw [if_pos (by norm_num)]; rfl
  have d1 : (pinf : Dbl) / fin (10 * gainAir n) = pinf := by
    show (if 0 ≤ 10 * gainAir n then pinf else ninf) = pinf
    rw [if_pos kp.le]
  have d2 : (ninf : Dbl) / fin (10 * gainAir n) = ninf := by
    show (if 0 ≤ 10 * gainAir n then ninf else pinf) = ninf
    rw [if_pos kp.le]
  rw [s1, s2, m1, m2, d1, d2]
  have c1 : cmax (fin 0.0) ninf = fin 0.0 := rfl
  have c2 : cmin pinf (fin 0.0) = fin 0.0 := rfl
  rw [c1, c2, fin_add]; norm_num

/-- C22, one hour: let `free` be the air temperature at the end of the hour with heating and cooling switched off.
Then the air temperature is `free` brought into the band between the two set-points; heating is needed exactly if
`free` is below the heating set-point (and then the air has the heating set-point), cooling exactly if it is above
the cooling set-point.  For every physically meaningful building, every schedule, weather and previous state. -/
theorem C22_hour {x : Sim ℝ} (hx : Physical x) (r : Ratios ℝ) {sch : Schedule ℝ} (hv : 0 ≤ sch.ventilation)
    (hset : sch.heatingSetpoint ≤ sch.coolingSetpoint) (w : HourWeather ℝ) (st : ThermalState ℝ) :
    ∃ free ht cl : ℝ,
      (calculateHour (x.map fin) (initConsts (x.map fin)) (r.map fin) (switchedOff (sch.map fin)) (w.map fin)
        (st.map fin)).1.tiHeatCool = fin free ∧
      (calculateHour (x.map fin) (initConsts (x.map fin)) (r.map fin) (sch.map fin) (w.map fin)
        (st.map fin)).1.tiHeatCool = fin (max sch.heatingSetpoint (min sch.coolingSetpoint free)) ∧
      (calculateHour (x.map fin) (initConsts (x.map fin)) (r.map fin) (sch.map fin) (w.map fin)
        (st.map fin)).2.Qneed_ht = fin ht ∧
      (calculateHour (x.map fin) (initConsts (x.map fin)) (r.map fin) (sch.map fin) (w.map fin)
        (st.map fin)).2.Qneed_cl = fin cl ∧
      (0 < ht ↔ free < sch.heatingSetpoint) ∧ (0 < cl ↔ sch.coolingSetpoint < free) := by
  have hn := hourNet_pos hx r hv w st
  have hc := (physical_consts hx).2
  obtain ⟨s1, s2, s3, s4⟩ := calculateHour_state x (initConsts x) r sch w st
  obtain ⟨t1, t2, t3⟩ := tAir_controlled hn hset st.TMT1
  refine ⟨tAir (hourNet x (initConsts x) r sch w st) (hourNet x (initConsts x) r sch w st).phii st.TMT1,
    max 0 (hourPhi x (initConsts x) r sch w st), max 0 (-hourPhi x (initConsts x) r sch w st), ?_, ?_, ?_, ?_, ?_, ?_⟩
  · -- the hour without thermostat
    rw [initConsts_fin x (physical_consts hx).1]
    have hd : 0 ≤ x.ventilation.dCp * w.windMps * w.windMps := by
      rw [mul_assoc]; exact mul_nonneg hx.dCp (mul_self_nonneg _)
    have hq : qStack (initConsts x) w.temperature st.tiHeatCool + qWind x.ventilation (initConsts x) w.windMps ≠ 0 := by
      have := qStack_pos hc w.temperature st.tiHeatCool
      have := qWind_nonneg (v := x.ventilation) (w := w.windMps) hc hx.dCp
      positivity
    have hvp : 0 ≤ sch.ventilation * 3.6 / x.bldg.floorArea := by have := hx.floor; positivity
    have hqe := qEnteringTotal_pos (v := x.ventilation) hc hvp w.temperature w.windMps st.tiHeatCool
    have e0 : fin sch.ventilation * 3.6 / fin x.bldg.floorArea = fin (sch.ventilation * 3.6 / x.bldg.floorArea) := by
      simp only [dblfin, hx.floor.ne', ne_eq, not_false_eq_true]
    have e1 := electric_fin x.bldg (initConsts x) r w.solarRadiation hc.nat.ne' hc.lux.ne'
    have e2 := solar_fin x.bldg (initConsts x) r w.solarRadiation
    have e3 := airFlow_fin x.ventilation (initConsts x) (sch.ventilation * 3.6 / x.bldg.floorArea) w.temperature
      w.windMps st.tiHeatCool hd hc.hz hq hqe.ne'
    have e4 := network_fin x (initConsts x)
      (airFlow x.ventilation (initConsts x) (sch.ventilation * 3.6 / x.bldg.floorArea) w.temperature w.windMps st.tiHeatCool)
      w.temperature (qSolarHeatGain x.bldg (initConsts x) r w.solarRadiation)
      (sch.interiorEquipment + electricForTotalLightArea x.bldg (initConsts x) r w.solarRadiation * sch.interiorLighting
      * x.lights.elecInternalGains) hqe hc.H_tris hc.hw hc.H_ms
    have en : network (x.map fin) ((initConsts x).map fin)
        (airFlow (x.map fin).ventilation ((initConsts x).map fin) (fin sch.ventilation * 3.6 / fin x.bldg.floorArea)
          (fin w.temperature) (fin w.windMps) (fin st.tiHeatCool)) (fin w.temperature)
        (qSolarHeatGain (x.map fin).bldg ((initConsts x).map fin) (r.map fin) (w.map fin).solarRadiation)
        (fin sch.interiorEquipment + electricForTotalLightArea (x.map fin).bldg ((initConsts x).map fin) (r.map fin)
          (w.map fin).solarRadiation * fin sch.interiorLighting * (x.map fin).lights.elecInternalGains)
        = (hourNet x (initConsts x) r sch w st).map fin := by
      have b5 : (x.map fin).ventilation = x.ventilation.map fin := rfl
      have b1 : (x.map fin).bldg = x.bldg.map fin := rfl
      have b4 : (w.map fin).solarRadiation = fun i => fin (w.solarRadiation i) := rfl
      have b6 : (x.map fin).lights.elecInternalGains = fin x.lights.elecInternalGains := rfl
      rw [b5, b1, b4, b6, e0, e1, e2, e3, fin_mul, fin_mul, fin_add, e4]; rfl
    have et : (calculateHour (x.map fin) ((initConsts x).map fin) (r.map fin) (switchedOff (sch.map fin)) (w.map fin)
        (st.map fin)).1.tiHeatCool =
        tAir ((hourNet x (initConsts x) r sch w st).map fin)
          (phiActual ((hourNet x (initConsts x) r sch w st).map fin) ninf pinf (fin st.TMT1)
            + ((hourNet x (initConsts x) r sch w st).map fin).phii) (fin st.TMT1) := by
      rw [← en]; rfl
    have ep : ((hourNet x (initConsts x) r sch w st).map fin).phii = fin (hourNet x (initConsts x) r sch w st).phii := rfl
    rw [et, off_phi hn, ep, fin_add, tAir_fin hn, zero_add]
  · rw [initConsts_fin x (physical_consts hx).1, calculateHour_fin' hx r hv w st]
    show fin _ = fin _
    rw [s2]; unfold hourPhi; rw [t1]
  · rw [initConsts_fin x (physical_consts hx).1, calculateHour_fin' hx r hv w st]
    show fin _ = fin _
    rw [s3]
  · rw [initConsts_fin x (physical_consts hx).1, calculateHour_fin' hx r hv w st]
    show fin _ = fin _
    rw [s4]
  · rw [lt_max_iff, ← t2]; unfold hourPhi; simp
  · rw [lt_max_iff, ← t3]; unfold hourPhi; simp

/-- hypotheses met: the small office in an occupied hour -/
example : Physical smallOffice ∧ ∃ sch : Schedule ℝ, sch = scheduleCell smallOffice ⟨1, 5, 8, 17⟩ 9 1 ∧
    0 ≤ sch.ventilation ∧ sch.heatingSetpoint ≤ sch.coolingSetpoint :=
  ⟨smallOffice_physical, _, rfl, by norm_num [scheduleCell, smallOffice], by norm_num [scheduleCell, smallOffice]⟩

theorem runStates_get {α : Type} [CNum α] [OfInt α] (x : Sim α) (c : Consts α) (r : Ratios α)
    (l : List (Schedule α × HourWeather α)) (st : ThermalState α) (i : ℕ) (h' : i < l.length) :
    ∃ st', (runStates x c r l st)[i]? = some (calculateHour x c r l[i].1 l[i].2 st').1 := by
  induction l generalizing st i with
  | nil => simp at h'
  | cons a l ih =>
    cases i with
    | zero => exact ⟨st, by simp [runStates]⟩
    | succ i =>
      obtain ⟨st', h⟩ := ih (calculateHour x c r a.1 a.2 st).1 i (by simpa using h')
      exact ⟨st', by simpa [runStates] using h⟩

open Classical in
/-- C22: in every hour `i` of the year the air temperature lies between the set-points that apply in hour `i`. -/
theorem C22_year {x : Sim ℝ} (hx : Physical x) (r : Ratios ℝ) (w : Weather ℝ)
    (hz : ∀ i : Fin 8760, |Spec.Sun.up (SunLemmas.place w) (i.1 / 24 : ℕ) (i.1 % 24 : ℕ)| < 1)
    (h0 : 0 ≤ x.pop.hoursEnd) (d0 : 0 ≤ x.pop.daysEnd) {win : Window} (hw : window (x.map fin).pop = some win)
    (i : Fin 8760) :
    ∃ t tm : ℝ, (runStates (x.map fin) (initConsts (x.map fin)) (r.map fin)
        (List.ofFn (hourInput (x.map fin) win (w.map fin))) initialState)[i.1]? = some ⟨fin tm, fin t⟩ ∧
      (if Occupied x.pop i then x.heating.temperatureSetPointOccupied else x.heating.temperatureSetPointUnoccupied) ≤ t ∧
      t ≤ (if Occupied x.pop i then x.cooling.temperatureSetPointOccupied else x.cooling.temperatureSetPointUnoccupied) := by
  have hcos : ∀ i, Real.cos (Solar.sun (Solar.site w) (Solar.sliceAt i).ytd (Solar.sliceAt i).hour).altitude ≠ 0 := by
    intro i
    obtain ⟨e1, e2⟩ := Solar.sliceAt_eq i
    rw [e1, e2]; exact SunLemmas.cosAlt_ne w _ _ (hz i)
  have hok := hourInput_ok hx win w
  have e : List.ofFn (hourInput (x.map fin) win (w.map fin)) =
      (List.ofFn (hourInput x win w)).map fun a => (a.1.map fin, a.2.map fin) := by
    rw [List.map_ofFn]; congr 1; funext i; exact hourInput_fin x win w i (hcos i)
  have e20 : (initialState : ThermalState Dbl) = (initialState : ThermalState ℝ).map fin := rfl
  rw [e, e20, initConsts_fin x (physical_consts hx).1]
  have hcell := C13_schedule (x.map fin) x.pop rfl h0 d0 hw (w.map fin) i
  rw [hourInput_fin x win w i (hcos i)] at hcell
  generalize hl : List.ofFn (hourInput x win w) = l
  have hli : i.1 < l.length := by rw [← hl, List.length_ofFn]; exact i.2
  have hlg : l[i.1]'hli = hourInput x win w i := by simp only [← hl, List.getElem_ofFn]
  rw [runStates_fin hx r l (by
    intro a ha; rw [← hl] at ha
    obtain ⟨j, rfl⟩ := (List.mem_ofFn' _ _).mp ha
    exact (hok j).vent)]
  obtain ⟨st', hst⟩ := runStates_get x (initConsts x) r l initialState i.1 hli
  rw [List.getElem?_map, hst, hlg]
  refine ⟨_, _, rfl, ?_⟩
  have hb := state_band hx r (lo := (hourInput x win w i).1.heatingSetpoint)
    (hi := (hourInput x win w i).1.coolingSetpoint) ⟨(hok i).vent, le_rfl, (hok i).mid, le_rfl⟩ (hourInput x win w i).2 st'
  have c1 := congrArg Schedule.heatingSetpoint hcell
  have c2 := congrArg Schedule.coolingSetpoint hcell
  simp only [Schedule.map, Sim.map, Heating.map, Cooling.map] at c1 c2
  by_cases ho : Occupied x.pop i
  · rw [if_pos ho] at c1 c2 ⊢
    rw [if_pos ho]
    rw [← Dbl.fin.inj c1, ← Dbl.fin.inj c2]; exact hb
  · rw [if_neg ho] at c1 c2 ⊢
    rw [if_neg ho]
    rw [← Dbl.fin.inj c1, ← Dbl.fin.inj c2]; exact hb

/-- the sun is never exactly overhead in Chicago, so the hypothesis of `C22_year` holds for the example weather -/
example : ∀ i : Fin 8760, |Spec.Sun.up (SunLemmas.place someWeather) (i.1 / 24 : ℕ) (i.1 % 24 : ℕ)| < 1 := fun _ =>
  C19_never_zenith _ (by simp only [SunLemmas.place, someWeather]; norm_num [abs_of_pos])
    (by simp only [SunLemmas.place, someWeather]; norm_num [abs_of_pos]) _ _

/-! ## C24 -/

/-- C24: the new mass temperature is a weighted average of the previous mass temperature, the outdoor temperature and
the temperature of the entering air, plus heat gains: the weights add up to one, the two outdoor weights are not
negative, and the weight of the past is strictly between -1 and 1. -/
theorem C24_average {n : Net ℝ} (h : NetPos n) (phi T : ℝ) :
    ∃ past out air gain : ℝ, -1 < past ∧ past < 1 ∧ 0 < out ∧ 0 < air ∧ 0 < gain ∧ past + out + air = 1 ∧
      tmNext n phi T = past * T + out * n.tOut + air * n.tEnt +
        gain * (n.phim + n.h3 / n.h2 * (n.phis + n.h1 / n.hei * phi)) := by
  have hD := denom_pos h
  have hm := memory_bounds h
  refine ⟨memory n, (n.hem + n.h3 * n.hw / n.h2) / (n.Cm / 3.6 + 0.5 * (n.h3 + n.hem)),
    (n.h3 * n.h1 / n.h2) / (n.Cm / 3.6 + 0.5 * (n.h3 + n.hem)), 1 / (n.Cm / 3.6 + 0.5 * (n.h3 + n.hem)),
    hm.1, hm.2, ?_, ?_, ?_, ?_, ?_⟩
  · have := h.hem; have := h.h3; have := h.hw; have := h.h2; positivity
  · have := h.h3; have := h.h1; have := h.h2; positivity
  · positivity
  · unfold memory
    have h2 := h.h2.ne'
    have e2 := h.e2
    have e0 : (0.5:ℝ) = 1 / 2 := by norm_num
    generalize n.Cm / 3.6 = c at *
    rw [← add_div, ← add_div, div_eq_one_iff_eq hD.ne', e0]
    have : n.h3 * n.hw / n.h2 + n.h3 * n.h1 / n.h2 = n.h3 := by
      rw [← add_div, ← mul_add, add_comm n.hw, ← e2, mul_div_assoc, div_self h2, mul_one]
    linarith
  · unfold tmNext memory
    have h2 := h.h2.ne'
    have h1 := h.hei.ne'
    generalize n.Cm / 3.6 + 0.5 * (n.h3 + n.hem) = D at *
    field_simp
    ring

/-- the mass temperature after the hours `l`, each given by schedule, weather and the air temperature that determines
the air exchange of the hour -/
noncomputable def massAfter (x : Sim Dbl) (r : Ratios Dbl) :
    List (Schedule Dbl × HourWeather Dbl × Dbl) → Dbl → Dbl
  | [], T => T
  | (sch, w, ti) :: l, T => massAfter x r l (calculateHour x (initConsts x) r sch w ⟨T, ti⟩).1.TMT1

/-- C24: a perturbation of the mass temperature decays geometrically: there is a factor `q < 1` that depends on the
building only, such that after any number of hours with the same schedules, weather and air exchange the difference
of the mass temperatures has shrunk by at least the power of `q`, whether the thermostat acts or not. -/
theorem C24_decay {x : Sim ℝ} (hx : Physical x) (r : Ratios ℝ) :
    ∃ q : ℝ, 0 ≤ q ∧ q < 1 ∧ ∀ (l : List (Schedule ℝ × HourWeather ℝ × ℝ)),
      (∀ a ∈ l, 0 ≤ a.1.ventilation ∧ a.1.heatingSetpoint ≤ a.1.coolingSetpoint) → ∀ T T' : ℝ, ∃ t t' : ℝ,
        massAfter (x.map fin) (r.map fin) (l.map fun a => (a.1.map fin, a.2.1.map fin, fin a.2.2)) (fin T) = fin t ∧
        massAfter (x.map fin) (r.map fin) (l.map fun a => (a.1.map fin, a.2.1.map fin, fin a.2.2)) (fin T') = fin t' ∧
        |t - t'| ≤ q ^ l.length * |T - T'| := by
  have hc := (physical_consts hx).2
  obtain ⟨q0, q1⟩ := decay_lt hc.Cm hc.hem hc.H_ms
  refine ⟨decay (initConsts x).Cm (initConsts x).hem (initConsts x).H_ms, q0, q1, ?_⟩
  intro l
  induction l with
  | nil => intro _ T T'; exact ⟨T, T', rfl, rfl, by simp⟩
  | cons a l ih =>
    intro hl T T'
    have ha := hl a (by simp)
    have step : ∀ T : ℝ, (calculateHour (x.map fin) (initConsts (x.map fin)) (r.map fin) (a.1.map fin) (a.2.1.map fin)
        ⟨fin T, fin a.2.2⟩).1.TMT1 = fin (massNext (hourNet x (initConsts x) r a.1 a.2.1 ⟨T, a.2.2⟩)
          a.1.heatingSetpoint a.1.coolingSetpoint T) := by
      intro T
      have := calculateHour_fin' hx r ha.1 a.2.1 ⟨T, a.2.2⟩
      rw [initConsts_fin x (physical_consts hx).1]
      have e : (⟨fin T, fin a.2.2⟩ : ThermalState Dbl) = (⟨T, a.2.2⟩ : ThermalState ℝ).map fin := rfl
      rw [e, this]
      show fin _ = fin _
      rw [(calculateHour_state x (initConsts x) r a.1 a.2.1 ⟨T, a.2.2⟩).1]; rfl
    have hnet : ∀ T, hourNet x (initConsts x) r a.1 a.2.1 ⟨T, a.2.2⟩ = hourNet x (initConsts x) r a.1 a.2.1 ⟨0, a.2.2⟩ :=
      fun _ => rfl
    obtain ⟨t, t', h1, h2, h3⟩ := ih (fun b hb => hl b (by simp [hb]))
      (massNext (hourNet x (initConsts x) r a.1 a.2.1 ⟨0, a.2.2⟩) a.1.heatingSetpoint a.1.coolingSetpoint T)
      (massNext (hourNet x (initConsts x) r a.1 a.2.1 ⟨0, a.2.2⟩) a.1.heatingSetpoint a.1.coolingSetpoint T')
    refine ⟨t, t', ?_, ?_, ?_⟩
    · rw [List.map_cons, massAfter, step, hnet, h1]
    · rw [List.map_cons, massAfter, step, hnet, h2]
    · have hn := hourNet_pos hx r ha.1 a.2.1 ⟨0, a.2.2⟩
      have := massNext_contract hn ha.2 T T'
      calc |t - t'| ≤ _ := h3
        _ ≤ decay (initConsts x).Cm (initConsts x).hem (initConsts x).H_ms ^ l.length *
            (decay (initConsts x).Cm (initConsts x).hem (initConsts x).H_ms * |T - T'|) :=
          mul_le_mul_of_nonneg_left this (pow_nonneg q0 _)
        _ = _ := by rw [List.length_cons, pow_succ]; ring

end ISO.Props
