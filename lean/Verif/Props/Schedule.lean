import Verif.Lemmas.HourlyHour
import Verif.Lemmas.HourlySim
import Verif.Spec.Occupancy
import Verif.Props.SmallOffice

/-!
# C13: the hourly schedules follow the occupancy window
-/

namespace ISO.Props
open ISO ISO.Spec ISO.Hourly ISO.Epw CNum Dbl

open Classical in
/-- C13: in every hour of the year the hourly model uses the occupied set-points, lighting and appliance levels
exactly in the occupied hours, the unoccupied ones otherwise; mechanical ventilation runs in the occupied hours of
every day of the week.  The numbers of the building are arbitrary doubles; the ends of the window are not
negative. -/
theorem C13_schedule (x : Sim Dbl) (p : Population ℝ) (hp : x.pop = p.map fin) (h0 : 0 ≤ p.hoursEnd)
    (d0 : 0 ≤ p.daysEnd) {win : Window} (hw : window x.pop = some win) (w : Weather Dbl) (i : Fin 8760) :
    (hourInput x win w i).1 =
      { ventilation := if OccupiedHour p i then x.ventilation.supplyRate else fin 0
        exteriorEquipment := x.building.externalEquipment
        exteriorLighting := fin 1
        interiorEquipment := if Occupied p i then x.building.electricApplianceHeatGainOccupied
          else x.building.electricApplianceHeatGainUnoccupied
        interiorLighting := if Occupied p i then x.lights.powerDensityOccupied else x.lights.powerDensityUnoccupied
        heatingSetpoint := if Occupied p i then x.heating.temperatureSetPointOccupied
          else x.heating.temperatureSetPointUnoccupied
        coolingSetpoint := if Occupied p i then x.cooling.temperatureSetPointOccupied
          else x.cooling.temperatureSetPointUnoccupied } := by
  rw [hp] at hw
  have hwin := window_fin hw
  obtain ⟨-, e2, e3⟩ := Solar.sliceAt_spec i
  have z0 : (0.0 : Dbl) = fin 0 := by rw [fin_lit]; norm_num
  have z1 : (1.0 : Dbl) = fin 1 := by rw [fin_lit]; norm_num
  have a1 : (decide (win.hourStart ≤ ((Solar.sliceAt i).hour : ℤ)) &&
      decide (((Solar.sliceAt i).hour : ℤ) ≤ win.hourEnd)) = decide (OccupiedHour p i) := by
    rw [hwin, e2, Bool.eq_iff_iff]
    simp only [trunc_le_iff, le_trunc_iff h0, Bool.and_eq_true, decide_eq_true_iff]
    rfl
  have a2 : (decide (win.dayStart ≤ ((Solar.sliceAt i).dayOfWeek : ℤ)) &&
      decide (((Solar.sliceAt i).dayOfWeek : ℤ) ≤ win.dayEnd)) =
      decide (p.daysStart < (i.1 / 24 % 7 : ℕ) + 1 ∧ ((i.1 / 24 % 7 : ℕ) : ℝ) ≤ p.daysEnd) := by
    rw [hwin, e3, Bool.eq_iff_iff]
    simp only [trunc_le_iff, le_trunc_iff d0, Bool.and_eq_true, decide_eq_true_iff]
  have a3 : (decide (OccupiedHour p i) &&
      decide (p.daysStart < (i.1 / 24 % 7 : ℕ) + 1 ∧ ((i.1 / 24 % 7 : ℕ) : ℝ) ≤ p.daysEnd)) = decide (Occupied p i) := by
    rw [Bool.eq_iff_iff]
    simp only [Bool.and_eq_true, decide_eq_true_iff]
    rfl
  simp only [hourInput, scheduleCell, a1, a2, a3, z0, z1]
  simp only [Bool.cond_decide]

open Classical in
/-- C13, seen from outside: the equipment energy that `simulate(false)` reports for hour `i` is the occupied
appliance level in the occupied hours and the unoccupied one otherwise (in kWh instead of Wh). -/
theorem C13_equipment (m : Model Dbl) (p : Population ℝ) (hp : m.sim.pop = p.map fin) (h0 : 0 ≤ p.hoursEnd)
    (d0 : 0 ≤ p.daysEnd) {m' : Model Dbl} {hourly : List (EndUses Dbl)} (h : simulate false m = some (m', hourly))
    (i : ℕ) (hi : i < hourly.length) :
    hourly[i] 6 = (if Occupied p i then m.sim.building.electricApplianceHeatGainOccupied
      else m.sim.building.electricApplianceHeatGainUnoccupied) / fin 1000 := by
  obtain ⟨win, hw, -, he⟩ := simulate_false h
  have hlen := rawResults_length m.sim (pushAll m.sim.bldg m.pushed).ratios win m.weather
  generalize hrs : rawResults m.sim (pushAll m.sim.bldg m.pushed).ratios win m.weather = rs at he hlen
  have hr : i < rs.length := by rw [he, endUses_length] at hi; exact hi
  have hl : i < 8760 := by omega
  obtain ⟨st, key⟩ := rawResults_get m.sim (pushAll m.sim.bldg m.pushed).ratios win m.weather hrs.symm i hr hl
  subst he
  rw [endUses_get m.sim rs i hi hr, key]
  have z : (1000.0 : Dbl) = fin 1000 := by rw [fin_lit]; norm_num
  have e : ∀ (sch : Schedule Dbl) (hw : HourWeather Dbl) r c, (calculateHour m.sim c r sch hw st).2.phi_plug =
      sch.interiorEquipment := fun _ _ _ _ => rfl
  simp only [hourEndUses]
  rw [z, e, C13_schedule m.sim p hp h0 d0 hw m.weather ⟨i, hl⟩]

/-- C13: a window of whole hours (days) whose start is after its end is never occupied. -/
theorem C13_empty (p : Population ℝ) {a b : ℕ} (hab : b < a)
    (h : (p.hoursStart = a ∧ p.hoursEnd = b) ∨ (p.daysStart = a ∧ p.daysEnd = b)) (i : ℕ) : ¬ Occupied p i := by
  have hab' : (b : ℝ) + 1 ≤ a := by exact_mod_cast hab
  rintro ⟨⟨h1, h2⟩, h3, h4⟩
  rcases h with ⟨e1, e2⟩ | ⟨e1, e2⟩
  · rw [e1] at h1; rw [e2] at h2
    have : (a : ℝ) < b + 1 := by linarith
    linarith
  · rw [e1] at h3; rw [e2] at h4
    have : (a : ℝ) < b + 1 := by linarith
    linarith

/-- C13: a window of whole hours from `a` to `b` and whole days from `c` to `d` covers the hours `a` to `b`
inclusive on the days `c` to `d` inclusive. -/
theorem C13_whole (p : Population ℝ) {a b c d : ℕ} (h1 : p.hoursStart = a) (h2 : p.hoursEnd = b)
    (h3 : p.daysStart = c) (h4 : p.daysEnd = d) (i : ℕ) :
    Occupied p i ↔ (a ≤ i % 24 ∧ i % 24 ≤ b) ∧ (c ≤ i / 24 % 7 ∧ i / 24 % 7 ≤ d) := by
  unfold Occupied
  rw [h1, h2, h3, h4]
  have k : ∀ u v : ℕ, ((u : ℝ) < (v : ℝ) + 1) ↔ u ≤ v := by
    intro u v
    rw [show (v : ℝ) + 1 = ((v + 1 : ℕ) : ℝ) by push_cast; rfl, Nat.cast_lt]; omega
  rw [k, k, Nat.cast_le, Nat.cast_le]

/-- C13: the simulation runs for every window whose four numbers fit in an `int`. -/
theorem C13_runs (m : Model Dbl) (p : Population ℝ) (hp : m.sim.pop = p.map fin) (h1 : |p.daysStart| ≤ 2147483647)
    (h2 : |p.daysEnd| ≤ 2147483647) (h3 : |p.hoursStart| ≤ 2147483647) (h4 : |p.hoursEnd| ≤ 2147483647) :
    ∃ m' hourly, simulate false m = some (m', hourly) ∧ hourly.length = 8760 := by
  obtain ⟨win, hw⟩ := window_ok h1 h2 h3 h4
  rw [← hp] at hw
  exact ⟨_, _, simulate_of_window hw, by rw [endUses_length, rawResults_length]⟩

/-- the small office is occupied from 8 to 17 on days 1 to 5; hour 33 (day 1, 9:00) is occupied, hour 9 is not -/
example : Occupied smallOffice.pop 33 ∧ ¬ Occupied smallOffice.pop 9 ∧ 0 ≤ smallOffice.pop.hoursEnd ∧
    0 ≤ smallOffice.pop.daysEnd := by
  have k := C13_whole smallOffice.pop (a := 8) (b := 17) (c := 1) (d := 5) (by simp [smallOffice])
    (by simp [smallOffice]) (by simp [smallOffice]) (by simp [smallOffice])
  rw [k, k]
  refine ⟨by decide, by decide, by norm_num [smallOffice], by norm_num [smallOffice]⟩

/-- the small office can be simulated -/
example : ∃ m' hourly, simulate false ⟨smallOffice.map fin, someWeather.map fin, Pushed.empty⟩ = some (m', hourly) ∧
    hourly.length = 8760 :=
  C13_runs _ smallOffice.pop rfl (by norm_num [smallOffice]) (by norm_num [smallOffice]) (by norm_num [smallOffice])
    (by norm_num [smallOffice])

end ISO.Props
