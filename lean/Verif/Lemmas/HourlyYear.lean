import Verif.Lemmas.HourlyHour
import Verif.Lemmas.Solar
import Verif.Spec.Sun

/-! Helper lemmas: the whole year on finite input. -/

namespace ISO.Hourly
open ISO CNum Dbl Spec Epw

/-- an hour as the thermostat and the ventilation need it -/
structure HourOk (lo hi : ℝ) (s : Schedule ℝ) : Prop where
  vent : 0 ≤ s.ventilation
  lo : lo ≤ s.heatingSetpoint
  mid : s.heatingSetpoint ≤ s.coolingSetpoint
  hi : s.coolingSetpoint ≤ hi

theorem state_band {x : Sim ℝ} (hx : Physical x) (r : Ratios ℝ) {lo hi : ℝ} {s : Schedule ℝ} (hs : HourOk lo hi s)
    (w : HourWeather ℝ) (st : ThermalState ℝ) :
    lo ≤ (calculateHour x (initConsts x) r s w st).1.tiHeatCool ∧
    (calculateHour x (initConsts x) r s w st).1.tiHeatCool ≤ hi := by
  rw [(calculateHour_state x (initConsts x) r s w st).2.1]
  unfold hourPhi
  rw [(tAir_controlled (hourNet_pos hx r hs.vent w st) hs.mid st.TMT1).1]
  have := hs.lo; have := hs.mid; have := hs.hi
  constructor
  · exact le_max_of_le_left (by linarith)
  · exact max_le (by linarith) (min_le_of_left_le (by linarith))

theorem runHours_fin {x : Sim ℝ} (hx : Physical x) (r : Ratios ℝ) {lo hi : ℝ}
    (hf : ∀ t, lo ≤ t → t ≤ hi → FanOk x t) (l : List (Schedule ℝ × HourWeather ℝ)) (hl : ∀ a ∈ l, HourOk lo hi a.1)
    (st : ThermalState ℝ) (hst : FanOk x st.tiHeatCool) :
    runHours (x.map fin) ((initConsts x).map fin) (r.map fin) (l.map fun a => (a.1.map fin, a.2.map fin)) (st.map fin) =
      (runHours x (initConsts x) r l st).map (·.map fin) := by
  induction l generalizing st with
  | nil => rfl
  | cons a l ih =>
    have ha := hl a (by simp)
    have hb := state_band hx r ha a.2 st
    simp only [List.map_cons, runHours, calculateHour_fin hx r ha.vent a.2 hst]
    rw [ih (fun b hb => hl b (by simp [hb])) _ (hf _ hb.1 hb.2)]

theorem runStates_fin {x : Sim ℝ} (hx : Physical x) (r : Ratios ℝ)
    (l : List (Schedule ℝ × HourWeather ℝ)) (hl : ∀ a ∈ l, 0 ≤ a.1.ventilation) (st : ThermalState ℝ) :
    runStates (x.map fin) ((initConsts x).map fin) (r.map fin) (l.map fun a => (a.1.map fin, a.2.map fin)) (st.map fin) =
      (runStates x (initConsts x) r l st).map (·.map fin) := by
  induction l generalizing st with
  | nil => rfl
  | cons a l ih =>
    simp only [List.map_cons, runStates, calculateHour_fin' hx r (hl a (by simp)) a.2 st]
    rw [ih (fun b hb => hl b (by simp [hb]))]

theorem hourWeather_fin (w : Weather ℝ) (i : Fin 8760)
    (h : Real.cos (Solar.sun (Solar.site w) (Solar.sliceAt i).ytd (Solar.sliceAt i).hour).altitude ≠ 0) :
    hourWeather (w.map fin) i = (hourWeather w i).map fin := by
  simp only [hourWeather, HourWeather.map]
  congr 1
  funext k
  split_ifs with hk
  · exact Solar.eglobe_fin w i _ h
  · rfl

theorem hourInput_fin (x : Sim ℝ) (win : Window) (w : Weather ℝ) (i : Fin 8760)
    (h : Real.cos (Solar.sun (Solar.site w) (Solar.sliceAt i).ytd (Solar.sliceAt i).hour).altitude ≠ 0) :
    hourInput (x.map fin) win (w.map fin) i = ((hourInput x win w i).1.map fin, (hourInput x win w i).2.map fin) := by
  simp only [hourInput, scheduleCell_fin, hourWeather_fin w i h]

/-- every schedule cell is sensible -/
theorem hourInput_ok {x : Sim ℝ} (hx : Physical x) (win : Window) (w : Weather ℝ) (i : Fin 8760) :
    HourOk (min x.heating.temperatureSetPointOccupied x.heating.temperatureSetPointUnoccupied)
      (max x.cooling.temperatureSetPointOccupied x.cooling.temperatureSetPointUnoccupied) (hourInput x win w i).1 := by
  have h0 := hx.supplyRate; have h1 := hx.setOccupied; have h2 := hx.setUnoccupied
  have z : (0.0:ℝ) = 0 := by norm_num
  simp only [hourInput, scheduleCell]
  constructor
  · simp only []
    cases (decide (win.hourStart ≤ ((Solar.sliceAt i).hour : ℤ)) && decide (((Solar.sliceAt i).hour : ℤ) ≤ win.hourEnd))
    · simp [z]
    · simpa using h0
  all_goals
    simp only []
    cases (decide (win.hourStart ≤ ((Solar.sliceAt i).hour : ℤ)) && decide (((Solar.sliceAt i).hour : ℤ) ≤ win.hourEnd)
      && (decide (win.dayStart ≤ ((Solar.sliceAt i).dayOfWeek : ℤ)) && decide (((Solar.sliceAt i).dayOfWeek : ℤ) ≤ win.dayEnd)))
    <;> simp [h1, h2]

/-- on finite input away from the zenith the year at `Dbl` is the year at `ℝ` -/
theorem rawResults_fin {x : Sim ℝ} (hx : Physical x) (r : Ratios ℝ) (win : Window) (w : Weather ℝ)
    (hz : ∀ i, Real.cos (Solar.sun (Solar.site w) (Solar.sliceAt i).ytd (Solar.sliceAt i).hour).altitude ≠ 0)
    (hf : ∀ t, min x.heating.temperatureSetPointOccupied x.heating.temperatureSetPointUnoccupied ≤ t →
      t ≤ max x.cooling.temperatureSetPointOccupied x.cooling.temperatureSetPointUnoccupied → FanOk x t)
    (h20 : FanOk x 20) :
    rawResults (x.map fin) (r.map fin) win (w.map fin) = (rawResults x r win w).map (·.map fin) := by
  have e : List.ofFn (hourInput (x.map fin) win (w.map fin)) =
      (List.ofFn (hourInput x win w)).map fun a => (a.1.map fin, a.2.map fin) := by
    rw [List.map_ofFn]; congr 1; funext i; exact hourInput_fin x win w i (hz i)
  have e20 : (initialState : ThermalState Dbl) = (initialState : ThermalState ℝ).map fin := rfl
  unfold rawResults
  rw [e, e20, initConsts_fin x (physical_consts hx).1]
  apply runHours_fin hx r hf
  · intro a ha
    obtain ⟨i, rfl⟩ := (List.mem_ofFn' _ _).mp ha
    exact hourInput_ok hx win w i
  · have : (initialState : ThermalState ℝ).tiHeatCool = 20 := by simp only [initialState]; norm_num
    rw [this]; exact h20

end ISO.Hourly
