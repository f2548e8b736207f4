import Verif.Lemmas.HourlyReal
import Verif.Lemmas.Aggregate

/-! Helper lemmas: one hour and the whole year on finite input. -/

namespace ISO.Hourly
open ISO CNum Dbl Spec

/-- the two denominators of the fan energy at previous air temperature `ti` -/
structure FanOk (x : Sim ℝ) (ti : ℝ) : Prop where
  heat : x.heating.forcedAirHeating = true →
    (x.heating.temperatureSetPointOccupied + x.heating.dT_supp_ht - ti) * x.phys.rhoCpAir * 277.777778 + dblMin ≠ 0
  cool : x.cooling.forcedAirCooling = true →
    (ti - (x.cooling.temperatureSetPointOccupied - x.cooling.dT_supp_cl)) * x.phys.rhoCpAir * 277.777778 + dblMin ≠ 0

theorem fanEnergy_fin (x : Sim ℝ) {ti : ℝ} (h : FanOk x ti) (qh qc vent : ℝ) :
    fanEnergy (x.map fin) (fin qh) (fin qc) (fin ti) (fin vent) = fin (fanEnergy x qh qc ti vent) := by
  have k : (3600.0 : ℝ) ≠ 0 := by norm_num
  have hh : (x.map fin).heating.forcedAirHeating = x.heating.forcedAirHeating := rfl
  have hc : (x.map fin).cooling.forcedAirCooling = x.cooling.forcedAirCooling := rfl
  unfold fanEnergy
  rw [hh, hc]
  cases eh : x.heating.forcedAirHeating <;> cases ec : x.cooling.forcedAirCooling
  · simp only [cond_false, Sim.map, Ventilation.map, dblfin, k, ne_eq, not_false_eq_true]
  · have h2 := h.cool ec
    simp only [cond_false, cond_true, Sim.map, Ventilation.map, Cooling.map, PhysicalQuantities.map, dblfin, k, ne_eq,
      not_false_eq_true, h2]
  · have h1 := h.heat eh
    simp only [cond_false, cond_true, Sim.map, Ventilation.map, Heating.map, PhysicalQuantities.map, dblfin, k, ne_eq,
      not_false_eq_true, h1]
  · have h1 := h.heat eh
    have h2 := h.cool ec
    simp only [cond_true, Sim.map, Ventilation.map, Heating.map, Cooling.map, PhysicalQuantities.map, dblfin, k, ne_eq,
      not_false_eq_true, h1, h2]

theorem pumpEnergy_fin (x : Sim ℝ) (qh qc : ℝ) :
    pumpEnergy (x.map fin) (fin qh) (fin qc) = fin (pumpEnergy x qh qc) := by
  simp only [pumpEnergy, Sim.map, Heating.map, Cooling.map, dblfin]

theorem phiActual_fin {n : Net ℝ} (h : NetPos n) (heat cool T : ℝ) :
    phiActual (n.map fin) (fin heat) (fin cool) (fin T) = fin (phiActual n heat cool T) := by
  have k : tAir n (n.phii + 10.0) T - tAir n n.phii T ≠ 0 := by
    have : tAir n (n.phii + 10.0) T - tAir n n.phii T = 10 * gainAir n := by
      rw [tAir_affine h (n.phii + 10.0) T, tAir_affine h n.phii T]; norm_num; ring
    rw [this]; have := gainAir_pos h; positivity
  have e : (n.map fin).phii = fin n.phii := rfl
  simp only [phiActual, e, fin_add, fin_lit, tAir_fin h]
  simp only [dblfin, k, ne_eq, not_false_eq_true]

/-- the network of one hour -/
noncomputable def hourNet (x : Sim ℝ) (c : Consts ℝ) (r : Ratios ℝ) (sch : Schedule ℝ) (w : HourWeather ℝ)
    (st : ThermalState ℝ) : Net ℝ :=
  network x c (airFlow x.ventilation c (sch.ventilation * 3.6 / x.bldg.floorArea) w.temperature w.windMps st.tiHeatCool)
    w.temperature (qSolarHeatGain x.bldg c r w.solarRadiation)
    (sch.interiorEquipment + electricForTotalLightArea x.bldg c r w.solarRadiation * sch.interiorLighting
      * x.lights.elecInternalGains)

/-- the heat flow of one hour -/
noncomputable def hourPhi (x : Sim ℝ) (c : Consts ℝ) (r : Ratios ℝ) (sch : Schedule ℝ) (w : HourWeather ℝ)
    (st : ThermalState ℝ) : ℝ :=
  phiActual (hourNet x c r sch w st) sch.heatingSetpoint sch.coolingSetpoint st.TMT1

theorem hourNet_pos {x : Sim ℝ} (hx : Physical x) (r : Ratios ℝ) {sch : Schedule ℝ} (hs : 0 ≤ sch.ventilation)
    (w : HourWeather ℝ) (st : ThermalState ℝ) : NetPos (hourNet x (initConsts x) r sch w st) := by
  have hv : 0 ≤ sch.ventilation * 3.6 / x.bldg.floorArea := by have := hx.floor; positivity
  exact network_pos (physical_consts hx).2 (qEnteringTotal_pos (physical_consts hx).2 hv _ _ _) _ _ _

/-- everything but the fan energy is finite -/
theorem calculateHour_fin' {x : Sim ℝ} (hx : Physical x) (r : Ratios ℝ) {sch : Schedule ℝ}
    (hs : 0 ≤ sch.ventilation) (w : HourWeather ℝ) (st : ThermalState ℝ) :
    calculateHour (x.map fin) ((initConsts x).map fin) (r.map fin) (sch.map fin) (w.map fin) (st.map fin) =
      ((calculateHour x (initConsts x) r sch w st).1.map fin,
       { (calculateHour x (initConsts x) r sch w st).2.map fin with
         Qfan_tot := fanEnergy (x.map fin) (fin (calculateHour x (initConsts x) r sch w st).2.Qneed_ht)
          (fin (calculateHour x (initConsts x) r sch w st).2.Qneed_cl) (fin st.tiHeatCool)
          (fin (sch.ventilation * 3.6 / x.bldg.floorArea)) }) := by
  have hc := (physical_consts hx).2
  have hfl := hx.floor.ne'
  have hv : 0 ≤ sch.ventilation * 3.6 / x.bldg.floorArea := by have := hx.floor; positivity
  have hd : 0 ≤ x.ventilation.dCp * w.windMps * w.windMps := by
    rw [mul_assoc]; exact mul_nonneg hx.dCp (mul_self_nonneg _)
  have hq : qStack (initConsts x) w.temperature st.tiHeatCool + qWind x.ventilation (initConsts x) w.windMps ≠ 0 := by
    have := qStack_pos hc w.temperature st.tiHeatCool
    have := qWind_nonneg (v := x.ventilation) (w := w.windMps) hc hx.dCp
    positivity
  have hqe := qEnteringTotal_pos (v := x.ventilation) hc hv w.temperature w.windMps st.tiHeatCool
  have e0 : fin sch.ventilation * 3.6 / fin x.bldg.floorArea = fin (sch.ventilation * 3.6 / x.bldg.floorArea) := by
    simp only [dblfin, hfl, ne_eq, not_false_eq_true]
  have e1 := electric_fin x.bldg (initConsts x) r w.solarRadiation hc.nat.ne' hc.lux.ne'
  have e2 := solar_fin x.bldg (initConsts x) r w.solarRadiation
  have e3 := airFlow_fin x.ventilation (initConsts x) (sch.ventilation * 3.6 / x.bldg.floorArea) w.temperature
    w.windMps st.tiHeatCool hd hc.hz hq hqe.ne'
  have e4 := fun qs pi => network_fin x (initConsts x)
    (airFlow x.ventilation (initConsts x) (sch.ventilation * 3.6 / x.bldg.floorArea) w.temperature w.windMps st.tiHeatCool)
    w.temperature qs pi hqe hc.H_tris hc.hw hc.H_ms
  have hn := hourNet_pos hx r hs w st
  have b1 : (x.map fin).bldg = x.bldg.map fin := rfl
  have b2 : (x.bldg.map fin).floorArea = fin x.bldg.floorArea := rfl
  have b3 : (sch.map fin).ventilation = fin sch.ventilation := rfl
  have b4 : (w.map fin).solarRadiation = fun i => fin (w.solarRadiation i) := rfl
  have b5 : (x.map fin).ventilation = x.ventilation.map fin := rfl
  have b6 : (x.map fin).lights.elecInternalGains = fin x.lights.elecInternalGains := rfl
  have b7 : (sch.map fin).interiorLighting = fin sch.interiorLighting := rfl
  have b8 : (sch.map fin).interiorEquipment = fin sch.interiorEquipment := rfl
  have b9 : (st.map fin).tiHeatCool = fin st.tiHeatCool := rfl
  have b10 : (st.map fin).TMT1 = fin st.TMT1 := rfl
  have b11 : (w.map fin).temperature = fin w.temperature := rfl
  have b12 : (w.map fin).windMps = fin w.windMps := rfl
  have b13 : (sch.map fin).heatingSetpoint = fin sch.heatingSetpoint := rfl
  have b14 : (sch.map fin).coolingSetpoint = fin sch.coolingSetpoint := rfl
  have b15 : (sch.map fin).exteriorEquipment = fin sch.exteriorEquipment := rfl
  have b16 : (sch.map fin).exteriorLighting = fin sch.exteriorLighting := rfl
  have b17 : (x.map fin).lights.exteriorEnergy = fin x.lights.exteriorEnergy := rfl
  unfold hourNet at hn
  simp only [calculateHour, b1, b2, b3, b4, b5, b6, b7, b8, b9, b10, b11, b12, b13, b14, b15, b16, b17, e0, e1, e2,
    e3, e4, fin_mul, fin_add, phiActual_fin hn]
  have b18 : ∀ n : Net ℝ, (n.map fin).phii = fin n.phii := fun _ => rfl
  simp only [b18, fin_add, fin_neg, fin_lit, fin_cmax, tmNext_fin hn, tAir_fin hn, pumpEnergy_fin,
    fin_clt, fin_div _ hfl, fin_cond]
  rfl

theorem calculateHour_fin {x : Sim ℝ} (hx : Physical x) (r : Ratios ℝ) {sch : Schedule ℝ}
    (hs : 0 ≤ sch.ventilation) (w : HourWeather ℝ) {st : ThermalState ℝ} (hf : FanOk x st.tiHeatCool) :
    calculateHour (x.map fin) ((initConsts x).map fin) (r.map fin) (sch.map fin) (w.map fin) (st.map fin) =
      ((calculateHour x (initConsts x) r sch w st).1.map fin, (calculateHour x (initConsts x) r sch w st).2.map fin) := by
  rw [calculateHour_fin' hx r hs w st, fanEnergy_fin x hf]
  rfl

theorem calculateHour_state (x : Sim ℝ) (c : Consts ℝ) (r : Ratios ℝ) (sch : Schedule ℝ) (w : HourWeather ℝ)
    (st : ThermalState ℝ) :
    (calculateHour x c r sch w st).1.TMT1 =
      tmNext (hourNet x c r sch w st) (hourPhi x c r sch w st + (hourNet x c r sch w st).phii) st.TMT1 ∧
    (calculateHour x c r sch w st).1.tiHeatCool =
      tAir (hourNet x c r sch w st) (hourPhi x c r sch w st + (hourNet x c r sch w st).phii) st.TMT1 ∧
    (calculateHour x c r sch w st).2.Qneed_ht = max 0 (hourPhi x c r sch w st) ∧
    (calculateHour x c r sch w st).2.Qneed_cl = max 0 (-hourPhi x c r sch w st) := by
  refine ⟨rfl, rfl, ?_, ?_⟩
  · have : (calculateHour x c r sch w st).2.Qneed_ht = cmax 0.0 (hourPhi x c r sch w st) := rfl
    rw [this, cmax_real]; norm_num
  · have : (calculateHour x c r sch w st).2.Qneed_cl = cmax 0.0 (-hourPhi x c r sch w st) := rfl
    rw [this, cmax_real]; norm_num

/-! ### the year -/

variable {α : Type} [CNum α]

/-- thermal state before hour `i` -/
def stateAt (x : Sim α) (c : Consts α) (r : Ratios α) (l : List (Schedule α × HourWeather α)) (st : ThermalState α) :
    Nat → ThermalState α
  | 0 => st
  | i + 1 => match l with
    | [] => st
    | a :: l => stateAt x c r l (calculateHour x c r a.1 a.2 st).1 i

theorem runHours_get (x : Sim α) (c : Consts α) (r : Ratios α) (l : List (Schedule α × HourWeather α))
    (st : ThermalState α) (i : Nat) (h : i < (runHours x c r l st).length) (h' : i < l.length) :
    (runHours x c r l st)[i] = (calculateHour x c r l[i].1 l[i].2 (stateAt x c r l st i)).2 := by
  induction l generalizing st i with
  | nil => simp at h'
  | cons a l ih =>
    cases i with
    | zero => rfl
    | succ i => simp only [runHours, List.getElem_cons_succ, stateAt]; exact ih _ _ _ _

theorem stateAt_succ (x : Sim α) (c : Consts α) (r : Ratios α) (l : List (Schedule α × HourWeather α))
    (st : ThermalState α) (i : Nat) (h' : i < l.length) :
    stateAt x c r l st (i + 1) = (calculateHour x c r l[i].1 l[i].2 (stateAt x c r l st i)).1 := by
  induction l generalizing st i with
  | nil => simp at h'
  | cons a l ih =>
    cases i with
    | zero => simp [stateAt]
    | succ i =>
      simp only [List.getElem_cons_succ]
      rw [stateAt, stateAt]; exact ih _ _ (by simpa using h')

/-- every hour of the year satisfies what one hour satisfies, whatever the state before it -/
theorem runHours_forall {P : HourResults α → Prop} (x : Sim α) (c : Consts α) (r : Ratios α)
    (l : List (Schedule α × HourWeather α)) (st : ThermalState α)
    (h : ∀ a ∈ l, ∀ st, P (calculateHour x c r a.1 a.2 st).2) : ∀ q ∈ runHours x c r l st, P q := by
  induction l generalizing st with
  | nil => simp [runHours]
  | cons a l ih =>
    intro q hq
    simp only [runHours, List.mem_cons] at hq
    rcases hq with rfl | hq
    · exact h a (by simp) st
    · exact ih _ (fun a ha => h a (by simp [ha])) q hq

end ISO.Hourly
