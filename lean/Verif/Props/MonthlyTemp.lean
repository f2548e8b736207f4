import Verif.Lemmas.MonthlyStages
import Verif.Props.MonthlyGains

/-! # C34, C35: indoor temperatures and ventilation of the monthly model -/

namespace ISO.Props
open ISO ISO.Monthly ISO.Spec Dbl CNum

/-- C34: levels 2 and 3 of energy management shift the set-points by half a degree and one degree, all others do not; a level
outside the range of `int` (or one that is not a number) is undefined behaviour. -/
theorem C34_level (level : Dbl) :
    managementShift level = match level with
      | fin r => open Classical in if -2147483649 < r ∧ r < 2147483648 then some (fin (levelShift r)) else none
      | _ => none := by
  cases level with
  | fin r =>
    unfold managementShift
    rw [fin_cint]
    show (match cintR r with | none => _ | some 1 => _ | some 2 => _ | some 3 => _ | some _ => _) = _
    have h1 := trunc_eq (r := r) (n := 1) (by norm_num) (by norm_num)
    have h2 := trunc_eq (r := r) (n := 2) (by norm_num) (by norm_num)
    have h3 := trunc_eq (r := r) (n := 3) (by norm_num) (by norm_num)
    norm_num at h1 h2 h3
    have hr : cintR r = none ↔ ¬(-2147483649 < r ∧ r < 2147483648) := by
      unfold cintR
      rw [ite_eq_right_iff]
      have : (-2147483648 ≤ truncR r ∧ truncR r ≤ 2147483647) ↔ (-2147483649 < r ∧ r < 2147483648) := by
        unfold truncR
        split_ifs with h0
        · constructor
          · rintro ⟨-, h⟩
            have := Int.lt_floor_add_one r
            have hc : ((⌊r⌋ : ℤ) : ℝ) ≤ 2147483647 := by exact_mod_cast h
            exact ⟨by linarith, by linarith⟩
          · rintro ⟨-, h⟩
            refine ⟨le_trans (by norm_num) (Int.floor_nonneg.mpr h0), ?_⟩
            have : ⌊r⌋ < 2147483648 := by rw [Int.floor_lt]; exact_mod_cast h
            omega
        · rw [not_le] at h0
          constructor
          · rintro ⟨h, -⟩
            have := Int.ceil_lt_add_one r
            have hc : (-2147483648 : ℝ) ≤ ((⌈r⌉ : ℤ) : ℝ) := by exact_mod_cast h
            exact ⟨by linarith, by linarith⟩
          · rintro ⟨h, -⟩
            have h2 : ⌈r⌉ ≤ 0 := Int.ceil_le.mpr (by simpa using h0.le)
            refine ⟨?_, by omega⟩
            have : -2147483649 < ⌈r⌉ := by rw [Int.lt_ceil]; exact_mod_cast h
            omega
      rw [this]
      simp
    cases hc : cintR r with
    | none => simp only [if_neg (hr.mp hc)]
    | some k =>
      have hin : -2147483649 < r ∧ r < 2147483648 := by
        by_contra h; rw [hr.mpr h] at hc; cases hc
      simp only [if_pos hin]
      rw [hc] at h1 h2 h3
      have key : ∀ v, levelShift r = v → some (fin v) = some (fin (levelShift r)) := fun v h => by rw [h]
      unfold levelShift
      split
      · next h => cases h
      · next h =>
          have hk := h1.mp h
          rw [if_neg (by rintro ⟨a, -⟩; linarith [hk.2]), if_neg (by rintro ⟨a, -⟩; linarith [hk.2])]
          show some (fin _) = _
          norm_num
      · next h =>
          have hk := h2.mp h
          rw [if_pos hk]
          show some (fin _) = _
          norm_num
      · next h =>
          have hk := h3.mp h
          rw [if_neg (by rintro ⟨-, a⟩; linarith [hk.1]), if_pos hk]
          show some (fin _) = _
          norm_num
      · next h4 h5 h6 hv =>
          rw [if_neg (fun h => h5 (Option.some.inj (hv.symm.trans (h2.mpr h)))), if_neg (fun h => h6 (Option.some.inj (hv.symm.trans (h3.mpr h))))]
          show some (fin _) = _
          norm_num
  | pinf => rfl
  | ninf => rfl
  | nan => rfl

theorem clt_cmin (a b : Dbl) : clt b (cmin a b) = false := by
  unfold cmin
  cases h : clt b a with
  | true =>
    show clt b b = false
    cases b with
    | fin r => exact (clt_real_false r r).mpr le_rfl
    | pinf => rfl
    | ninf => rfl
    | nan => rfl
  | false => exact h

/-- C34: whatever the building and the weather (also with infinite or undefined numbers), the temperature used for heating is
never above the shifted heating set-point, and the one used for cooling never above the shifted cooling set-point. -/
theorem C34_cap (x : Sim Dbl) (s : Stages Dbl) (hs : stages x = some s) (m : Fin 12) :
    (s.T_adj = fin 0 ∨ s.T_adj = fin (1 / 2) ∨ s.T_adj = fin 1) ∧
      clt (x.heating.temperatureSetPointOccupied - s.T_adj) (s.v_Th_avg m) = false ∧
      clt (x.cooling.temperatureSetPointOccupied + s.T_adj) (s.v_Tc_avg m) = false := by
  unfold stages at hs
  rw [Option.bind_eq_bind, Option.bind_eq_some_iff] at hs
  obtain ⟨b, -, hs⟩ := hs
  rw [Option.bind_eq_bind, Option.bind_eq_some_iff] at hs
  obtain ⟨a, -, hs⟩ := hs
  rw [Option.bind_eq_bind, Option.bind_eq_some_iff] at hs
  obtain ⟨t, ht, hs⟩ := hs
  rw [← Option.some.inj hs]
  refine ⟨?_, clt_cmin _ _, clt_cmin _ _⟩
  show t = _ ∨ t = _ ∨ t = _
  rw [C34_level] at ht
  cases hl : x.building.buildingEnergyManagement with
  | fin r =>
    rw [hl] at ht
    simp only at ht
    split_ifs at ht
    rw [← Option.some.inj ht]
    unfold levelShift
    split_ifs
    · exact Or.inr (Or.inl rfl)
    · exact Or.inr (Or.inr rfl)
    · exact Or.inl rfl
  | pinf => rw [hl] at ht; cases ht
  | ninf => rw [hl] at ht; cases ht
  | nan => rw [hl] at ht; cases ht

/-- the five stretches of a month, from Friday evening to Monday morning, from the quantities of the simulation: outside
temperature by night and day, heat gains in week nights, weekend days and weekend nights, heat loss coefficient -/
noncomputable def weekendStretches (x : Sim ℝ) (night day Pwn Pd Pn : ℝ) : ℕ → Stretch :=
  nightAndDay ⟨24 - windowHours x.pop, night + Pwn / buildingLoss x⟩ ⟨windowHours x.pop, day + Pd / buildingLoss x⟩
    ⟨24 - windowHours x.pop, night + Pn / buildingLoss x⟩

/-- what the simulation uses for a month: outside temperatures, gains, fractions of the week, shift of the set-points -/
structure MonthState (x : Sim ℝ) (s : Stages Dbl) (m : Fin 12) (night day Pwn Pd Pn d n e t : ℝ) : Prop where
  night : s.b.v_Tdbt_nt m = fin night
  day : s.b.v_Tdbt_day m = fin day
  weekNight : s.unocc.v_P_tot_wk_nt m = fin Pwn
  weekendDay : s.unocc.v_P_tot_wke_day m = fin Pd
  weekendNight : s.unocc.v_P_tot_wke_nt m = fin Pn
  occupiedPart : s.o.frac_hrs_wk_day = fin d
  nightPart : s.o.frac_hrs_wk_nt = fin n
  weekendPart : s.o.frac_hrs_wke_tot = fin e
  parts : 0 ≤ d ∧ 0 ≤ n ∧ 0 ≤ e ∧ d + n + e = 1
  shift : t = levelShift x.building.buildingEnergyManagement

theorem periods_eq (x : Sim ℝ) (b : Breakdown ℝ) (g : UnoccupiedGains ℝ) (m : Fin 12) :
    (fun k => (⟨(periods x (scheduleAndOccupancy x.pop) b g (envelopCalculations x.bldg) m).ti k,
      (periods x (scheduleAndOccupancy x.pop) b g (envelopCalculations x.bldg) m).Te k
      + (periods x (scheduleAndOccupancy x.pop) b g (envelopCalculations x.bldg) m).dT k⟩ : Stretch))
      = weekendStretches x (b.v_Tdbt_nt m) (b.v_Tdbt_day m) (g.v_P_tot_wk_nt m) (g.v_P_tot_wke_day m) (g.v_P_tot_wke_nt m) := by
  funext k
  simp only [periods, period, weekendStretches, nightAndDay, envelope_real, buildingLoss, scheduleAndOccupancy, hours_eq]
  norm_num
  split_ifs <;> rfl

theorem month_temps {x : Sim ℝ} (h : TempData x) {s : Stages Dbl} (hs : stages (x.map fin) = some s) (m : Fin 12) :
    ∃ night day Pwn Pd Pn d n e t, MonthState x s m night day Pwn Pd Pn d n e t ∧
      s.v_Th_avg m = fin (if x.heating.T_ht_ctrl_flag = 1 then
          min (weekMean (x.heating.temperatureSetPointOccupied - t) d n e
            (stretchMean (buildingTau x) (weekendStretches x night day Pwn Pd Pn) (x.heating.temperatureSetPointOccupied - t)
              (x.heating.temperatureSetPointOccupied - t) x.heating.temperatureSetPointUnoccupied))
            (x.heating.temperatureSetPointOccupied - t)
        else x.heating.temperatureSetPointOccupied - t) ∧
      s.v_Tc_avg m = fin (if x.cooling.T_cl_ctrl_flag = 1 then
          min (weekMean (x.cooling.temperatureSetPointOccupied + t) d n e
            (stretchMean (buildingTau x) (weekendStretches x night day Pwn Pd Pn)
              (min (x.heating.temperatureSetPointOccupied - t) x.cooling.temperatureSetPointUnoccupied)
              (x.cooling.temperatureSetPointOccupied + t) x.cooling.temperatureSetPointUnoccupied))
            (x.cooling.temperatureSetPointOccupied + t)
        else x.cooling.temperatureSetPointOccupied + t) := by
  obtain ⟨b, a, t, hb, ha, ht, rfl⟩ := stages_parts h hs
  obtain ⟨eo, eb, -, -, -, -, -, eu, eh, ec⟩ := fin_stages h b a t
  obtain ⟨d, n, e, hd, hn, he, -, -, hd0, -, hn0, -, he0, -, hsum⟩ := C29_fractions x.pop h.week
  have hS : (scheduleAndOccupancy x.pop).frac_hrs_wk_day = d ∧ (scheduleAndOccupancy x.pop).frac_hrs_wk_nt = n ∧
      (scheduleAndOccupancy x.pop).frac_hrs_wke_tot = e := by
    rw [fin_schedule] at hd hn he
    exact ⟨fin_inj.mp hd, fin_inj.mp hn, fin_inj.mp he⟩
  have hk : ∀ k, (periods x (scheduleAndOccupancy x.pop) b (stagesWith x b a t).unocc (envelopCalculations x.bldg) m).ti k ≠ 0 := by
    intro k
    simp only [periods, period]
    have := hours_ne h
    split_ifs
    · exact this.2
    · exact this.1
    · exact this.2
  have htau : (periods x (scheduleAndOccupancy x.pop) b (stagesWith x b a t).unocc (envelopCalculations x.bldg) m).tau
      = buildingTau x := tau_eq x
  have ht0 : (periods x (scheduleAndOccupancy x.pop) b (stagesWith x b a t).unocc (envelopCalculations x.bldg) m).tau ≠ 0 :=
    tau_ne h
  refine ⟨b.v_Tdbt_nt m, b.v_Tdbt_day m, (stagesWith x b a t).unocc.v_P_tot_wk_nt m, (stagesWith x b a t).unocc.v_P_tot_wke_day m,
    (stagesWith x b a t).unocc.v_P_tot_wke_nt m, d, n, e, t, ?_, ?_, ?_⟩
  · refine ⟨by rw [eb]; rfl, by rw [eb]; rfl, by rw [eu]; rfl, by rw [eu]; rfl, by rw [eu]; rfl,
      ?_, ?_, ?_, ⟨hd0, hn0, he0, hsum⟩, ?_⟩
    · rw [eo, ← hS.1]; rfl
    · rw [eo, ← hS.2.1]; rfl
    · rw [eo, ← hS.2.2]; rfl
    · have := C34_level (fin x.building.buildingEnergyManagement)
      rw [fin_management, ht] at this
      simp only [Option.map_some] at this
      split_ifs at this
      exact fin_inj.mp (Option.some.inj this)
  · rw [eh]
    show fin ((interiorTemp x (scheduleAndOccupancy x.pop) b (stagesWith x b a t).unocc (envelopCalculations x.bldg) t).1 m) = _
    rw [fin_inj]
    simp only [interiorTemp, heatingTemps, weekAverage, hS, weekend_real _ _ _ ht0 hk, cmin_real, cond_ceq]
    rw [periods_eq, htau]
    norm_num
    split_ifs with hf
    · rfl
    · generalize x.heating.temperatureSetPointOccupied - t = q
      apply min_eq_right
      have : q * d + q * n + q * e = q * (d + n + e) := by ring
      rw [this, hsum, mul_one]
  · rw [ec]
    show fin ((interiorTemp x (scheduleAndOccupancy x.pop) b (stagesWith x b a t).unocc (envelopCalculations x.bldg) t).2 m) = _
    rw [fin_inj]
    simp only [interiorTemp, coolingTemps, weekAverage, hS, weekend_real _ _ _ ht0 hk, cmin_real, cond_ceq]
    rw [periods_eq, htau]
    norm_num
    split_ifs with hf
    · rfl
    · generalize x.cooling.temperatureSetPointOccupied + t = q
      apply min_eq_right
      have : q * d + q * n + q * e = q * (d + n + e) := by ring
      rw [this, hsum, mul_one]

/-- C34: the temperature used for heating.  With set-back control it is the mean of the week (never above the set-point), in
which the unoccupied stretches are time means of the exponential decay, kept above the unoccupied set-point; without it, it is
the set-point. -/
theorem C34_heating (x : Sim ℝ) (h : TempData x) (s : Stages Dbl) (hs : stages (x.map fin) = some s) (m : Fin 12) :
    ∃ night day Pwn Pd Pn d n e t T, MonthState x s m night day Pwn Pd Pn d n e t ∧ s.v_Th_avg m = fin T ∧
      (x.heating.T_ht_ctrl_flag = 1 → T =
        min (weekMean (x.heating.temperatureSetPointOccupied - t) d n e
          (stretchMean (buildingTau x) (weekendStretches x night day Pwn Pd Pn) (x.heating.temperatureSetPointOccupied - t)
            (x.heating.temperatureSetPointOccupied - t) x.heating.temperatureSetPointUnoccupied))
          (x.heating.temperatureSetPointOccupied - t)) ∧
      (x.heating.T_ht_ctrl_flag ≠ 1 → T = x.heating.temperatureSetPointOccupied - t) := by
  obtain ⟨night, day, Pwn, Pd, Pn, d, n, e, t, hM, hT, -⟩ := month_temps h hs m
  exact ⟨night, day, Pwn, Pd, Pn, d, n, e, t, _, hM, hT, fun hf => if_pos hf, fun hf => if_neg hf⟩

/-- C34: the temperature used for cooling. -/
theorem C34_cooling (x : Sim ℝ) (h : TempData x) (s : Stages Dbl) (hs : stages (x.map fin) = some s) (m : Fin 12) :
    ∃ night day Pwn Pd Pn d n e t T, MonthState x s m night day Pwn Pd Pn d n e t ∧ s.v_Tc_avg m = fin T ∧
      (x.cooling.T_cl_ctrl_flag = 1 → T =
        min (weekMean (x.cooling.temperatureSetPointOccupied + t) d n e
          (stretchMean (buildingTau x) (weekendStretches x night day Pwn Pd Pn)
            (min (x.heating.temperatureSetPointOccupied - t) x.cooling.temperatureSetPointUnoccupied)
            (x.cooling.temperatureSetPointOccupied + t) x.cooling.temperatureSetPointUnoccupied))
          (x.cooling.temperatureSetPointOccupied + t)) ∧
      (x.cooling.T_cl_ctrl_flag ≠ 1 → T = x.cooling.temperatureSetPointOccupied + t) := by
  obtain ⟨night, day, Pwn, Pd, Pn, d, n, e, t, hM, -, hT⟩ := month_temps h hs m
  exact ⟨night, day, Pwn, Pd, Pn, d, n, e, t, _, hM, hT, fun hf => if_pos hf, fun hf => if_neg hf⟩

theorem weekMean_ge {set d n e floor : ℝ} {mean : ℕ → ℝ} (hp : 0 ≤ d ∧ 0 ≤ n ∧ 0 ≤ e ∧ d + n + e = 1) (hset : floor ≤ set)
    (hm : ∀ k, floor ≤ mean k) : floor ≤ weekMean set d n e mean := by
  obtain ⟨h1, h2, h3, h4⟩ := hp
  unfold weekMean
  have a1 := mul_le_mul_of_nonneg_right hset h1
  have a2 := mul_le_mul_of_nonneg_right (hm 1) h2
  have a3 : floor * e ≤ (mean 0 + mean 1 + mean 2 + mean 3 + mean 4) / 5 * e := by
    apply mul_le_mul_of_nonneg_right _ h3
    have := hm 0; have := hm 1; have := hm 2; have := hm 3; have := hm 4
    linarith
  have : floor = floor * d + floor * n + floor * e := by rw [← mul_add, ← mul_add, h4, mul_one]
  linarith

/-- C34: the temperature used for heating lies between the unoccupied and the shifted occupied set-point. -/
theorem C34_between (x : Sim ℝ) (h : TempData x) (s : Stages Dbl) (hs : stages (x.map fin) = some s) (m : Fin 12)
    (hset : x.heating.temperatureSetPointUnoccupied
      ≤ x.heating.temperatureSetPointOccupied - levelShift x.building.buildingEnergyManagement) :
    ∃ T, s.v_Th_avg m = fin T ∧ x.heating.temperatureSetPointUnoccupied ≤ T ∧
      T ≤ x.heating.temperatureSetPointOccupied - levelShift x.building.buildingEnergyManagement := by
  obtain ⟨night, day, Pwn, Pd, Pn, d, n, e, t, T, hM, hT, h1, h2⟩ := C34_heating x h s hs m
  rw [← hM.shift] at hset ⊢
  refine ⟨T, hT, ?_⟩
  by_cases hf : x.heating.T_ht_ctrl_flag = 1
  · rw [h1 hf]
    exact ⟨le_min (weekMean_ge hM.parts hset fun k => le_max_left _ _) hset, min_le_right _ _⟩
  · rw [h2 hf]
    exact ⟨hset, le_rfl⟩

/-- C34, the disagreement: raising the cooling set-point for unoccupied hours has no effect.  If it is at least the occupied
one, the temperature used for cooling is the occupied set-point, with or without set-point control. -/
theorem C34_noSetUp (x : Sim ℝ) (h : TempData x) (s : Stages Dbl) (hs : stages (x.map fin) = some s) (m : Fin 12)
    (hset : x.cooling.temperatureSetPointOccupied + levelShift x.building.buildingEnergyManagement
      ≤ x.cooling.temperatureSetPointUnoccupied) :
    s.v_Tc_avg m = fin (x.cooling.temperatureSetPointOccupied + levelShift x.building.buildingEnergyManagement) := by
  obtain ⟨night, day, Pwn, Pd, Pn, d, n, e, t, T, hM, hT, h1, h2⟩ := C34_cooling x h s hs m
  rw [← hM.shift] at hset ⊢
  rw [hT, fin_inj]
  by_cases hf : x.cooling.T_cl_ctrl_flag = 1
  · rw [h1 hf]
    exact min_eq_right (weekMean_ge hM.parts le_rfl fun k => hset.trans (le_max_left _ _))
  · exact h2 hf

/-- sunshine in every month: the office with light in the clock hours 7 to 18 -/
noncomputable def sunnyOffice : Sim ℝ :=
  { monthlyOffice with weather := { monthlyOffice.weather with mhEgh := fun _ j => if 7 ≤ j.val ∧ j.val ≤ 18 then 200 else 0 } }

theorem sum9 (f : Fin 9 → ℝ) : ∑ i, f i = f 0 + f 1 + f 2 + f 3 + f 4 + f 5 + f 6 + f 7 + f 8 := by
  repeat rw [Fin.sum_univ_castSucc]
  rw [Fin.sum_univ_zero, zero_add]
  rfl

theorem sunny_temp : TempData sunnyOffice := by
  constructor
  case week => constructor <;> norm_num [sunnyOffice, monthlyOffice, smallOffice, windowHours, windowDays]
  case heatLoss =>
    rw [sum9]
    norm_num [sunnyOffice, monthlyOffice, smallOffice, nineOf]
  case capacity =>
    rw [sum9]
    norm_num [sunnyOffice, monthlyOffice, smallOffice, nineOf]
  all_goals norm_num [sunnyOffice, monthlyOffice, smallOffice, windowHours, windowDays]

theorem sunny_stages : ∃ s, stages (sunnyOffice.map fin) = some s := by
  have hb : ∃ b, solarRadiationBreakdown sunnyOffice.weather (scheduleAndOccupancy sunnyOffice.pop) = some b := by
    rw [← Option.isSome_iff_exists, Option.isSome_iff_ne_none]
    intro hc
    have h0 := (C30_dark sunnyOffice.weather sunnyOffice.pop sunny_temp.someHour).mp (by
      rw [fin_schedule, fin_breakdown (guards sunny_temp.someHour).1 (guards sunny_temp.someHour).2, hc]; rfl)
    obtain ⟨m, hm⟩ := h0
    have := hm 8
    norm_num [sunnyOffice] at this
  obtain ⟨b, hb⟩ := hb
  have ha : ∃ a, windowSolarGain sunnyOffice.bldg = some a := by
    have := windowSolarGain_some (s := sunnyOffice.bldg) fun i => by norm_num [sunnyOffice, monthlyOffice]
    rw [fin_windowSolarGain, Option.map_eq_some_iff] at this
    exact ⟨_, this.choose_spec.1⟩
  obtain ⟨a, ha⟩ := ha
  have ht : ∃ t, managementShift sunnyOffice.building.buildingEnergyManagement = some t := by
    have := C34_level (fin sunnyOffice.building.buildingEnergyManagement)
    rw [fin_management] at this
    simp only at this
    rw [if_pos (by norm_num [sunnyOffice, monthlyOffice, smallOffice]), Option.map_eq_some_iff] at this
    exact ⟨_, this.choose_spec.1⟩
  obtain ⟨t, ht⟩ := ht
  exact ⟨_, stages_some sunny_temp hb ha ht⟩

/-- the hypotheses of C34 -/
example : ∃ s, TempData sunnyOffice ∧ stages (sunnyOffice.map fin) = some s := ⟨_, sunny_temp, sunny_stages.choose_spec⟩

end ISO.Props
