import Verif.Lemmas.MachineExact
import Verif.Lemmas.MonthlyWeek
import Verif.Model.Monthly

/-!
# C63: signs in rounded arithmetic, monthly model
-/

namespace ISO.Props
open ISO ISO.Spec ISO.Monthly CNum Mach

theorem plus_vdiv {M : Machine} {a b : Mach M} (ha : P a) (hb : P b) : P (vdiv a b) := by
  unfold vdiv
  generalize ceq b 0.0 = c
  cases c
  · exact plus_div ha hb
  · exact plus_lit _ _ _

theorem nn_vdiv {M : Machine} {a b : Mach M} (ha : N a) (hb : P b) : N (vdiv a b) := by
  unfold vdiv
  generalize ceq b 0.0 = c
  cases c
  · exact nn_div ha hb
  · exact (plus_lit _ _ _).n

theorem plus_kWh2MJ {M : Machine} : P (kWh2MJ : Mach M) := plus_div (plus_lit _ _ _) (plus_lit _ _ _)

theorem plus_mega {M : Machine} (m : Fin 12) : P (megasecondsInMonth m : Mach M) := by
  fin_cases m <;> exact plus_lit _ _ _

theorem mega_plain {M : Machine} (m : Fin 12) : 0 < Fl.key (megasecondsInMonth m : Mach M) ∧ PlainNumber (megasecondsInMonth m : Mach M) := by
  fin_cases m <;> exact ⟨Mach.lit_pos _ _ _ 0 (by norm_num) (by norm_num), lit_plain _ _ _ (by norm_num)⟩

theorem plus_hours {M : Machine} (m : Fin 12) : P (hoursInMonth m : Mach M) := by
  fin_cases m <;> exact plus_lit _ _ _

theorem plus_fraction {M : Machine} (m : Fin 12) : P (monthFractionOfYear m : Mach M) := by
  fin_cases m <;> exact plus_lit _ _ _

/-! ## The timetable is exact -/

section
variable {M : Machine} {x : Sim (Mach M)} {hs he ds de us ue nw : ℕ} (t : Timetable x hs he ds de us ue nw)
include t

theorem tt_hours : hoursPerDay x.pop = whole (he - hs) := by
  have h := t.hours
  unfold hoursPerDay
  rw [show x.pop.hoursEnd = whole he from t.hoursEnd, show x.pop.hoursStart = whole hs from t.hoursStart, whole_sub h.1 (by omega),
    whole_lit (m := 0) 0 (by norm_num) (by norm_num)]
  dsimp only
  rw [whole_lt]
  rfl

theorem tt_days : daysPerWeek x.pop = whole (de - ds + 1) := by
  have h := t.days
  unfold daysPerWeek
  rw [show x.pop.daysEnd = whole de from t.daysEnd, show x.pop.daysStart = whole ds from t.daysStart, whole_sub h.1 (by omega),
    whole_lit (m := 10) 1 (by norm_num) (by norm_num), whole_add (by omega), whole_lit (m := 0) 0 (by norm_num) (by norm_num)]
  dsimp only
  rw [whole_lt]
  rfl

theorem tt_dayHours : lightingDayHours x.lights x.pop = whole (min ue he - max hs us) := by
  have h := t.hours
  have l := t.light
  have m := t.meet
  have le : max hs us ≤ min ue he := by omega
  unfold lightingDayHours
  rw [show x.pop.hoursEnd = whole he from t.hoursEnd, show x.pop.hoursStart = whole hs from t.hoursStart,
    show x.lights.n_day_end = whole ue from t.lightEnd, show x.lights.n_day_start = whole us from t.lightStart, whole_cmin, whole_cmax,
    whole_sub le (by omega), whole_lit (m := 0) 0 (by norm_num) (by norm_num)]
  dsimp only
  rw [whole_lt]
  rfl

theorem tt_nightHours : lightingNightHours x.lights x.pop = whole (us - hs + (he - ue)) := by
  have h := t.hours
  have l := t.light
  unfold lightingNightHours
  rw [show x.pop.hoursEnd = whole he from t.hoursEnd, show x.pop.hoursStart = whole hs from t.hoursStart,
    show x.lights.n_day_end = whole ue from t.lightEnd, show x.lights.n_day_start = whole us from t.lightStart,
    whole_excess (by omega) (by omega), whole_excess (by omega) (by omega), whole_add (by omega)]

/-- the occupied part of the week -/
theorem tt_fraction : (scheduleAndOccupancy x.pop).frac_hrs_wk_day = whole ((he - hs) * (de - ds + 1)) / whole 168 := by
  have h := t.hours
  have d := t.days
  have b : (he - hs) * (de - ds + 1) ≤ 24 * 7 := Nat.mul_le_mul (by omega) (by omega)
  show hoursPerDay x.pop * daysPerWeek x.pop / 168.0 = _
  rw [tt_hours t, tt_days t, whole_mul (by omega), whole_lit (m := 1680) 168 (by norm_num) (by norm_num)]

/-- the unoccupied hours of the year -/
theorem tt_unoccupied : ∃ a b n : ℕ,
    lightingDayHours x.lights x.pop * daysPerWeek x.pop * x.lights.n_weeks = whole a ∧
    lightingNightHours x.lights x.pop * daysPerWeek x.pop * x.lights.n_weeks = whole b ∧
    (8760.0 - lightingDayHours x.lights x.pop * daysPerWeek x.pop * x.lights.n_weeks
      - lightingNightHours x.lights x.pop * daysPerWeek x.pop * x.lights.n_weeks : Mach M) = whole n := by
  have h := t.hours
  have l := t.light
  have m := t.meet
  have d := t.days
  have w := t.year
  have b1 : (min ue he - max hs us) * (de - ds + 1) * nw + (us - hs + (he - ue)) * (de - ds + 1) * nw ≤ 24 * 7 * 52 := by
    rw [← Nat.add_mul, ← Nat.add_mul]
    exact Nat.mul_le_mul (Nat.mul_le_mul (by omega) (by omega)) w
  have b2 : (min ue he - max hs us) * (de - ds + 1) ≤ 24 * 7 := Nat.mul_le_mul (by omega) (by omega)
  have b3 : (us - hs + (he - ue)) * (de - ds + 1) ≤ 48 * 7 := Nat.mul_le_mul (by omega) (by omega)
  rw [tt_dayHours t, tt_nightHours t, tt_days t, show x.lights.n_weeks = whole nw from t.weeks, whole_mul (by omega), whole_mul (by omega),
    whole_mul (by omega), whole_mul (by omega), whole_lit (m := 87600) 8760 (by norm_num) (by norm_num), whole_sub (by omega) (by omega),
    whole_sub (by omega) (by omega)]
  exact ⟨_, _, _, rfl, rfl, rfl⟩

end

/-! ## The parts of the balance -/

theorem plus_lighting {M : Machine} {x : Sim (Mach M)} {hs he ds de us ue nw : ℕ} (t : Timetable x hs he ds de us ue nw)
    (hx : SensibleMonthly x) (dark : Fin 12 → Mach M) (m : Fin 12) : P ((lightingEnergyUse x dark).v_Q_illum_tot m) := by
  obtain ⟨a, b, n, e1, e2, e3⟩ := tt_unoccupied t
  show P (monthFractionOfYear m * (x.bldg.floorArea * x.lights.powerDensityOccupied * x.building.constantIllumination
      * x.building.lightingOccupancySensor * (lightingDayHours x.lights x.pop * daysPerWeek x.pop * x.lights.n_weeks * x.lights.dimmingFraction
        + lightingNightHours x.lights x.pop * daysPerWeek x.pop * x.lights.n_weeks) / 1000.0
    + x.bldg.floorArea * x.lights.powerDensityUnoccupied * (8760.0 - lightingDayHours x.lights x.pop * daysPerWeek x.pop * x.lights.n_weeks
      - lightingNightHours x.lights x.pop * daysPerWeek x.pop * x.lights.n_weeks) / 1000.0))
  rw [e3, e1, e2]
  exact plus_mul (plus_fraction m) (plus_add
    (plus_div (plus_mul (plus_mul (plus_mul (plus_mul hx.floorArea.plus hx.lightOccupied.plus) hx.illumination.plus) hx.sensor.plus)
      (plus_add (plus_mul (whole_plain a).plus hx.dimming.plus) (whole_plain b).plus)) (plus_lit _ _ _))
    (plus_div (plus_mul (plus_mul hx.floorArea.plus hx.lightUnoccupied.plus) (whole_plain n).plus) (plus_lit _ _ _)))

theorem sunUp_le_sunDown {M : Machine} {row : Fin 24 → Mach M} {up down : Fin 24} (h1 : sunUp row = some up) (h2 : sunDown row = some down) :
    up ≤ down := by
  classical
  have e : ∀ j, (!ceq (if ceq (row j) 0.0 then (0 : ℝ) else 1) 0.0) = !ceq (row j) 0.0 := by
    intro j
    cases ceq (row j) 0.0
    · show (!decide ((1 : ℝ) = 0.0)) = true; norm_num
    · show (!decide ((0 : ℝ) = 0.0)) = false; norm_num
  have h1' : sunUp (fun j => if ceq (row j) 0.0 then (0 : ℝ) else 1) = some up := by
    rw [← h1]; unfold sunUp; simp only [e]
  have h2' : sunDown (fun j => if ceq (row j) 0.0 then (0 : ℝ) else 1) = some down := by
    rw [← h2]; unfold sunDown; simp only [e]
  exact (sunUp_spec.mp h1').2 _ (sunDown_spec.mp h2').1

theorem plus_dark {M : Machine} {row : Fin 24 → Mach M} {m : Fin 12} {v : Mach M} (h : hoursSunDown row m = some v) : P v := by
  unfold hoursSunDown at h
  cases h1 : sunUp row with
  | none => rw [h1] at h; cases h
  | some up =>
    cases h2 : sunDown row with
    | none => rw [h1, h2] at h; cases h
    | some down =>
      rw [h1, h2] at h
      have hle : up.val ≤ down.val := sunUp_le_sunDown h1 h2
      have e := Option.some.inj h
      rw [← e]
      refine plus_mul ?_ (plus_hours m)
      have : (OfInt.ofInt (down.val : ℤ) - OfInt.ofInt (up.val : ℤ) + 1.0 : Mach M) / 24.0 = whole (down.val - up.val + 1) / whole 24 := by
        have := down.isLt
        rw [whole_ofInt _ (by omega), whole_ofInt _ (by omega), whole_sub hle (by omega), whole_lit (m := 10) 1 (by norm_num) (by norm_num),
          whole_add (by omega), whole_lit (m := 240) 24 (by norm_num) (by norm_num)]
      show P (1.0 - (OfInt.ofInt (down.val : ℤ) - OfInt.ofInt (up.val : ℤ) + 1.0 : Mach M) / 24.0)
      rw [this]
      exact plus_one_sub_whole (by have := down.isLt; omega)

theorem nn_fan {M : Machine} {x : Sim (Mach M)} {hs he ds de us ue nw : ℕ} (t : Timetable x hs he ds de us ue nw)
    (hx : SensibleMonthly x) (a b c d : Mach M) (m : Fin 12) :
    N (fanUse x (scheduleAndOccupancy x.pop).frac_hrs_wk_day a b c d m) := by
  have hf : PlainNumber (scheduleAndOccupancy x.pop).frac_hrs_wk_day := by
    have h := t.hours
    have dd := t.days
    rw [tt_fraction t]
    have b : (he - hs) * (de - ds + 1) ≤ 24 * 7 := Nat.mul_le_mul (by omega) (by omega)
    show PlainNumber (M.toRounding.div (Fl.num false _) (Fl.num false _))
    simp only [Rounding.div]
    rw [if_neg (by norm_num), M.toRounding.make_num]
    · exact ⟨_, rfl⟩
    · refine le_trans (div_le_one_of_le₀ ?_ (zero_le)) (by norm_num)
      exact_mod_cast b
  have p1 : P (x.ventilation.supplyRate * (scheduleAndOccupancy x.pop).frac_hrs_wk_day * 1000000.0) :=
    plus_mul (plus_mul hx.supply.plus hf.plus) (plus_lit _ _ _)
  have q1 : Fl.isNan (x.ventilation.supplyRate * (scheduleAndOccupancy x.pop).frac_hrs_wk_day * 1000000.0 : Mach M) = false :=
    mul_isNan' (mul_isNan hx.supply hf) (Mach.lit_pos _ _ _ 0 (by norm_num) (by norm_num)) (lit_plain _ _ _ (by norm_num))
  have q2 : Fl.isNan (megasecondsInMonth m * (x.ventilation.supplyRate * (scheduleAndOccupancy x.pop).frac_hrs_wk_day * 1000000.0) : Mach M)
      = false := by
    rw [mul_comm']
    exact mul_isNan' q1 (mega_plain m).1 (mega_plain m).2
  have e0 : ceq (1000.0 : Mach M) 0.0 = false := by
    rw [whole_lit (m := 10000) 1000 (by norm_num) (by norm_num), zero]
    show Fl.eq _ _ = false
    simp [Fl.eq, whole, Fl.key, Fl.isNan]
  have p3 : P (vdiv (megasecondsInMonth m * (x.ventilation.supplyRate * (scheduleAndOccupancy x.pop).frac_hrs_wk_day * 1000000.0)) 1000.0) :=
    plus_vdiv (plus_mul (plus_mega m) p1) (plus_lit _ _ _)
  have q3 : Fl.isNan (vdiv (megasecondsInMonth m * (x.ventilation.supplyRate * (scheduleAndOccupancy x.pop).frac_hrs_wk_day * 1000000.0)) 1000.0
      : Mach M) = false := by
    unfold vdiv
    rw [e0]
    exact div_isNan q2 (lit_plain _ _ _ (by norm_num)) (by
      rw [whole_lit (m := 0) 0 (by norm_num) (by norm_num), whole_lit (m := 10000) 1000 (by norm_num) (by norm_num), whole_lt]; rfl)
  exact nn_vdiv (nn_vdiv (nn_mul (nn_cmax p3 q3 _) (plus_div (plus_mul hx.fanPower.plus hx.fanControl.plus) (plus_lit _ _ _)))
    hx.floorArea.plus) (plus_lit _ _ _)

theorem plus_plug {M : Machine} {x : Sim (Mach M)} {hs he ds de us ue nw : ℕ} (t : Timetable x hs he ds de us ue nw)
    {a b : Mach M} (ha : P a) (hb : P b) (m : Fin 12) : P (plugLoad a b (scheduleAndOccupancy x.pop).frac_hrs_wk_day m) := by
  have h := t.hours
  have d := t.days
  have c : (he - hs) * (de - ds + 1) ≤ 24 * 7 := Nat.mul_le_mul (by omega) (by omega)
  unfold plugLoad
  rw [tt_fraction t]
  exact plus_vdiv (plus_mul (plus_hours m) (plus_add (plus_mul ha (plus_div (whole_plain _).plus (whole_plain _).plus))
    (plus_mul hb (plus_one_sub_whole (by omega))))) (plus_lit _ _ _)

theorem nn_hotWater {M : Machine} (x : Sim (Mach M)) (m : Fin 12) : N (hotWaterNeed x m) := by
  unfold hotWaterNeed
  exact nn_cmax (plus_lit _ _ _) (by rw [zero]; rfl) _

/-- C63, monthly model: on every machine, for every building with sensible quantities and a timetable in whole hours, and any weather, set-points,
walls, windows and systems, the monthly numbers for interior lights, exterior lights, fans, electric and gas appliances, exterior equipment, and
electric and gas hot water are not below zero. -/
theorem C63_monthly {M : Machine} (x : Sim (Mach M)) {hs he ds de us ue nw : ℕ} (t : Timetable x hs he ds de us ue nw)
    (hx : SensibleMonthly x) {out : List (Hourly.EndUses (Mach M))} (h : Monthly.simulate x = some out) :
    ∀ u ∈ out, NotNegative (u 2) ∧ NotNegative (u 3) ∧ NotNegative (u 4) ∧ NotNegative (u 6) ∧ NotNegative (u 7) ∧ NotNegative (u 8) ∧
      NotNegative (u 11) ∧ NotNegative (u 12) := by
  unfold Monthly.simulate stages at h
  cases h1 : solarRadiationBreakdown x.weather (scheduleAndOccupancy x.pop) with
  | none => rw [h1] at h; cases h
  | some b =>
  cases h2 : windowSolarGain x.bldg with
  | none => rw [h1, h2] at h; cases h
  | some areas =>
  cases h3 : managementShift x.building.buildingEnergyManagement with
  | none => rw [h1, h2, h3] at h; cases h
  | some T =>
  rw [h1, h2, h3] at h
  have e := Option.some.inj h
  have hb : ∀ m, P (b.v_hrs_sun_down_mo m) := by
    unfold solarRadiationBreakdown allMonths at h1
    intro m
    split at h1
    case isTrue hs =>
      have e := Option.some.inj h1
      rw [← e]
      exact plus_dark (Option.some_get (hs m)).symm
    case isFalse => cases h1
  intro u hu
  rw [← e] at hu
  obtain ⟨m, -, rfl⟩ := List.mem_map.mp hu
  simp only [notNegative_iff]
  have hw : N ((heatedWater x).1 m) ∧ N ((heatedWater x).2 m) := by
    unfold heatedWater
    generalize ceq x.heating.hotWaterEnergyType 1.0 = c
    cases c
    · exact ⟨(plus_lit _ _ _).n, nn_hotWater x m⟩
    · exact ⟨nn_hotWater x m, (plus_lit _ _ _).n⟩
  refine ⟨?_, ?_, ?_, ?_, ?_, ?_, ?_, ?_⟩
  · exact (plus_vdiv (plus_lighting t hx b.v_hrs_sun_down_mo m) hx.floorArea.plus).n
  · exact (plus_vdiv (plus_mul (hb m) (plus_div hx.lightExterior.plus (plus_lit _ _ _))) hx.floorArea.plus).n
  · exact nn_fan t hx _ _ _ _ m
  · exact (plus_plug t hx.plugOccupied.plus hx.plugUnoccupied.plus m).n
  · exact (plus_lit _ _ _).n
  · exact nn_vdiv hw.1 hx.floorArea.plus
  · exact (plus_plug t hx.gasOccupied.plus hx.gasUnoccupied.plus m).n
  · exact nn_vdiv hw.2 hx.floorArea.plus

end ISO.Props
