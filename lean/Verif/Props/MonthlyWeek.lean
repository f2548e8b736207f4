import Verif.Lemmas.MonthlyWeek
import Verif.Spec.Monthly
import Verif.Props.SmallOffice

/-! # C29, C30: the week of the monthly model and the radiation of its parts -/

namespace ISO.Props
open ISO ISO.Monthly ISO.Spec Dbl CNum

/-- C29: of every 168 hours, the occupied part is hours times days, the nights between occupied days and the rest (the
weekend) are each a fraction between 0 and 1, and the three add up to one. -/
theorem C29_fractions (p : Population ℝ) (h : WeekWindow p) :
    ∃ d n e : ℝ,
      (scheduleAndOccupancy (p.map fin)).frac_hrs_wk_day = fin d ∧
      (scheduleAndOccupancy (p.map fin)).frac_hrs_wk_nt = fin n ∧
      (scheduleAndOccupancy (p.map fin)).frac_hrs_wke_tot = fin e ∧
      168 * d = windowHours p * windowDays p ∧
      168 * n = (windowDays p - 1) * (24 - windowHours p) ∧
      0 ≤ d ∧ d ≤ 1 ∧ 0 ≤ n ∧ n ≤ 1 ∧ 0 ≤ e ∧ e ≤ 1 ∧ d + n + e = 1 := by
  rw [fin_schedule]
  refine ⟨_, _, _, rfl, rfl, rfl, ?_⟩
  simp only [scheduleAndOccupancy, hours_eq, days_eq h.notJustBefore]
  have h1 := h.hours_nonneg
  have h2 := h.hours_le
  have h3 := h.days_ge
  have h4 := h.days_le
  generalize windowHours p = a at *
  generalize windowDays p = b at *
  norm_num
  have e1 : 0 ≤ a * b := by positivity
  have e2 : 0 ≤ (b - 1) * (24 - a) := mul_nonneg (by linarith) (by linarith)
  have e3 : a * b + (b - 1) * (24 - a) ≤ 168 := by nlinarith
  refine ⟨by ring, by ring, by positivity, ?_, by positivity, ?_, ?_, ?_, by ring⟩ <;> linarith

/-- C29: the four parts of a month (occupied days, nights between them, the window's hours on the other days, and the rest)
are not negative and add up to the month. -/
theorem C29_months (p : Population ℝ) (h : WeekWindow p) (m : Fin 12) :
    ∃ a b c e : ℝ,
      (scheduleAndOccupancy (p.map fin)).weekdayOccupiedMegaseconds m = fin a ∧
      (scheduleAndOccupancy (p.map fin)).weekdayUnoccupiedMegaseconds m = fin b ∧
      (scheduleAndOccupancy (p.map fin)).weekendOccupiedMegaseconds m = fin c ∧
      (scheduleAndOccupancy (p.map fin)).weekendUnoccupiedMegaseconds m = fin e ∧
      a = megaseconds m * (windowHours p * windowDays p / 168) ∧
      b = megaseconds m * ((windowDays p - 1) * (24 - windowHours p) / 168) ∧
      c = megaseconds m * (windowHours p * (7 - windowDays p) / 168) ∧
      0 ≤ a ∧ 0 ≤ b ∧ 0 ≤ c ∧ 0 ≤ e ∧ a + b + c + e = megaseconds m := by
  rw [fin_schedule]
  refine ⟨_, _, _, _, rfl, rfl, rfl, rfl, ?_⟩
  simp only [scheduleAndOccupancy, hours_eq, days_eq h.notJustBefore, mega_eq]
  have hm : 0 ≤ megaseconds m := by unfold megaseconds; positivity
  have h1 := h.hours_nonneg
  have h2 := h.hours_le
  have h3 := h.days_ge
  have h4 := h.days_le
  generalize windowHours p = a at *
  generalize windowDays p = b at *
  generalize megaseconds m = L at *
  norm_num
  have e1 : 0 ≤ (b - 1) * (24 - a) := mul_nonneg (by linarith) (by linarith)
  have e2 : 0 ≤ (7 - b) * a := mul_nonneg (by linarith) (by linarith)
  have e3 : 0 ≤ 168 - a * b - (b - 1) * (24 - a) - (7 - b) * a := by
    have : 168 - a * b - (b - 1) * (24 - a) - (7 - b) * a = (8 - b) * (24 - a) := by ring
    rw [this]; exact mul_nonneg (by linarith) (by linarith)
  refine ⟨?_, by positivity, by positivity, by positivity, by positivity, by ring⟩
  exact Or.inl (by ring)

/-- C29, the disagreement: a window of seven days written with its last day just before its first one (for example Wednesday to
Tuesday) is taken as no day at all, and the fraction of week nights is negative. -/
theorem C29_justBefore (p : Population ℝ) (h : p.daysEnd + 1 = p.daysStart) (h0 : windowHours p < 24) :
    windowDays p = 7 ∧ (scheduleAndOccupancy (p.map fin)).frac_hrs_wk_day = fin 0 ∧
      ∃ n : ℝ, (scheduleAndOccupancy (p.map fin)).frac_hrs_wk_nt = fin n ∧ n < 0 := by
  have hd : daysPerWeek p = 0 := by
    simp only [daysPerWeek, realnum]
    norm_num
    rw [← h]; norm_num
  refine ⟨?_, ?_, ?_⟩
  · unfold windowDays
    rw [if_pos (by linarith)]; linarith
  · rw [fin_schedule]
    show fin ((scheduleAndOccupancy p).frac_hrs_wk_day) = _
    simp only [scheduleAndOccupancy, hd]
    norm_num
  · rw [fin_schedule]
    refine ⟨_, rfl, ?_⟩
    simp only [scheduleAndOccupancy, hd, hours_eq]
    norm_num
    linarith

/-- the hypotheses of C29: the office, and a night shift from Friday to Monday -/
example : WeekWindow smallOffice.pop := by
  constructor <;> norm_num [smallOffice, windowHours, windowDays]
noncomputable def nightShift : Population ℝ :=
  { smallOffice.pop with hoursStart := 22, hoursEnd := 6, daysStart := 5, daysEnd := 1 }
example : WeekWindow nightShift := by
  constructor <;> norm_num [nightShift, smallOffice, windowHours, windowDays]
example : ∃ p : Population ℝ, p.daysEnd + 1 = p.daysStart ∧ windowHours p < 24 :=
  ⟨{ smallOffice.pop with daysStart := 3, daysEnd := 2 }, by norm_num, by norm_num [smallOffice, windowHours]⟩

/-! ## C30 -/


/-- C30: the breakdown is undefined (sun times read uninitialised) exactly if some month has no radiation in any hour. -/
theorem C30_dark (w : WeatherData ℝ) (p : Population ℝ) (h : 0 < windowHours p) :
    solarRadiationBreakdown (w.map fin) (scheduleAndOccupancy (p.map fin)) = none ↔ ∃ m, ∀ j, w.mhEgh m j = 0 := by
  rw [fin_schedule, fin_breakdown (guards h).1 (guards h).2, Option.map_eq_none_iff]
  unfold solarRadiationBreakdown
  have e : allMonths (fun m => hoursSunDown (w.mhEgh m) m) = none ↔ ∃ m, ∀ j, w.mhEgh m j = 0 := by
    rw [allMonths_none]
    apply exists_congr
    intro m
    unfold hoursSunDown
    cases hu : sunUp (w.mhEgh m) with
    | none => simp only [sunUp_none.mp hu]; simp
    | some u =>
      have hne : ¬ ∀ j, w.mhEgh m j = 0 := by rw [← sunUp_none, hu]; simp
      cases hd : sunDown (w.mhEgh m) with
      | none => exact absurd (sunDown_none.mp hd) hne
      | some d => simp only [Option.bind_eq_bind, Option.bind_some, Option.pure_def, hne]; simp
  cases ha : allMonths (fun m => hoursSunDown (w.mhEgh m) m) with
  | none => rw [ha] at e; simpa using e
  | some s => rw [ha] at e; simpa using e

/-- C30: hours without sun in a month: those outside the span from the first to the last clock hour with radiation. -/
theorem C30_sun (w : WeatherData ℝ) (p : Population ℝ) (h : 0 < windowHours p) (b : Breakdown Dbl)
    (hb : solarRadiationBreakdown (w.map fin) (scheduleAndOccupancy (p.map fin)) = some b) (m : Fin 12) :
    ∃ j k : Fin 24, Daylight (w.mhEgh m) j k ∧ ∃ r : ℝ, b.v_hrs_sun_down_mo m = fin r ∧
      r = days m * (24 - ((k.val : ℝ) - j.val + 1)) ∧ 0 ≤ r ∧ r ≤ days m * 23 := by
  rw [fin_schedule, fin_breakdown (guards h).1 (guards h).2, Option.map_eq_some_iff] at hb
  obtain ⟨b', hb', rfl⟩ := hb
  unfold solarRadiationBreakdown at hb'
  rw [Option.bind_eq_bind, Option.bind_eq_some_iff] at hb'
  obtain ⟨s, hs, hb''⟩ := hb'
  rw [allMonths_eq] at hs
  have hm := hs m
  rw [← Option.some.inj hb'']
  unfold hoursSunDown at hm
  rw [Option.bind_eq_bind, Option.bind_eq_some_iff] at hm
  obtain ⟨j, hj, hm⟩ := hm
  rw [Option.bind_eq_some_iff] at hm
  obtain ⟨k, hk, hm⟩ := hm
  rw [sunUp_spec] at hj
  rw [sunDown_spec] at hk
  have hjk : j ≤ k := hj.2 k hk.1
  refine ⟨j, k, ⟨hj.1, hk.1, fun i hi => ⟨hj.2 i hi, hk.2 i hi⟩⟩, s m, rfl, ?_, ?_⟩
  · rw [← Option.some.inj hm]
    simp only [realnum]
    have : (hoursInMonth m : ℝ) = days m * 24 := by fin_cases m <;> norm_num [hoursInMonth, days, monthDays]
    rw [this]
    norm_num
    ring
  · have hd : (s m : ℝ) = days m * (24 - ((k.val : ℝ) - j.val + 1)) := by
      rw [← Option.some.inj hm]
      simp only [realnum]
      have : (hoursInMonth m : ℝ) = days m * 24 := by fin_cases m <;> norm_num [hoursInMonth, days, monthDays]
      rw [this]
      norm_num
      ring
    have h1 : (j.val : ℝ) ≤ k.val := by exact_mod_cast hjk
    have h2 : (k.val : ℝ) ≤ 23 := by
      have := k.isLt
      exact_mod_cast (by omega : k.val ≤ 23)
    have h3 : (0 : ℝ) ≤ j.val := by positivity
    rw [hd]
    refine ⟨by apply mul_nonneg <;> [positivity; linarith], ?_⟩
    apply mul_le_mul_of_nonneg_left _ (by positivity)
    linarith

/-- C30: the temperatures handed on are the means over the day hours and over the other hours, and recombine to the whole
day. -/
theorem C30_temperature (w : WeatherData ℝ) (p : Population ℝ) (h : 0 < windowHours p) (b : Breakdown Dbl)
    (hb : solarRadiationBreakdown (w.map fin) (scheduleAndOccupancy (p.map fin)) = some b) (m : Fin 12) :
    b.v_Tdbt_day m = fin (mean (dayHours p) (w.mhdbt m)) ∧ b.v_Tdbt_nt m = fin (mean (dayHours p)ᶜ (w.mhdbt m)) ∧
      0 < (dayHours p).card ∧ 0 < ((dayHours p)ᶜ).card ∧
      (dayHours p).card * mean (dayHours p) (w.mhdbt m) + ((dayHours p)ᶜ).card * mean (dayHours p)ᶜ (w.mhdbt m)
        = ∑ j, w.mhdbt m j := by
  rw [fin_schedule, fin_breakdown (guards h).1 (guards h).2, Option.map_eq_some_iff] at hb
  obtain ⟨b', hb', rfl⟩ := hb
  unfold solarRadiationBreakdown at hb'
  rw [Option.bind_eq_bind, Option.bind_eq_some_iff] at hb'
  obtain ⟨s, -, hb''⟩ := hb'
  have hc := day_ne h
  have hc' := night_ne p
  rw [← Option.some.inj hb'']
  refine ⟨?_, ?_, hc, hc', ?_⟩
  · show fin _ = fin _
    rw [← average_day]; rfl
  · show fin _ = fin _
    rw [← average_night]; rfl
  · unfold mean
    have n1 : ((dayHours p).card : ℝ) ≠ 0 := by exact_mod_cast hc.ne'
    have n2 : (((dayHours p)ᶜ).card : ℝ) ≠ 0 := by exact_mod_cast hc'.ne'
    rw [mul_div_cancel₀ _ n1, mul_div_cancel₀ _ n2, Finset.sum_add_sum_compl]

/-- C30: with radiation that is never negative, the month's radiation is positive, the shares of week nights, weekend days and
weekend nights are the energies received then divided by the month's total, each between 0 and 1, and with the share of the
occupied time they add up to one. -/
theorem C30_radiation (w : WeatherData ℝ) (p : Population ℝ) (hp : WeekWindow p) (h : 0 < windowHours p) (h' : windowHours p < 24)
    (hw : ∀ m j, 0 ≤ w.mhEgh m j) (b : Breakdown Dbl)
    (hb : solarRadiationBreakdown (w.map fin) (scheduleAndOccupancy (p.map fin)) = some b) (m : Fin 12) :
    ∃ x y z total : ℝ,
      b.frac_Pgh_wk_nt m = fin x ∧ b.frac_Pgh_wke_day m = fin y ∧ b.frac_Pgh_wke_nt m = fin z ∧
      total = megaseconds m * (mean (dayHours p) (w.mhEgh m) * windowHours p
        + mean (dayHours p)ᶜ (w.mhEgh m) * (24 - windowHours p)) / 24 ∧ 0 < total ∧
      x * total = megaseconds m * mean (dayHours p)ᶜ (w.mhEgh m) * ((windowDays p - 1) * (24 - windowHours p) / 168) ∧
      y * total = megaseconds m * mean (dayHours p) (w.mhEgh m) * (windowHours p * (7 - windowDays p) / 168) ∧
      z * total = megaseconds m * mean (dayHours p)ᶜ (w.mhEgh m) * ((8 - windowDays p) * (24 - windowHours p) / 168) ∧
      0 ≤ x ∧ x ≤ 1 ∧ 0 ≤ y ∧ y ≤ 1 ∧ 0 ≤ z ∧ z ≤ 1 ∧
      x + y + z + megaseconds m * mean (dayHours p) (w.mhEgh m) * (windowHours p * windowDays p / 168) / total = 1 := by
  have hdark : ¬ ∀ j, w.mhEgh m j = 0 := by
    intro hz
    rw [(C30_dark w p h).mpr ⟨m, hz⟩] at hb
    cases hb
  rw [fin_schedule, fin_breakdown (guards h).1 (guards h).2, Option.map_eq_some_iff] at hb
  obtain ⟨b', hb', rfl⟩ := hb
  unfold solarRadiationBreakdown at hb'
  rw [Option.bind_eq_bind, Option.bind_eq_some_iff] at hb'
  obtain ⟨s, -, hb''⟩ := hb'
  rw [← Option.some.inj hb'']
  have n1 : (0:ℝ) < (dayHours p).card := by exact_mod_cast day_ne h
  have n2 : (0:ℝ) < ((dayHours p)ᶜ).card := by exact_mod_cast night_ne p
  have hD : 0 ≤ mean (dayHours p) (w.mhEgh m) := div_nonneg (Finset.sum_nonneg fun j _ => hw m j) n1.le
  have hN : 0 ≤ mean (dayHours p)ᶜ (w.mhEgh m) := div_nonneg (Finset.sum_nonneg fun j _ => hw m j) n2.le
  have hDN : 0 < mean (dayHours p) (w.mhEgh m) ∨ 0 < mean (dayHours p)ᶜ (w.mhEgh m) := by
    by_contra hc
    rw [not_or, not_lt, not_lt] at hc
    have z1 : ∑ j ∈ dayHours p, w.mhEgh m j = 0 := by
      have := le_antisymm hc.1 hD
      unfold mean at this
      rcases div_eq_zero_iff.mp this with h0 | h0
      · exact h0
      · exact absurd h0 n1.ne'
    have z2 : ∑ j ∈ (dayHours p)ᶜ, w.mhEgh m j = 0 := by
      have := le_antisymm hc.2 hN
      unfold mean at this
      rcases div_eq_zero_iff.mp this with h0 | h0
      · exact h0
      · exact absurd h0 n2.ne'
    rw [Finset.sum_eq_zero_iff_of_nonneg fun j _ => hw m j] at z1 z2
    apply hdark
    intro j
    by_cases hj : j ∈ dayHours p
    · exact z1 j hj
    · exact z2 j (Finset.mem_compl.mpr hj)
  have hL : 0 < megaseconds m := by rw [← mega_eq]; exact mega_pos m
  refine ⟨_, _, _, _, rfl, rfl, rfl, rfl, ?_⟩
  simp only [radiationFractions, average_day, average_night]
  simp only [scheduleAndOccupancy, hours_eq, days_eq hp.notJustBefore, mega_eq]
  have h3 := hp.days_ge
  have h4 := hp.days_le
  generalize mean (dayHours p) (w.mhEgh m) = D at *
  generalize mean (dayHours p)ᶜ (w.mhEgh m) = N at *
  generalize windowHours p = a at *
  generalize windowDays p = c at *
  generalize megaseconds m = L at *
  norm_num
  have hpos : 0 < D * a + N * (24 - a) := by
    rcases hDN with hx | hx
    · have : 0 < D * a := mul_pos hx h
      have : 0 ≤ N * (24 - a) := mul_nonneg hN (by linarith)
      linarith
    · have : 0 < N * (24 - a) := mul_pos hx (by linarith)
      have : 0 ≤ D * a := mul_nonneg hD h.le
      linarith
  have htot : D * (L * (a * c / 168)) + N * (L * ((c - 1) * (24 - a) / 168))
      + (D * (L * ((7 - c) * a / 168)) + N * (L * ((168 - a * c - (c - 1) * (24 - a) - (7 - c) * a) / 168)))
      = L * (D * a + N * (24 - a)) / 24 := by ring
  have hT : 0 < L * (D * a + N * (24 - a)) / 24 := by positivity
  rw [htot, vdiv_ne _ hT.ne', vdiv_ne _ hT.ne', vdiv_ne _ hT.ne', div_mul_cancel₀ _ hT.ne', div_mul_cancel₀ _ hT.ne',
    div_mul_cancel₀ _ hT.ne']
  have p0 : 0 ≤ D * (L * (a * c / 168)) := by
    have : 0 ≤ c := by linarith
    positivity
  have p1 : 0 ≤ N * (L * ((c - 1) * (24 - a) / 168)) :=
    mul_nonneg hN (mul_nonneg hL.le (div_nonneg (mul_nonneg (by linarith) (by linarith)) (by norm_num)))
  have p2 : 0 ≤ D * (L * ((7 - c) * a / 168)) :=
    mul_nonneg hD (mul_nonneg hL.le (div_nonneg (mul_nonneg (by linarith) (by linarith)) (by norm_num)))
  have p3 : 0 ≤ N * (L * ((168 - a * c - (c - 1) * (24 - a) - (7 - c) * a) / 168)) := by
    rw [show 168 - a * c - (c - 1) * (24 - a) - (7 - c) * a = (8 - c) * (24 - a) by ring]
    exact mul_nonneg hN (mul_nonneg hL.le (div_nonneg (mul_nonneg (by linarith) (by linarith)) (by norm_num)))
  refine ⟨by positivity, by ring, by ring, by ring, div_nonneg p1 hT.le, ?_, div_nonneg p2 hT.le, ?_, div_nonneg p3 hT.le, ?_, ?_⟩
  · rw [div_le_one hT]; linarith
  · rw [div_le_one hT]; linarith
  · rw [div_le_one hT]; linarith
  · rw [← add_div, ← add_div, ← add_div, div_eq_one_iff_eq hT.ne']
    rw [← htot]; ring

/-- the hypotheses of C30: the office and its weather -/
example : WeekWindow smallOffice.pop ∧ 0 < windowHours smallOffice.pop ∧ windowHours smallOffice.pop < 24 ∧
    (∀ m j, 0 ≤ smallOffice.weather.mhEgh m j) ∧
    ∃ b, solarRadiationBreakdown (smallOffice.weather.map fin) (scheduleAndOccupancy (smallOffice.pop.map fin)) = some b := by
  have h0 : 0 < windowHours smallOffice.pop := by norm_num [smallOffice, windowHours]
  refine ⟨by constructor <;> norm_num [smallOffice, windowHours, windowDays], h0, by norm_num [smallOffice, windowHours], ?_, ?_⟩
  · intro m j
    simp only [smallOffice]
    split_ifs <;> norm_num
  · rw [← Option.ne_none_iff_exists']
    rw [ne_eq, C30_dark _ _ h0]
    rintro ⟨m, hm⟩
    have := hm 12
    norm_num [smallOffice] at this
example : ∃ (w : WeatherData ℝ), ∃ m, ∀ j, w.mhEgh m j = 0 :=
  ⟨{ smallOffice.weather with mhEgh := fun m j => if m = 11 then 0 else smallOffice.weather.mhEgh m j }, 11, fun j => by simp⟩

end ISO.Props
