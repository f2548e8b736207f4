import Verif.Lemmas.Monthly
import Verif.Spec.Monthly

/-! Helper lemmas: schedule and radiation breakdown of the monthly model on finite input. -/

namespace ISO.Monthly
open ISO CNum Dbl

@[dblfin] theorem fin_hoursPerDay (p : Population ℝ) : hoursPerDay (p.map fin) = fin (hoursPerDay p) := by
  simp only [hoursPerDay, Population.map, dblfin]

@[dblfin] theorem fin_daysPerWeek (p : Population ℝ) : daysPerWeek (p.map fin) = fin (daysPerWeek p) := by
  simp only [daysPerWeek, Population.map, dblfin]

@[dblfin] theorem fin_hourOccupied (h : ℝ) (j : Fin 24) : hourOccupied (fin h) j = hourOccupied h j := by
  simp only [hourOccupied, dblfin]

theorem hourOccupied_real (h : ℝ) (j : Fin 24) :
    hourOccupied h j = true ↔ 7 ≤ j.val ∧ (j.val : ℝ) < 7 + h := by
  simp only [hourOccupied, Bool.and_eq_true, Bool.not_eq_true', clt_real, clt_real_false, ofInt_real, Int.cast_natCast]
  rw [show (7.0 : ℝ) = ((7 : ℕ) : ℝ) by norm_num, show (0.0 : ℝ) = 0 by norm_num, sub_nonneg, Nat.cast_le, sub_lt_iff_lt_add']
  norm_num

theorem fin_schedule (p : Population ℝ) :
    scheduleAndOccupancy (p.map fin) = (scheduleAndOccupancy p).map fin := by
  have h : (168.0 : ℝ) ≠ 0 := by norm_num
  simp only [scheduleAndOccupancy, Occupancy.map, dblfin, ne_eq, h, not_false_eq_true]

theorem fin_weightedAverage {w row : Fin 24 → ℝ} (h : vsum w ≠ 0) :
    weightedAverage (fun i => fin (w i)) (fun i => fin (row i)) = fin (weightedAverage w row) := by
  simp only [weightedAverage, dblfin, ne_eq, h, not_false_eq_true]

theorem find_congr {β : Type} (l : List β) (f g : β → Bool) (h : ∀ b, f b = g b) : l.find? f = l.find? g := by
  rw [funext h]

@[dblfin] theorem fin_sunUp (row : Fin 24 → ℝ) : sunUp (fun j => fin (row j)) = sunUp row := by
  simp only [sunUp, dblfin]
@[dblfin] theorem fin_sunDown (row : Fin 24 → ℝ) : sunDown (fun j => fin (row j)) = sunDown row := by
  simp only [sunDown, dblfin]

theorem fin_hoursSunDown (row : Fin 24 → ℝ) (m : Fin 12) :
    hoursSunDown (fun j => fin (row j)) m = (hoursSunDown row m).map fin := by
  unfold hoursSunDown
  rw [fin_sunUp, fin_sunDown]
  have h : (24.0 : ℝ) ≠ 0 := by norm_num
  cases sunUp row with
  | none => rfl
  | some u =>
    cases sunDown row with
    | none => rfl
    | some d =>
      simp only [Option.bind_eq_bind, Option.bind_some, dblfin, ne_eq, h, not_false_eq_true, Option.pure_def, Option.map_some]

theorem allMonths_some {β : Type} (f : Fin 12 → β) : (allMonths fun m => some (f m)) = some f := by
  unfold allMonths
  rw [dif_pos (by intro m; rfl)]; rfl

theorem allMonths_eq {β : Type} {f : Fin 12 → Option β} {g : Fin 12 → β} : allMonths f = some g ↔ ∀ m, f m = some (g m) := by
  constructor
  · intro h m
    unfold allMonths at h
    split_ifs at h with hs
    rw [← Option.some.inj h, Option.some_get]
  · intro h
    rw [funext h, allMonths_some]

theorem allMonths_none {β : Type} {f : Fin 12 → Option β} : allMonths f = none ↔ ∃ m, f m = none := by
  unfold allMonths
  split_ifs with hs
  · simp only [false_iff, not_exists]
    intro m h; have := hs m; rw [h] at this; simp at this
  · simp only [true_iff]
    rw [not_forall] at hs
    obtain ⟨m, hm⟩ := hs
    exact ⟨m, by simpa using hm⟩

theorem allMonths_map {β γ : Type} (f : Fin 12 → Option β) (k : β → γ) :
    allMonths (fun m => (f m).map k) = (allMonths f).map fun g m => k (g m) := by
  cases h : allMonths f with
  | none =>
    rw [allMonths_none] at h
    obtain ⟨m, hm⟩ := h
    rw [Option.map_none, allMonths_none]
    exact ⟨m, by rw [hm]; rfl⟩
  | some g =>
    rw [allMonths_eq] at h
    rw [Option.map_some, allMonths_eq]
    intro m; rw [h m]; rfl

theorem fin_radiationFractions {w : WeatherData ℝ} {o : Occupancy ℝ} (hd : vsum o.clockHourOccupied ≠ 0)
    (hn : vsum o.clockHourUnoccupied ≠ 0) (s : Fin 12 → ℝ) :
    radiationFractions (w.map fin) (o.map fin) (fun m => fin (s m)) = (radiationFractions w o s).map fin := by
  simp only [radiationFractions, Breakdown.map, Occupancy.map, WeatherData.map, fin_weightedAverage hd,
    fin_weightedAverage hn, dblfin]

theorem fin_breakdown {w : WeatherData ℝ} {o : Occupancy ℝ} (hd : vsum o.clockHourOccupied ≠ 0)
    (hn : vsum o.clockHourUnoccupied ≠ 0) :
    solarRadiationBreakdown (w.map fin) (o.map fin) = (solarRadiationBreakdown w o).map (Breakdown.map fin) := by
  unfold solarRadiationBreakdown
  have e : (fun m => hoursSunDown ((w.map fin).mhEgh m) m) = fun m => (hoursSunDown (w.mhEgh m) m).map fin :=
    funext fun m => fin_hoursSunDown _ m
  rw [e, allMonths_map]
  cases allMonths fun m => hoursSunDown (w.mhEgh m) m with
  | none => rfl
  | some s =>
    simp only [Option.map_some, Option.bind_eq_bind, Option.bind_some, Option.pure_def, fin_radiationFractions hd hn]

/-- the clock hours of the "day" -/
theorem sum_clock (h : ℝ) (row : Fin 24 → ℝ) (q : Fin 24 → Prop) [DecidablePred q] (hq : ∀ j, hourOccupied h j = true ↔ q j) :
    (∑ j, row j * (bif hourOccupied h j then (1:ℝ) else 0)) = ∑ j ∈ Finset.univ.filter q, row j := by
  rw [Finset.sum_filter]
  apply Finset.sum_congr rfl
  intro j _
  cases hj : hourOccupied h j with
  | true => rw [if_pos ((hq j).mp hj)]; simp
  | false => rw [if_neg (fun hh => by rw [(hq j).mpr hh] at hj; cases hj)]; simp

/-! ### the specification of the week -/
open ISO.Spec

theorem hours_eq (p : Population ℝ) : hoursPerDay p = windowHours p := by
  simp only [hoursPerDay, windowHours, realnum]
  norm_num [sub_neg]
  rw [add_comm]

theorem days_eq {p : Population ℝ} (h : p.daysEnd < p.daysStart → p.daysEnd + 1 < p.daysStart) :
    daysPerWeek p = windowDays p := by
  simp only [daysPerWeek, windowDays, realnum]
  norm_num
  by_cases h1 : p.daysEnd < p.daysStart
  · have h2 := h h1
    rw [if_pos h1, if_pos (by linarith)]; ring
  · rw [if_neg h1, if_neg (by linarith)]

theorem mega_eq (m : Fin 12) : (megasecondsInMonth m : ℝ) = megaseconds m := by
  fin_cases m <;> norm_num [megasecondsInMonth, megaseconds, days, monthDays]

theorem dayHours_iff (p : Population ℝ) (j : Fin 24) : hourOccupied (hoursPerDay p) j = true ↔ j ∈ dayHours p := by
  rw [hourOccupied_real, hours_eq]
  unfold dayHours
  simp only [Finset.mem_filter, Finset.mem_univ, true_and]

open Classical in
theorem sum_day (p : Population ℝ) (row : Fin 24 → ℝ) :
    vsum (fun j => row j * (scheduleAndOccupancy p).clockHourOccupied j) = ∑ j ∈ dayHours p, row j := by
  rw [vsum_real, ← Finset.sum_filter_add_sum_filter_not Finset.univ (· ∈ dayHours p)]
  simp only [Finset.filter_mem_eq_inter, Finset.univ_inter]
  have e1 : ∑ j ∈ dayHours p, row j * (scheduleAndOccupancy p).clockHourOccupied j = ∑ j ∈ dayHours p, row j := by
    apply Finset.sum_congr rfl
    intro j hj
    simp only [scheduleAndOccupancy, (dayHours_iff p j).mpr hj, cond_true]
    norm_num
  have e2 : ∑ j ∈ Finset.univ.filter (· ∉ dayHours p), row j * (scheduleAndOccupancy p).clockHourOccupied j = 0 := by
    apply Finset.sum_eq_zero
    intro j hj
    rw [Finset.mem_filter] at hj
    have : hourOccupied (hoursPerDay p) j = false := by
      rw [← Bool.not_eq_true, dayHours_iff]; exact hj.2
    simp only [scheduleAndOccupancy, this, cond_false]
    norm_num
  rw [e1, e2, add_zero]

open Classical in
theorem sum_night (p : Population ℝ) (row : Fin 24 → ℝ) :
    vsum (fun j => row j * (scheduleAndOccupancy p).clockHourUnoccupied j) = ∑ j ∈ (dayHours p)ᶜ, row j := by
  rw [vsum_real, ← Finset.sum_filter_add_sum_filter_not Finset.univ (· ∈ dayHours p)]
  simp only [Finset.filter_mem_eq_inter, Finset.univ_inter]
  have e1 : ∑ j ∈ dayHours p, row j * (scheduleAndOccupancy p).clockHourUnoccupied j = 0 := by
    apply Finset.sum_eq_zero
    intro j hj
    simp only [scheduleAndOccupancy, (dayHours_iff p j).mpr hj, cond_true]
    norm_num
  have e2 : ∑ j ∈ Finset.univ.filter (· ∉ dayHours p), row j * (scheduleAndOccupancy p).clockHourUnoccupied j
      = ∑ j ∈ (dayHours p)ᶜ, row j := by
    rw [show (dayHours p)ᶜ = Finset.univ.filter (· ∉ dayHours p) by ext; simp]
    apply Finset.sum_congr rfl
    intro j hj
    rw [Finset.mem_filter] at hj
    have : hourOccupied (hoursPerDay p) j = false := by
      rw [← Bool.not_eq_true, dayHours_iff]; exact hj.2
    simp only [scheduleAndOccupancy, this, cond_false]
    norm_num
  rw [e1, e2, zero_add]

theorem day_card (p : Population ℝ) : vsum (scheduleAndOccupancy p).clockHourOccupied = (dayHours p).card := by
  have := sum_day p fun _ => 1
  simp only [one_mul, Finset.sum_const, nsmul_eq_mul, mul_one] at this
  exact this

open Classical in
theorem night_card (p : Population ℝ) : vsum (scheduleAndOccupancy p).clockHourUnoccupied = ((dayHours p)ᶜ).card := by
  have := sum_night p fun _ => 1
  simp only [one_mul, Finset.sum_const, nsmul_eq_mul, mul_one] at this
  exact this

theorem day_ne {p : Population ℝ} (h : 0 < windowHours p) : 0 < (dayHours p).card := by
  apply Finset.card_pos.mpr
  refine ⟨7, ?_⟩
  unfold dayHours
  rw [Finset.mem_filter]
  refine ⟨Finset.mem_univ _, le_refl _, ?_⟩
  show ((7 : ℕ) : ℝ) < _
  push_cast; linarith

theorem night_ne (p : Population ℝ) : 0 < ((dayHours p)ᶜ).card := by
  apply Finset.card_pos.mpr
  refine ⟨0, ?_⟩
  rw [Finset.mem_compl]
  intro hm
  unfold dayHours at hm
  rw [Finset.mem_filter] at hm
  exact absurd hm.2.1 (by norm_num)

theorem average_day (p : Population ℝ) (row : Fin 24 → ℝ) :
    weightedAverage (scheduleAndOccupancy p).clockHourOccupied row = mean (dayHours p) row := by
  rw [weightedAverage, sum_day, day_card, mean]

open Classical in
theorem average_night (p : Population ℝ) (row : Fin 24 → ℝ) :
    weightedAverage (scheduleAndOccupancy p).clockHourUnoccupied row = mean (dayHours p)ᶜ row := by
  rw [weightedAverage, sum_night, night_card, mean]

theorem guards {p : Population ℝ} (h : 0 < windowHours p) :
    vsum (scheduleAndOccupancy p).clockHourOccupied ≠ 0 ∧ vsum (scheduleAndOccupancy p).clockHourUnoccupied ≠ 0 := by
  rw [day_card, night_card]
  exact ⟨by exact_mod_cast (day_ne h).ne', by exact_mod_cast (night_ne p).ne'⟩


theorem sunUp_spec {row : Fin 24 → ℝ} {j : Fin 24} : sunUp row = some j ↔ row j ≠ 0 ∧ ∀ i, row i ≠ 0 → j ≤ i := by
  unfold sunUp
  rw [List.find?_eq_some_iff_getElem]
  simp only [Bool.not_eq_true', List.getElem_finRange, Bool.not_not]
  have hz : ∀ r : ℝ, ceq r (0.0 : ℝ) = false ↔ r ≠ 0 := by
    intro r
    rw [← Bool.not_eq_true, ceq_real, zero_lit_real]
  have hz' : ∀ r : ℝ, ceq r (0.0 : ℝ) = true ↔ r = 0 := by
    intro r
    rw [ceq_real, zero_lit_real]
  rw [hz]
  constructor
  · rintro ⟨h1, i, hi, h2, h3⟩
    refine ⟨h1, fun k hk => ?_⟩
    by_contra hlt
    have hlt' : k.val < i := by
      have : k < j := not_le.mp hlt
      rw [← h2, Fin.lt_def] at this; simpa using this
    have := h3 k.val hlt'
    rw [hz'] at this
    exact hk (by simpa using this)
  · rintro ⟨h1, h2⟩
    refine ⟨h1, j.val, by simp, by simp, fun k hk => ?_⟩
    rw [hz']
    by_contra hne
    have := h2 _ hne
    rw [Fin.le_def] at this
    simp at this
    omega

theorem sunDown_spec {row : Fin 24 → ℝ} {j : Fin 24} : sunDown row = some j ↔ row j ≠ 0 ∧ ∀ i, row i ≠ 0 → i ≤ j := by
  unfold sunDown
  rw [List.find?_eq_some_iff_getElem]
  simp only [Bool.not_eq_true', List.getElem_reverse, List.getElem_finRange, List.length_finRange, List.length_reverse, Bool.not_not]
  have hz : ∀ r : ℝ, ceq r (0.0 : ℝ) = false ↔ r ≠ 0 := by
    intro r
    rw [← Bool.not_eq_true, ceq_real, zero_lit_real]
  have hz' : ∀ r : ℝ, ceq r (0.0 : ℝ) = true ↔ r = 0 := by
    intro r
    rw [ceq_real, zero_lit_real]
  rw [hz]
  constructor
  · rintro ⟨h1, i, hi, h2, h3⟩
    refine ⟨h1, fun k hk => ?_⟩
    by_contra hlt
    have hlt' : 23 - k.val < i := by
      have : j < k := not_le.mp hlt
      rw [← h2, Fin.lt_def] at this; simp at this; omega
    have := h3 (23 - k.val) hlt'
    rw [hz'] at this
    apply hk
    rw [← this]
    congr 1
    apply Fin.ext
    have := k.isLt
    simp; omega
  · rintro ⟨h1, h2⟩
    have hj := j.isLt
    refine ⟨h1, 23 - j.val, by omega, ?_, fun k hk => ?_⟩
    · apply Fin.ext; simp; omega
    · rw [hz']
      by_contra hne
      have := h2 _ hne
      rw [Fin.le_def] at this
      simp at this
      omega

theorem sunUp_none {row : Fin 24 → ℝ} : sunUp row = none ↔ ∀ j, row j = 0 := by
  unfold sunUp
  rw [List.find?_eq_none]
  simp only [Bool.not_eq_true', List.mem_finRange, true_imp_iff]
  apply forall_congr'
  intro j
  rw [Bool.not_eq_false, ceq_real, zero_lit_real]

theorem sunDown_none {row : Fin 24 → ℝ} : sunDown row = none ↔ ∀ j, row j = 0 := by
  unfold sunDown
  rw [List.find?_eq_none]
  simp only [Bool.not_eq_true', List.mem_reverse, List.mem_finRange, true_imp_iff]
  apply forall_congr'
  intro j
  rw [Bool.not_eq_false, ceq_real, zero_lit_real]

end ISO.Monthly
