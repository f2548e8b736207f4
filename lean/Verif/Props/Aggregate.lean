import Verif.Lemmas.Aggregate
import Verif.Lemmas.AggregateOrder
import Verif.Props.SmallOffice

/-!
# C12, C28: monthly aggregation of hourly results
-/

namespace ISO.Props
open ISO.Spec ISO.Hourly CNum

/-- C12: aggregating 8760 hourly values gives twelve figures; each is the sum over the hours of its month
(the hours between the midnights that start and end the month). -/
theorem C12_month (l : List Dbl) (hl : l.length = 8760) :
    ∃ out, sumHoursByMonth l = some out ∧ out.length = 12 ∧
      ∀ m (h : m < out.length), out[m] = ∑ i ∈ hoursOfMonth (m + 1), l.getD i 0 := by
  obtain ⟨out, h⟩ := sumHoursByMonth_ok hl
  refine ⟨out, h, (sumHoursByMonth_get h).2, ?_⟩
  intro m hm
  have h12 := (sumHoursByMonth_get h).2
  rw [← sumHoursByMonth_spec h m (by omega)]
  rw [List.getD_eq_getElem?_getD, List.getElem?_eq_getElem hm]; rfl

/-- C12: the month into which an hour is summed is the month the calendar assigns to it; so each of the
8760 hours is in exactly one of the twelve sums. -/
theorem C12_calendar (i : Nat) (h : i < TimeFrame.slices.length) (m : Nat) (h1 : 1 ≤ m) (h2 : m ≤ 12) :
    i ∈ hoursOfMonth m ↔ TimeFrame.slices[i].month = m := (TimeFrame.month_iff i h h1 h2).symm

/-- C12: every hour of the year is in exactly one month. -/
theorem C12_exactly_once (i : Nat) (h : i < 8760) :
    ∃! m, 1 ≤ m ∧ m ≤ 12 ∧ i ∈ hoursOfMonth m := by
  have h' : i < TimeFrame.slices.length := by rw [TimeFrame.slices_length]; exact h
  have hv := (TimeFrame.slices_get i h').1
  refine ⟨TimeFrame.slices[i].month, ⟨hv.1, hv.2.1, (TimeFrame.month_iff i h' hv.1 hv.2.1).1 rfl⟩, ?_⟩
  rintro m ⟨h1, h2, h3⟩
  exact ((TimeFrame.month_iff i h' h1 h2).2 h3).symm

/-- C12: the twelve figures add up to the annual total. -/
theorem C12_total (l : List Dbl) (hl : l.length = 8760) :
    ∃ out, sumHoursByMonth l = some out ∧ out.sum = l.sum := by
  obtain ⟨out, h, h12, hm⟩ := C12_month l hl
  refine ⟨out, h, ?_⟩
  rw [sum_eq_range out, sum_eq_range l, hl, h12, ← sum_months]
  apply Finset.sum_congr rfl
  intro m hmem
  rw [Finset.mem_range] at hmem
  rw [← hm m (by omega), List.getD_eq_getElem?_getD, List.getElem?_eq_getElem (by omega)]; rfl

/-- C12: with fewer values the program reads past the end. -/
theorem C12_short (l : List Dbl) (hl : l.length < 8760) : sumHoursByMonth l = none := by
  unfold sumHoursByMonth; rw [if_pos hl]

/-- hypothesis of C12 met: the values 0, 1, ..., 8759 -/
example : ((List.range 8760).map fun n : Nat => Dbl.fin (n : ℝ)).length = 8760 := by
  rw [List.length_map, List.length_range]

/-- C28: `simulate(true)` and `simulate(false)` succeed together, and the twelve results of the former are,
for each of the thirteen end uses (same order), the sums over the calendar months of the 8760 results of the
latter. -/
theorem C28_aggregated (m : Model Dbl) {m' : Model Dbl} {hourly : List (EndUses Dbl)}
    (h : simulate false m = some (m', hourly)) :
    hourly.length = 8760 ∧ ∃ out, simulate true m = some (m', out) ∧ out.length = 12 ∧
      ∀ j (hj : j < out.length) (k : Fin 13),
        out[j] k = ∑ i ∈ hoursOfMonth (j + 1), (hourly.map fun u => u k).getD i 0 := by
  unfold simulate at h ⊢
  cases hw : window m.sim.pop with
  | none => rw [hw] at h; cases h
  | some win =>
    rw [hw] at h
    simp only [Option.bind_eq_bind, Option.bind_some, Bool.false_eq_true, if_false, Option.pure_def,
      Option.some.injEq, Prod.mk.injEq] at h
    obtain ⟨rfl, rfl⟩ := h
    have hl : (endUses m.sim (rawResults m.sim (pushAll m.sim.bldg m.pushed).ratios win m.weather)).length = 8760 := by
      rw [endUses_length, rawResults, runHours_length, List.length_ofFn]
    refine ⟨hl, ?_⟩
    obtain ⟨out, h1, h2, h3⟩ := aggregate_spec hl
    refine ⟨out, ?_, h2, h3⟩
    simp only [Option.bind_eq_bind, Option.bind_some, if_true, h1, Option.pure_def]

/-- C28, for any arithmetic (rounded floating point arithmetic included): the monthly results are the hourly ones of the month, added from the
first hour to the last. -/
theorem C28_order {α : Type} [CNum α] [OfInt α] (m : Model α) {m' : Model α} {hourly : List (EndUses α)}
    (h : simulate false m = some (m', hourly)) :
    hourly.length = 8760 ∧ ∃ out, simulate true m = some (m', out) ∧ out.length = 12 ∧
      ∀ j (hj : j < out.length) (k : Fin 13),
        out[j] k = ((List.range' (24 * daysBefore (j + 1)) (24 * daysBefore (j + 2) - 24 * daysBefore (j + 1))).map
          fun i => (hourly.map fun u => u k).getD i 0.0).foldl (· + ·) 0.0 := by
  unfold simulate at h ⊢
  cases hw : window m.sim.pop with
  | none => rw [hw] at h; cases h
  | some win =>
    rw [hw] at h
    simp only [Option.bind_eq_bind, Option.bind_some, Bool.false_eq_true, if_false, Option.pure_def,
      Option.some.injEq, Prod.mk.injEq] at h
    obtain ⟨rfl, rfl⟩ := h
    have hl : (endUses m.sim (rawResults m.sim (pushAll m.sim.bldg m.pushed).ratios win m.weather)).length = 8760 := by
      rw [endUses_length, rawResults, runHours_length, List.length_ofFn]
    refine ⟨hl, ?_⟩
    obtain ⟨out, h1, h2, h3⟩ := aggregate_order hl
    refine ⟨out, ?_, h2, h3⟩
    simp only [Option.bind_eq_bind, Option.bind_some, if_true, h1, Option.pure_def]

/-- C28: both fail (undefined behaviour) on the same models. -/
theorem C28_fail_together {α : Type} [CNum α] [OfInt α] (m : Model α) : simulate false m = none ↔ simulate true m = none := by
  constructor
  · intro h
    unfold simulate at h ⊢
    cases hw : window m.sim.pop with
    | none => rfl
    | some win => rw [hw] at h; simp at h
  · intro h
    cases hs : simulate false m with
    | none => rfl
    | some r =>
      obtain ⟨out, h1, -⟩ := (C28_order m (m' := r.1) (hourly := r.2) (by rw [hs])).2
      rw [h] at h1; cases h1

theorem cint_nat (n : Nat) (h : n ≤ 2147483647) : cint (Dbl.fin n) = some (n : Int) := by
  show cintR (n : ℝ) = _
  have : truncR (n : ℝ) = n := by simp [truncR]
  unfold cintR
  rw [this, if_pos (by omega)]

/-- the small office can be simulated -/
example : ∃ r, simulate false ⟨smallOffice.map Dbl.fin, someWeather.map Dbl.fin, Pushed.empty⟩ = some r := by
  have h : window (smallOffice.map Dbl.fin).pop = some ⟨1, 5, 8, 17⟩ := by
    have h1 := cint_nat 1 (by norm_num)
    have h5 := cint_nat 5 (by norm_num)
    have h8 := cint_nat 8 (by norm_num)
    have h17 := cint_nat 17 (by norm_num)
    norm_num at h1 h5 h8 h17
    simp only [window, Sim.map, smallOffice, Population.map, h1, h5, h8, h17]
    rfl
  unfold simulate
  simp only [h]
  exact ⟨_, rfl⟩

end ISO.Props
