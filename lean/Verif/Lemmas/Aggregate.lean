import Verif.Lemmas.TimeFrame
import Verif.Model.HourlyRun
import Verif.Num.Sum

namespace ISO
open ISO.Spec CNum

namespace TimeFrame

/-- the slices of month `m` are the hours of month `m` -/
theorem month_iff (i : Nat) (h : i < slices.length) {m : Nat} (h1 : 1 ≤ m) (h2 : m ≤ 12) :
    slices[i].month = m ↔ i ∈ hoursOfMonth m := by
  obtain ⟨⟨a1, a2, a3, a4, a5⟩, b, -⟩ := slices_get i h
  have hm := monthLength_eq a1 a2
  have key : ∀ a b : Fin 14, 1 ≤ a.1 → a.1 ≤ b.1 → daysBefore a.1 ≤ daysBefore b.1 := by decide
  rw [hoursOfMonth, Finset.mem_Ico]
  unfold hourOfYear at b
  have hd : i / 24 < daysBefore (slices[i].month + 1) := by omega
  constructor
  · intro he; rw [he] at b hd; omega
  · rintro ⟨c1, c2⟩
    rcases lt_trichotomy slices[i].month m with hlt | he | hlt
    · have := key ⟨slices[i].month + 1, by omega⟩ ⟨m, by omega⟩ (by simp) hlt
      simp only at this; omega
    · exact he
    · have := key ⟨m + 1, by omega⟩ ⟨slices[i].month, by omega⟩ (by simp) hlt
      simp only at this; omega

end TimeFrame

namespace Hourly

theorem monthsInHours_eq : ∀ m : Fin 12, monthsInHours.getD m.1 0 = 24 * daysBefore (m.1 + 1) ∧
    monthsInHours.getD (m.1 + 1) 0 = 24 * daysBefore (m.1 + 2) ∧
    24 * daysBefore (m.1 + 1) ≤ 24 * daysBefore (m.1 + 2) ∧ 24 * daysBefore (m.1 + 2) ≤ 8760 := by decide

theorem sumHoursByMonth_get {α : Type} [CNum α] {l : List α} {out : List α}
    (h : sumHoursByMonth l = some out) : 8760 ≤ l.length ∧ out.length = 12 := by
  unfold sumHoursByMonth at h
  split_ifs at h with hl
  cases h
  exact ⟨by omega, by simp⟩

theorem sumHoursByMonth_spec {l : List Dbl} {out : List Dbl} (h : sumHoursByMonth l = some out) (m : Nat)
    (hm : m < 12) : out.getD m 0.0 = ∑ i ∈ hoursOfMonth (m + 1), l.getD i 0 := by
  have hl := (sumHoursByMonth_get h).1
  unfold sumHoursByMonth at h
  rw [if_neg (by omega)] at h
  cases h
  obtain ⟨h1, h2, h3, h4⟩ := monthsInHours_eq ⟨m, hm⟩
  simp only at h1 h2 h3 h4
  have : ((List.range 12).map fun month => csum ((l.take (monthsInHours.getD (month + 1) 0)).drop
      (monthsInHours.getD month 0))).getD m 0.0 =
      csum ((l.take (monthsInHours.getD (m + 1) 0)).drop (monthsInHours.getD m 0)) := by
    rw [List.getD_eq_getElem?_getD, List.getElem?_map, List.getElem?_range hm]; rfl
  refine this.trans ?_
  rw [csum_slice, h1, h2]
  · rfl
  · rw [h1, h2]; exact h3
  · rw [h2]; omega

theorem sumHoursByMonth_ok {α : Type} [CNum α] {l : List α} (h : l.length = 8760) :
    ∃ out, sumHoursByMonth l = some out := by
  unfold sumHoursByMonth
  rw [if_neg (by omega)]
  exact ⟨_, rfl⟩

/-- the twelve months partition the year -/
theorem sum_months (f : Nat → Dbl) :
    ∑ m ∈ Finset.range 12, ∑ i ∈ hoursOfMonth (m + 1), f i = ∑ i ∈ Finset.range 8760, f i := by
  have h : ∀ n ≤ 12, ∑ m ∈ Finset.range n, ∑ i ∈ hoursOfMonth (m + 1), f i
      = ∑ i ∈ Finset.range (24 * daysBefore (n + 1)), f i := by
    intro n
    induction n with
    | zero => intro _; rfl
    | succ n ih =>
      intro hn
      rw [Finset.sum_range_succ, ih (by omega), hoursOfMonth]
      have h3 := (monthsInHours_eq ⟨n, by omega⟩).2.2.1
      rw [Finset.sum_range_add_sum_Ico _ h3]
  exact h 12 le_rfl

theorem mapM_some {β : Type} (cols : List (Option β)) (h : ∀ c ∈ cols, ∃ x, c = some x) :
    ∃ l, cols.mapM id = some l ∧ l.length = cols.length ∧ ∀ i : Nat, cols[i]? = l[i]?.map some := by
  induction cols with
  | nil => exact ⟨[], rfl, rfl, by simp⟩
  | cons c cols ih =>
    obtain ⟨x, rfl⟩ := h c (by simp)
    obtain ⟨l, h1, h2, h3⟩ := ih (fun c hc => h c (by simp [hc]))
    refine ⟨x :: l, ?_, by simp [h2], ?_⟩
    · simp [List.mapM_cons, h1]
    · intro i; cases i with
      | zero => simp
      | succ i => simpa using h3 i

theorem aggregate_spec {hourly : List (EndUses Dbl)} (hl : hourly.length = 8760) :
    ∃ out, aggregate hourly = some out ∧ out.length = 12 ∧
      ∀ m (h : m < out.length) k, out[m] k = ∑ i ∈ hoursOfMonth (m + 1), (hourly.map (· k)).getD i 0 := by
  obtain ⟨cols, h1, h2, h3⟩ := mapM_some (List.ofFn fun k : Fin 13 => sumHoursByMonth (hourly.map (· k)))
    (by
      intro c hc
      rw [List.mem_ofFn] at hc
      obtain ⟨k, rfl⟩ := hc
      exact sumHoursByMonth_ok (by simpa using hl))
  unfold aggregate
  rw [h1]
  refine ⟨_, rfl, by simp, ?_⟩
  intro m hm k
  simp only [List.length_map, List.length_range] at hm
  simp only [List.getElem_map, List.getElem_range]
  have hk := h3 k.1
  have hk' : (List.ofFn fun k : Fin 13 => sumHoursByMonth (hourly.map (· k)))[k.1]? =
      some (sumHoursByMonth (hourly.map (· k))) := by
    rw [List.getElem?_ofFn]; simp
  rw [hk'] at hk
  rw [List.getD_eq_getElem?_getD (l := cols)]
  cases hc : cols[k.1]? with
  | none => rw [hc] at hk; cases hk
  | some col =>
    rw [hc] at hk
    exact sumHoursByMonth_spec (Option.some.inj hk) m hm

theorem runHours_length {α : Type} [CNum α] (x : Sim α) (c : Consts α) (r : Ratios α)
    (l : List (Schedule α × HourWeather α)) (st : ThermalState α) : (runHours x c r l st).length = l.length := by
  induction l generalizing st with
  | nil => rfl
  | cons a l ih => obtain ⟨s, w⟩ := a; simp only [runHours, List.length_cons, ih]

theorem endUses_length {α : Type} [CNum α] (x : Sim α) (l : List (HourResults α)) :
    (endUses x l).length = l.length := by simp [endUses]

end Hourly
end ISO
