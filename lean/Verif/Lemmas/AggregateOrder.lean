import Verif.Lemmas.Aggregate

/-! # Monthly sums over any arithmetic: the hours are added from the first to the last -/

namespace ISO.Hourly
open ISO CNum Spec

theorem slice_eq {β : Type} (l : List β) (d : β) {a b : Nat} (hb : b ≤ l.length) :
    (l.take b).drop a = (List.range' a (b - a)).map fun i => l.getD i d := by
  apply List.ext_getElem
  · simp; omega
  · intro i h1 h2
    simp only [List.length_drop, List.length_take, List.length_map, List.length_range'] at h1 h2
    simp [List.getD_eq_getElem?_getD, List.getElem?_eq_getElem (show a + i < l.length by omega)]

theorem sumHoursByMonth_order {α : Type} [CNum α] {l : List α} (hl : l.length = 8760) :
    ∃ out, sumHoursByMonth l = some out ∧ out.length = 12 ∧ ∀ m (_ : m < 12),
      out.getD m 0.0 = ((List.range' (24 * daysBefore (m + 1)) (24 * daysBefore (m + 2) - 24 * daysBefore (m + 1))).map
        fun i => l.getD i 0.0).foldl (· + ·) 0.0 := by
  obtain ⟨out, h⟩ := sumHoursByMonth_ok hl
  refine ⟨out, h, (sumHoursByMonth_get h).2, fun m hm => ?_⟩
  unfold sumHoursByMonth at h
  rw [if_neg (by omega)] at h
  cases h
  obtain ⟨h1, h2, h3, h4⟩ := monthsInHours_eq ⟨m, hm⟩
  simp only at h1 h2 h3 h4
  have : ((List.range 12).map fun month => csum ((l.take (monthsInHours.getD (month + 1) 0)).drop
      (monthsInHours.getD month 0))).getD m 0.0 =
      csum ((l.take (monthsInHours.getD (m + 1) 0)).drop (monthsInHours.getD m 0)) := by
    rw [List.getD_eq_getElem?_getD, List.getElem?_map, List.getElem?_range hm]; rfl
  refine this.trans ?_
  rw [h1, h2, slice_eq l 0.0 (by omega)]
  rfl

theorem aggregate_order {α : Type} [CNum α] {hourly : List (EndUses α)} (hl : hourly.length = 8760) :
    ∃ out, aggregate hourly = some out ∧ out.length = 12 ∧ ∀ m (h : m < out.length) k,
      out[m] k = ((List.range' (24 * daysBefore (m + 1)) (24 * daysBefore (m + 2) - 24 * daysBefore (m + 1))).map
        fun i => (hourly.map (· k)).getD i 0.0).foldl (· + ·) 0.0 := by
  obtain ⟨cols, h1, h2, h3⟩ := mapM_some (List.ofFn fun k : Fin 13 => sumHoursByMonth (hourly.map (· k)))
    (by
      intro c hc
      rw [List.mem_ofFn] at hc
      obtain ⟨k, rfl⟩ := hc
      exact sumHoursByMonth_ok (by simpa using hl))
  unfold aggregate
  rw [h1]
  refine ⟨_, rfl, by simp, ?_⟩
  intro m hm k
  simp only [List.length_map, List.length_range] at hm
  simp only [List.getElem_map, List.getElem_range]
  have hk := h3 k.1
  have hk' : (List.ofFn fun k : Fin 13 => sumHoursByMonth (hourly.map (· k)))[k.1]? =
      some (sumHoursByMonth (hourly.map (· k))) := by
    rw [List.getElem?_ofFn]; simp
  rw [hk'] at hk
  rw [List.getD_eq_getElem?_getD (l := cols)]
  cases hc : cols[k.1]? with
  | none => rw [hc] at hk; cases hk
  | some col =>
    rw [hc] at hk
    obtain ⟨o, e1, -, e3⟩ := sumHoursByMonth_order (l := hourly.map (· k)) (by simpa using hl)
    rw [e1] at hk
    cases Option.some.inj (Option.some.inj hk)
    exact e3 m hm

end ISO.Hourly
