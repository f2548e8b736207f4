import Verif.Model.Solar
import Verif.Lemmas.Aggregate
import Verif.Lemmas.Solar

/-! Helper lemmas: the month-change detector of `calculateAverages`. -/

namespace ISO.Solar
open ISO ISO.Spec CNum
variable {α : Type} [CNum α] [OfInt α]

/-- the bins of a month with the given hours -/
def monthSum (l : List (Slice × HourData α)) : MonthBins α :=
  l.foldl (fun b x => b.accumulate x.1.hour x.2) MonthBins.zero

/-- hours of the month that is being accumulated -/
theorem avg_same (l : List (Slice × HourData α)) (m midx : Nat) (hm : ∀ x ∈ l, x.1.month = m ∧ x.1.hour < 24)
    (cnt : Nat) (bins : List (MonthBins α)) (b : MonthBins α) (hb : midx < bins.length) :
    l.foldlM avgStep ⟨m, midx + 1, cnt, bins.set midx b⟩ =
      some ⟨m, midx + 1, cnt + l.length, bins.set midx (l.foldl (fun b x => b.accumulate x.1.hour x.2) b)⟩ := by
  induction l generalizing cnt b with
  | nil => rfl
  | cons x l ih =>
    obtain ⟨h1, h2⟩ := hm x (by simp)
    have e : avgStep ⟨m, midx + 1, cnt, bins.set midx b⟩ x =
        some ⟨m, midx + 1, cnt + 1, bins.set midx (b.accumulate x.1.hour x.2)⟩ := by
      unfold avgStep
      simp only [h1, ne_eq, not_true_eq_false, if_false, Option.bind_eq_bind, Option.bind_some]
      rw [List.getElem?_set_self (by simpa using hb)]
      simp only [h2, if_true, List.set_set]
    rw [List.foldlM_cons, e]
    simp only [Option.bind_eq_bind, Option.bind_some]
    rw [ih (fun x hx => hm x (by simp [hx])), List.length_cons, List.foldl_cons]
    congr 2; omega

/-- a whole month -/
theorem avg_month (l : List (Slice × HourData α)) (hl : l ≠ []) (m : Nat) (hm : ∀ x ∈ l, x.1.month = m ∧ x.1.hour < 24)
    (st : AvgState α) (bins : List (MonthBins α)) (h1 : st.month ≠ m) (h2 : monthAvg st = some bins) (h3 : st.next < bins.length) :
    l.foldlM avgStep st = some ⟨m, st.next + 1, l.length, bins.set st.next (monthSum l)⟩ := by
  cases l with
  | nil => exact absurd rfl hl
  | cons x l =>
    obtain ⟨k1, k2⟩ := hm x (by simp)
    have h1' : m ≠ st.month := fun e => h1 e.symm
    have e : avgStep st x = some ⟨m, st.next + 1, 1, bins.set st.next (MonthBins.zero.accumulate x.1.hour x.2)⟩ := by
      unfold avgStep
      simp only [k1, ne_eq, h1', not_false_eq_true, if_true, h2, Option.bind_eq_bind, Option.bind_some, h3]
      rw [List.getElem?_set_self h3]
      simp only [k2, if_true, List.set_set, Nat.zero_add]
    rw [List.foldlM_cons, e]
    simp only [Option.bind_eq_bind, Option.bind_some]
    rw [avg_same l m st.next (fun x hx => hm x (by simp [hx])) _ _ _ h3, List.length_cons]
    congr 2; omega

/-- the hours of month `k + 1` -/
def monthBlock (hs : List (Slice × HourData α)) (k : Nat) : List (Slice × HourData α) :=
  (hs.take (24 * daysBefore (k + 2))).drop (24 * daysBefore (k + 1))

/-- the final bins of month `k + 1` -/
def monthFinal (hs : List (Slice × HourData α)) (k : Nat) : MonthBins α :=
  (monthSum (monthBlock hs k)).average (24 * (daysBefore (k + 2) - daysBefore (k + 1))) (daysBefore (k + 2) - daysBefore (k + 1))

theorem days_table : ∀ k : Fin 12, daysBefore (k.1 + 1) < daysBefore (k.1 + 2) ∧ daysBefore (k.1 + 2) ≤ 365 ∧
    TimeFrame.monthLength (k.1 + 1) = daysBefore (k.1 + 2) - daysBefore (k.1 + 1) := by decide

/-- the list of hours follows the calendar -/
def Follows (hs : List (Slice × HourData α)) : Prop :=
  hs.length = 8760 ∧ ∀ i (h : i < hs.length), hs[i].1.hour = i % 24 ∧
    ∀ m, 1 ≤ m → m ≤ 12 → (hs[i].1.month = m ↔ i ∈ hoursOfMonth m)

omit [CNum α] [OfInt α] in
theorem block_spec {hs : List (Slice × HourData α)} (h : Follows hs) {k : Nat} (hk : k < 12) :
    (monthBlock hs k).length = 24 * (daysBefore (k + 2) - daysBefore (k + 1)) ∧
    ∀ x ∈ monthBlock hs k, x.1.month = k + 1 ∧ x.1.hour < 24 := by
  obtain ⟨h1, h2⟩ := h
  obtain ⟨d1, d2, -⟩ := days_table ⟨k, hk⟩
  simp only at d1 d2
  constructor
  · simp only [monthBlock, List.length_drop, List.length_take]; omega
  · intro x hx
    obtain ⟨j, hj, e⟩ := List.getElem_of_mem hx
    simp only [monthBlock, List.getElem_drop, List.getElem_take] at e
    simp only [monthBlock, List.length_drop, List.length_take] at hj
    have hi : 24 * daysBefore (k + 1) + j < hs.length := by omega
    obtain ⟨a, b⟩ := h2 _ hi
    rw [← e]
    refine ⟨(b (k + 1) (by omega) (by omega)).mpr ?_, ?_⟩
    · show _ ∈ Finset.Ico _ (24 * daysBefore (k + 2))
      rw [Finset.mem_Ico]; omega
    · rw [a]; omega

theorem avg_inv {hs : List (Slice × HourData α)} (h : Follows hs) (bins : List (MonthBins α)) (hb : bins.length = 12) (n : Nat) (hn : n ≤ 12) :
    ∃ st bs, (hs.take (24 * daysBefore (n + 1))).foldlM avgStep ⟨0, 0, 0, bins⟩ = some st ∧ st.month = n ∧ st.next = n ∧
      monthAvg st = some bs ∧ bs.length = 12 ∧ ∀ k < n, bs[k]? = some (monthFinal hs k) := by
  induction n with
  | zero => exact ⟨⟨0, 0, 0, bins⟩, bins, rfl, rfl, rfl, rfl, hb, fun k hk => absurd hk (by omega)⟩
  | succ n ih =>
    obtain ⟨st, bs, e1, e2, e3, e4, e5, e6⟩ := ih (by omega)
    obtain ⟨l1, l2⟩ := block_spec h (k := n) (by omega)
    obtain ⟨d1, d2, d3⟩ := days_table ⟨n, by omega⟩
    simp only at d1 d2 d3
    have hsplit : hs.take (24 * daysBefore (n + 2)) = hs.take (24 * daysBefore (n + 1)) ++ monthBlock hs n := by
      have := List.take_append_drop (24 * daysBefore (n + 1)) (hs.take (24 * daysBefore (n + 2)))
      rw [List.take_take, Nat.min_eq_left (by omega)] at this
      exact this.symm
    have hne : monthBlock hs n ≠ [] := by intro e; rw [e] at l1; simp at l1; omega
    have key := avg_month (monthBlock hs n) hne (n + 1) l2 st bs (by omega) e4 (by omega)
    rw [e3, l1] at key
    have hnb : n < bs.length := by omega
    refine ⟨⟨n + 1, n + 1, 24 * (daysBefore (n + 2) - daysBefore (n + 1)), bs.set n (monthSum (monthBlock hs n))⟩,
      bs.set n (monthFinal hs n), ?_, rfl, rfl, ?_, ?_, ?_⟩
    · show (hs.take (24 * daysBefore (n + 2))).foldlM avgStep _ = _
      rw [hsplit, List.foldlM_append, e1]
      exact key
    · simp only [monthAvg]
      rw [List.getElem?_set_self hnb]
      simp only [List.set_set, monthFinal, d3]
    · rw [List.length_set, e5]
    · intro k hk
      by_cases hkn : k = n
      · subst hkn; rw [List.getElem?_set_self hnb]
      · rw [List.getElem?_set_ne (Ne.symm hkn)]; exact e6 k (by omega)

theorem averages_eq {hs : List (Slice × HourData α)} (h : Follows hs) (bins : List (MonthBins α)) (hb : bins.length = 12) :
    averages hs bins = some ((List.range 12).map (monthFinal hs)) := by
  obtain ⟨st, bs, e1, -, -, e4, e5, e6⟩ := avg_inv h bins hb 12 (le_refl _)
  have hd : 24 * daysBefore (12 + 1) = 8760 := by decide
  rw [hd, ← h.1, List.take_length] at e1
  unfold averages
  rw [e1]
  simp only [Option.bind_eq_bind, Option.bind_some]
  rw [e4]
  congr 1
  apply List.ext_getElem?
  intro k
  by_cases hk : k < 12
  · rw [e6 k hk, List.getElem?_map, List.getElem?_range hk]; rfl
  · rw [List.getElem?_eq_none (by omega), List.getElem?_eq_none (by simp; omega)]

/-- the 8760 hours of the program follow the calendar -/
theorem hourData_follows (w : Epw.Weather α) : Follows (List.ofFn (hourData w)) := by
  refine ⟨List.length_ofFn, fun i h => ?_⟩
  have hi : i < 8760 := by rwa [List.length_ofFn] at h
  rw [List.getElem_ofFn]
  have hs : i < TimeFrame.slices.length := by rw [TimeFrame.slices_length]; exact hi
  have e : (hourData w ⟨i, hi⟩).1 = TimeFrame.slices[i] := by
    show TimeFrame.slices.getD i _ = _
    rw [List.getD_eq_getElem?_getD, List.getElem?_eq_getElem hs]; rfl
  rw [e]
  exact ⟨(TimeFrame.slices_get i hs).2.2.1, fun m h1 h2 => TimeFrame.month_iff i hs h1 h2⟩

theorem calculate_eq (w : Epw.Weather α) (bins : List (MonthBins α)) (hb : bins.length = 12) :
    calculate w bins = some ((List.range 12).map (monthFinal (List.ofFn (hourData w)))) :=
  averages_eq (hourData_follows w) bins hb

/-! ### sums -/

section sums
variable (l : List (Slice × HourData Dbl))

theorem fold_field (f : MonthBins Dbl → Dbl) (g : HourData Dbl → Dbl) (h : ∀ hr d b, f (b.accumulate hr d) = f b + g d)
    (b : MonthBins Dbl) : f (l.foldl (fun b x => b.accumulate x.1.hour x.2) b) = f b + (l.map fun x => g x.2).sum := by
  induction l generalizing b with
  | nil => simp
  | cons x l ih => rw [List.foldl_cons, ih, h, List.map_cons, List.sum_cons, add_assoc]

theorem fold_hour (hour : Nat) (f : MonthBins Dbl → Dbl) (g : HourData Dbl → Dbl)
    (h : ∀ hr d b, f (b.accumulate hr d) = if hour = hr then f b + g d else f b)
    (b : MonthBins Dbl) : f (l.foldl (fun b x => b.accumulate x.1.hour x.2) b) =
      f b + (l.map fun x => if hour = x.1.hour then g x.2 else 0).sum := by
  induction l generalizing b with
  | nil => simp
  | cons x l ih =>
    rw [List.foldl_cons, ih, h, List.map_cons, List.sum_cons]
    by_cases e : hour = x.1.hour
    · rw [if_pos e, if_pos e, add_assoc]
    · rw [if_neg e, if_neg e, zero_add]

end sums

theorem block_sum {hs : List (Slice × HourData Dbl)} (h : Follows hs) {k : Nat} (hk : k < 12) (g : Slice × HourData Dbl → Dbl) :
    ((monthBlock hs k).map g).sum = ∑ i ∈ hoursOfMonth (k + 1), (hs.map g).getD i 0 := by
  obtain ⟨d1, d2, -⟩ := days_table ⟨k, hk⟩
  simp only at d1 d2
  have := csum_slice (hs.map g) (a := 24 * daysBefore (k + 1)) (b := 24 * daysBefore (k + 2)) (by omega)
    (by rw [List.length_map, h.1]; omega)
  rw [csum_dbl, ← List.map_take, ← List.map_drop] at this
  exact this

/-- the hours of a month with a given hour of the day, day by day -/
theorem sum_hour_of_day {k : Nat} (hk : k < 12) {h : Nat} (hh : h < 24) (f : Nat → Dbl) :
    ∑ i ∈ hoursOfMonth (k + 1), (if h = i % 24 then f i else 0) =
      ∑ d ∈ Finset.range (daysBefore (k + 2) - daysBefore (k + 1)), f (hourOfYear (k + 1) (d + 1) h) := by
  obtain ⟨d1, d2, -⟩ := days_table ⟨k, hk⟩
  simp only at d1 d2
  rw [← Finset.sum_filter]
  symm
  refine Finset.sum_bij (fun d _ => hourOfYear (k + 1) (d + 1) h) ?_ ?_ ?_ (fun _ _ => rfl)
  · intro d hd
    rw [Finset.mem_range] at hd
    rw [Finset.mem_filter]
    refine ⟨?_, ?_⟩
    · show _ ∈ Finset.Ico _ (24 * daysBefore (k + 2))
      rw [Finset.mem_Ico]; unfold hourOfYear; omega
    · unfold hourOfYear; omega
  · intro a _ b _ e
    unfold hourOfYear at e
    omega
  · intro i hi
    have hi' : i ∈ Finset.Ico (24 * daysBefore (k + 1)) (24 * daysBefore (k + 2)) ∧ h = i % 24 := Finset.mem_filter.mp hi
    rw [Finset.mem_Ico] at hi'
    refine ⟨i / 24 - daysBefore (k + 1), Finset.mem_range.mpr ?_, ?_⟩
    · omega
    · unfold hourOfYear; omega

end ISO.Solar
