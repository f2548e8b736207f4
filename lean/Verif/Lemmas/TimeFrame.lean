import Verif.Model.TimeFrame
import Verif.Spec.Calendar
import Mathlib.Tactic.Ring

namespace ISO.TimeFrame
open ISO.Spec

/-- one day without its hours: (month, day of month, day of week, day of year) -/
structure Day where
  month : Nat
  dayOfMonth : Nat
  dayOfWeek : Nat
  ytd : Nat
  deriving DecidableEq

/-- the constructor with the hour loop left out -/
def dayStep (m : Nat) (st : List Day × Nat × Nat) (dom : Nat) : List Day × Nat × Nat :=
  (st.1 ++ [⟨m, dom, st.2.2, st.2.1⟩], st.2.1 + 1, if st.2.2 = 6 then 0 else st.2.2 + 1)
def monthStep (st : List Day × Nat × Nat) (m : Nat) : List Day × Nat × Nat :=
  (List.range' 1 (monthLength m)).foldl (dayStep m) st
@[irreducible] def days : List Day := ((List.range' 1 12).foldl monthStep ([], 0, 0)).1

def expand (l : List Day) : List Slice :=
  l.flatMap fun d => dayHours d.month d.dayOfMonth d.dayOfWeek d.ytd

def toState (st : List Day × Nat × Nat) : State := ⟨expand st.1, st.2.1, st.2.2⟩

theorem toState_dayStep (m : Nat) (st : List Day × Nat × Nat) (dom : Nat) :
    day m (toState st) dom = toState (dayStep m st dom) := by
  simp only [day, toState, dayStep, expand, List.flatMap_append, List.flatMap_cons, List.flatMap_nil,
    List.append_nil]
  rfl

theorem toState_monthStep (st : List Day × Nat × Nat) (m : Nat) :
    month (toState st) m = toState (monthStep st m) := by
  unfold month monthStep
  generalize List.range' 1 (monthLength m) = l
  induction l generalizing st with
  | nil => rfl
  | cons d l ih => simp only [List.foldl_cons, toState_dayStep, ih]

theorem slices_eq_aux (l : List Nat) :
    (l.foldl month ⟨[], 0, 0⟩).slices = expand (l.foldl monthStep ([], 0, 0)).1 := by
  have : ∀ st, l.foldl month (toState st) = toState (l.foldl monthStep st) := by
    induction l with
    | nil => intro st; rfl
    | cons m l ih => intro st; simp only [List.foldl_cons, toState_monthStep, ih]
  exact congrArg State.slices (this ([], 0, 0))

theorem slices_eq : slices = expand days := by
  unfold slices construct days
  exact slices_eq_aux _

/-- what is claimed of day `j` -/
def DayOk (d : Day) (j : Nat) : Prop :=
  1 ≤ d.month ∧ d.month ≤ 12 ∧ 1 ≤ d.dayOfMonth ∧ d.dayOfMonth ≤ monthDays.getD (d.month - 1) 0 ∧
    daysBefore d.month + (d.dayOfMonth - 1) = j ∧ d.ytd = j ∧ d.dayOfWeek = j % 7

theorem dayStep_foldl (m n a y : Nat) (l : List Day) :
    (List.range' a n).foldl (dayStep m) (l, y, y % 7) =
      (l ++ (List.range n).map (fun k => ⟨m, a + k, (y + k) % 7, y + k⟩), y + n, (y + n) % 7) := by
  induction n generalizing a y l with
  | zero => simp
  | succ n ih =>
    have h : (if y % 7 = 6 then 0 else y % 7 + 1) = (y + 1) % 7 := by split_ifs <;> omega
    simp only [List.range'_succ, List.foldl_cons, dayStep, h, ih, List.range_succ_eq_map, List.map_cons,
      List.map_map]
    refine Prod.ext ?_ (Prod.ext ?_ ?_)
    · simp only [List.append_assoc, List.cons_append, List.nil_append, Nat.add_zero]
      congr 2
      apply List.map_congr_left
      intro k _
      simp only [Function.comp_apply, Nat.succ_eq_add_one, show a + 1 + k = a + (k + 1) by omega,
        show y + 1 + k = y + (k + 1) by omega]
    · simp only; omega
    · simp only; congr 1; omega

/-- state after the months before `m` -/
def MonthInv (st : List Day × Nat × Nat) (m : Nat) : Prop :=
  st.1.length = daysBefore m ∧ st.2.1 = daysBefore m ∧ st.2.2 = daysBefore m % 7 ∧
    ∀ j (h : j < st.1.length), DayOk st.1[j] j

theorem monthLength_eq {m : Nat} (h1 : 1 ≤ m) (h2 : m ≤ 12) :
    monthLength m = monthDays.getD (m - 1) 0 ∧ daysBefore (m + 1) = daysBefore m + monthLength m := by
  have key : ∀ a : Fin 13, 1 ≤ a.1 → monthLength a.1 = monthDays.getD (a.1 - 1) 0 ∧
      daysBefore (a.1 + 1) = daysBefore a.1 + monthLength a.1 := by decide
  exact key ⟨m, by omega⟩ h1

theorem monthInv_step {st : List Day × Nat × Nat} {m : Nat} (h1 : 1 ≤ m) (h2 : m ≤ 12)
    (hi : MonthInv st m) : MonthInv (monthStep st m) (m + 1) := by
  obtain ⟨l, y, w⟩ := st
  obtain ⟨hl, hy, hw, hd⟩ := hi
  simp only at hl hy hw hd
  obtain ⟨hml, hdb⟩ := monthLength_eq h1 h2
  have hw' : w = y % 7 := by rw [hw, hy]
  subst hw'
  have he : monthStep (l, y, y % 7) m = _ := dayStep_foldl m (monthLength m) 1 y l
  rw [he]
  refine ⟨by simp [hl, hdb], by simp only [hdb, hy], by simp only [hdb, hy], ?_⟩
  intro j hj
  simp only at hj ⊢
  by_cases hjl : j < l.length
  · rw [List.getElem_append_left hjl]; exact hd j hjl
  · rw [List.getElem_append_right (by omega)]
    simp only [List.length_append, List.length_map, List.length_range] at hj
    simp only [List.getElem_map, List.getElem_range]
    refine ⟨h1, h2, ?_, ?_, ?_, ?_, ?_⟩ <;> simp only <;> omega

theorem monthInv_foldl (n a : Nat) (st : List Day × Nat × Nat) (h1 : 1 ≤ a) (h2 : a + n ≤ 13)
    (hi : MonthInv st a) : MonthInv ((List.range' a n).foldl monthStep st) (a + n) := by
  induction n generalizing a st with
  | zero => exact hi
  | succ n ih =>
    rw [List.range'_succ, List.foldl_cons]
    have := ih (a + 1) (monthStep st a) (by omega) (by omega) (monthInv_step h1 (by omega) hi)
    rw [show a + (n + 1) = a + 1 + n by omega]
    exact this

theorem days_inv : days.length = 365 ∧ ∀ j (h : j < days.length), DayOk days[j] j := by
  have h := monthInv_foldl 12 1 ([], 0, 0) (le_refl _) (by norm_num)
    ⟨by decide, by decide, by decide, by intro j h; simp at h⟩
  obtain ⟨h1, -, -, h4⟩ := h
  unfold days
  exact ⟨h1, h4⟩

theorem days_length : days.length = 365 := days_inv.1

theorem expand_length (l : List Day) : (expand l).length = 24 * l.length := by
  induction l with
  | nil => rfl
  | cons d l ih => simp only [expand, List.flatMap_cons, List.length_append] at ih ⊢; rw [ih]; simp [dayHours]; ring

theorem slices_length : slices.length = TIMESLICES := by
  rw [slices_eq, expand_length, days_length]; rfl

theorem expand_get (l : List Day) (i : Nat) (h : i < (expand l).length) (h' : i / 24 < l.length) :
    (expand l)[i] = ⟨i % 24, (l[i / 24]).dayOfMonth, (l[i / 24]).dayOfWeek, (l[i / 24]).month, (l[i / 24]).ytd⟩ := by
  induction l generalizing i with
  | nil => simp at h'
  | cons d l ih =>
    have he : expand (d :: l) = dayHours d.month d.dayOfMonth d.dayOfWeek d.ytd ++ expand l := rfl
    have hlen : (dayHours d.month d.dayOfMonth d.dayOfWeek d.ytd).length = 24 := by simp [dayHours]
    by_cases hi : i < 24
    · have h0 : i / 24 = 0 := by omega
      have h1 : i % 24 = i := by omega
      simp only [he, h0, h1, List.getElem_cons_zero]
      rw [List.getElem_append_left (by rw [hlen]; exact hi)]
      simp [dayHours]
    · have h2 : i / 24 = (i - 24) / 24 + 1 := by omega
      have h3 : i % 24 = (i - 24) % 24 := by omega
      have h4 : (i - 24) / 24 < l.length := by
        rw [List.length_cons] at h'; omega
      have h5 : i - 24 < (expand l).length := by
        rw [he, List.length_append, hlen] at h; omega
      have := ih (i - 24) h5 h4
      simp only [he, h2, h3, List.getElem_cons_succ]
      rw [List.getElem_append_right (by rw [hlen]; omega)]
      simp only [hlen]
      exact this

theorem slices_get_aux (sl : List Slice) (ds : List Day) (hse : sl = expand ds) (hdl : ds.length = 365)
    (hok : ∀ j (h : j < ds.length), DayOk ds[j] j) (i : Nat) (h : i < sl.length) :
    ValidTime sl[i].month sl[i].dayOfMonth sl[i].hour ∧
    hourOfYear sl[i].month sl[i].dayOfMonth sl[i].hour = i ∧
    sl[i].hour = i % 24 ∧ sl[i].ytd = i / 24 ∧ sl[i].dayOfWeek = (i / 24) % 7 := by
  subst hse
  have hj : i / 24 < 365 := by rw [expand_length, hdl] at h; omega
  have hd : i / 24 < ds.length := by rw [hdl]; exact hj
  rw [expand_get ds i h hd]
  obtain ⟨h1, h2, h3, h4, h5, h6, h7⟩ := hok (i / 24) hd
  refine ⟨⟨h1, h2, h3, h4, ?_⟩, ?_, rfl, h6, h7⟩
  · exact Nat.mod_lt _ (by norm_num)
  · unfold hourOfYear
    simp only at h5 ⊢
    rw [h5]; omega

theorem slices_get : ∀ (i : Nat) (h : i < slices.length),
    ValidTime slices[i].month slices[i].dayOfMonth slices[i].hour ∧
    hourOfYear slices[i].month slices[i].dayOfMonth slices[i].hour = i ∧
    slices[i].hour = i % 24 ∧ slices[i].ytd = i / 24 ∧ slices[i].dayOfWeek = (i / 24) % 7 :=
  slices_get_aux slices days slices_eq days_inv.1 days_inv.2

/-- different valid times are different hours of the year -/
theorem hourOfYear_inj {m d h m' d' h' : Nat} (hv : ValidTime m d h) (hv' : ValidTime m' d' h')
    (he : hourOfYear m d h = hourOfYear m' d' h') : m = m' ∧ d = d' ∧ h = h' := by
  obtain ⟨h1, h2, h3, h4, h5⟩ := hv
  obtain ⟨h1', h2', h3', h4', h5'⟩ := hv'
  unfold hourOfYear at he
  have hh : h = h' := by omega
  have hday : daysBefore m + (d - 1) = daysBefore m' + (d' - 1) := by omega
  have key : ∀ a b : Fin 13, 1 ≤ a.1 → a.1 < b.1 →
      daysBefore a.1 + monthDays.getD (a.1 - 1) 0 ≤ daysBefore b.1 := by decide
  have hm : m = m' := by
    rcases lt_trichotomy m m' with hlt | rfl | hlt
    · have := key ⟨m, by omega⟩ ⟨m', by omega⟩ h1 hlt
      simp only at this; omega
    · rfl
    · have := key ⟨m', by omega⟩ ⟨m, by omega⟩ h1' hlt
      simp only at this; omega
  subst hm
  exact ⟨rfl, by omega, hh⟩

theorem hourOfYear_lt {m d h : Nat} (hv : ValidTime m d h) : hourOfYear m d h < 8760 := by
  obtain ⟨h1, h2, h3, h4, h5⟩ := hv
  have key : ∀ a : Fin 13, 1 ≤ a.1 → daysBefore a.1 + monthDays.getD (a.1 - 1) 0 ≤ 365 := by decide
  have := key ⟨m, by omega⟩ h1
  unfold hourOfYear; simp only at this; omega

end ISO.TimeFrame
