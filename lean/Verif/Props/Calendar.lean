import Verif.Lemmas.TimeFrame

/-! # C11: the calendar -/

namespace ISO.Props
open ISO.Spec ISO.TimeFrame

/-- C11: the constructor fills the arrays exactly: 8760 entries, none outside. -/
theorem C11_table_size : slices.length = 8760 := slices_length

/-- C11: slice `i` is the `i`-th hour of a 365-day year that starts with weekday 0. -/
theorem C11_slice (i : Nat) (h : i < slices.length) :
    ValidTime slices[i].month slices[i].dayOfMonth slices[i].hour ∧
    hourOfYear slices[i].month slices[i].dayOfMonth slices[i].hour = i ∧
    slices[i].ytd = i / 24 ∧ slices[i].dayOfWeek = (i / 24) % 7 :=
  let h := slices_get i h
  ⟨h.1, h.2.1, h.2.2.2.1, h.2.2.2.2⟩

/-- C11: every hour of every date occurs, in exactly one slice. -/
theorem C11_bijection {month day hour : Nat} (hv : ValidTime month day hour) :
    ∃! i, ∃ h : i < slices.length,
      slices[i].month = month ∧ slices[i].dayOfMonth = day ∧ slices[i].hour = hour := by
  have hlt := hourOfYear_lt hv
  have hl : hourOfYear month day hour < slices.length := by rw [slices_length]; exact hlt
  refine ⟨hourOfYear month day hour, ⟨hl, ?_⟩, ?_⟩
  · obtain ⟨h1, h2, -⟩ := slices_get _ hl
    exact hourOfYear_inj h1 hv h2
  · rintro j ⟨hj, rfl, rfl, rfl⟩
    exact (slices_get j hj).2.1.symm

/-- C11: `monthLength` is the length of the month in the calendar it builds. -/
theorem C11_monthLength {m : Nat} (h1 : 1 ≤ m) (h2 : m ≤ 12) :
    monthLength m = monthDays.getD (m - 1) 0 := (monthLength_eq h1 h2).1

/-- 5 March, 13:00 is a valid time, in hour 24*(31+28+4)+13 of the year. -/
example : ValidTime 3 5 13 ∧ hourOfYear 3 5 13 = 1525 := by
  unfold ValidTime; decide

end ISO.Props
