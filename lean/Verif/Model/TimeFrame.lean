import Mathlib.Data.List.Basic

/-!
# The calendar: TimeFrame.cpp
-/

namespace ISO

/-- TimeFrame.hpp:26 -/
def TIMESLICES : Nat := 8760

/-- One index of the five arrays `Hour`, `DayOfMonth`, `DayOfWeek`, `Month`, `YTD` (TimeFrame.hpp:41-53). -/
structure Slice where
  hour : Nat
  dayOfMonth : Nat
  dayOfWeek : Nat
  month : Nat
  ytd : Nat
  deriving DecidableEq, Repr

namespace TimeFrame

/-- TimeFrame.cpp:35-48 -/
def monthLength (month : Nat) : Nat :=
  match month with
  | 2 => 28
  | 9 => 30
  | 4 => 30
  | 6 => 30
  | 11 => 30
  | _ => 31

/-- The local variables of the constructor (TimeFrame.cpp:7-9).  The arrays are written at
`hourOfYear = 0, 1, 2, ...`, so they are the list of the entries written so far and `hourOfYear` is its
length; that no write is outside the arrays is the theorem `C11_table_size`. -/
structure State where
  slices : List Slice
  dayOfYear : Nat
  dayOfWeek : Nat

/-- TimeFrame.cpp:15-22: the innermost loop, hours 0..23 of one day. -/
def dayHours (month dayOfMonth dayOfWeek dayOfYear : Nat) : List Slice :=
  (List.range 24).map fun hourOfDay =>
    { hour := hourOfDay, dayOfMonth := dayOfMonth, dayOfWeek := dayOfWeek, month := month, ytd := dayOfYear }

/-- TimeFrame.cpp:14-25: one turn of the day loop. -/
def day (month : Nat) (st : State) (dayOfMonth : Nat) : State where
  slices := st.slices ++ dayHours month dayOfMonth st.dayOfWeek st.dayOfYear
  dayOfYear := st.dayOfYear + 1
  dayOfWeek := if st.dayOfWeek = 6 then 0 else st.dayOfWeek + 1

/-- TimeFrame.cpp:12-26: one turn of the month loop. -/
def month (st : State) (m : Nat) : State :=
  (List.range' 1 (monthLength m)).foldl (day m) st

/-- TimeFrame.cpp:5-28 -/
def construct : State := (List.range' 1 12).foldl month ⟨[], 0, 0⟩

/-- the arrays after construction -/
@[irreducible] def slices : List Slice := construct.slices

end TimeFrame
end ISO
