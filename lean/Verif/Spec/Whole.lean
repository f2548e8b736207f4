import Verif.Spec.Numerals
import Verif.Spec.Printing
import Verif.Spec.Epw
import Verif.Spec.Parameters
import Verif.Spec.Calendar

/-! # Specification: complete input files -/

namespace ISO.Spec.Whole
open ISO ISO.Numerals

/-- the text starts, after white space, with a number, and that is `x`, of a size at which nothing overflows -/
def Gives (text : Str) (x : ℝ) : Prop := ∃ p q, Text.Reads text p (.number q) ∧ x = q ∧ |x| ≤ (10 : ℝ) ^ 200

/-- a weather file with a year of data: fields 7 to 9 of the first line are latitude, longitude and time zone, and line `9 + r` has the
seven values of hour `r` in the fields of the EPW data dictionary -/
structure YearFile (text : Str) (lat lon zone : ℝ) (v : Fin 7 → Fin 8760 → ℝ) : Prop where
  lines : ∃ ls : List Str, text = Epw.file ls ∧ (∀ l ∈ ls, '\n' ∉ l) ∧
    (∃ fs : List Str, ls[0]? = some (Epw.line fs) ∧ fs ≠ [] ∧ (∀ f ∈ fs, ',' ∉ f) ∧
      Gives (Epw.field fs 7) lat ∧ Gives (Epw.field fs 8) lon ∧ Gives (Epw.field fs 9) zone) ∧
    ∀ r : Fin 8760, ∃ fs : List Str, ls[8 + r.1]? = some (Epw.line fs) ∧ fs ≠ [] ∧ (∀ f ∈ fs, ',' ∉ f) ∧
      ∀ c, Gives (Epw.field fs (Epw.column c)) (v c r)

/-- the place and the year are such as the program can deal with: outside of the tropics, a time zone that is an `int`, no negative
radiation, and in every month an hour with a global radiation of at least one watt per square metre -/
structure Suitable (lat zone : ℝ) (v : Fin 7 → Fin 8760 → ℝ) : Prop where
  lat : 28.1 ≤ |lat| ∧ |lat| ≤ 90
  zone : |zone| ≤ 24
  radiation : ∀ r, 0 ≤ v 3 r ∧ 0 ≤ v 4 r ∧ 0 ≤ v 5 r
  sun : ∀ m < 12, ∃ r : Fin 8760, r.1 ∈ hoursOfMonth (m + 1) ∧ 1 ≤ v 3 r

/-- all numbers of a building file are finite -/
def Finite (file : Properties.Store) : Prop :=
  (∀ name v, Param.number stod file name = some v → ∃ r, v = Dbl.fin r) ∧
  ∀ name f, Param.facades stod file name = some f → ∀ i, ∃ r, f i = Dbl.fin r

/-- the occupancy of a building file: days and hours that are `int`s, and some occupied time; the last hour may lie before the first -/
def Occupied (file : Properties.Store) : Prop :=
  ∃ d₁ d₂ h₁ h₂ : ℝ, Param.number stod file "occupancydayfirst" = some (.fin d₁) ∧ Param.number stod file "occupancydaylast" = some (.fin d₂) ∧
    Param.number stod file "occupancyhourfirst" = some (.fin h₁) ∧ Param.number stod file "occupancyhourlast" = some (.fin h₂) ∧
    |d₁| ≤ 7 ∧ |d₂| ≤ 7 ∧ 0 ≤ h₁ ∧ h₁ < 24 ∧ 0 ≤ h₂ ∧ h₂ < 24 ∧ h₁ ≠ h₂

/-- the shading device of every facade is one of the three that exist, 1, 2 or 3 -/
def Shaded (file : Properties.Store) : Prop :=
  ∃ f, Param.facades stod file "windowSDF" = some f ∧ ∀ i, ∃ v : ℝ, f i = .fin v ∧ 1 ≤ v ∧ v < 4

end ISO.Spec.Whole
