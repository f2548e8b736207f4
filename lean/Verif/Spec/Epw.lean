import Verif.Model.Properties

/-! # Specification: fields of an EPW file -/

namespace ISO.Spec.Epw
open ISO

/-- the line with the given comma separated fields -/
def line (fs : List Str) : Str := List.intercalate [','] fs

/-- the file with the given lines -/
def file (ls : List Str) : Str := List.intercalate ['\n'] ls

/-- field number `k` (counted from 1) of a line; the last field if the line has fewer -/
def field (fs : List Str) (k : Nat) : Str := fs.getD (min (k - 1) (fs.length - 1)) []

/-- EPW data dictionary: field number of dry bulb, dew point, relative humidity, global horizontal, direct
normal and diffuse horizontal radiation, wind speed -/
def column : Fin 7 → Nat
  | 0 => 7
  | 1 => 8
  | 2 => 9
  | 3 => 14
  | 4 => 15
  | 5 => 16
  | 6 => 22

end ISO.Spec.Epw
