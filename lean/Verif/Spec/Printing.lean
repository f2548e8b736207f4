import Verif.Model.Loading
import Verif.Model.Numerals

/-! # Numbers rounded to a number of significant decimal digits -/

namespace ISO.Spec.Text
open ISO ISO.Numerals ISO.User

/-- `y` is a decimal with at most `P` significant digits -/
def HasDigits (P : ℕ) (y : ℝ) : Prop := ∃ k j : ℤ, |k| < 10 ^ P ∧ y = k * (10 : ℝ) ^ j

/-- `b` is `a` to `P` digits: for a number a nearest one with so many digits, and not further away than half a unit of the last digit;
infinities and NaN stay what they are -/
def Rounded (P : ℕ) : Dbl → Dbl → Prop
  | .fin x, b => ∃ y : ℝ, b = .fin y ∧ HasDigits P y ∧ (∀ z, HasDigits P z → |y - x| ≤ |z - x|) ∧ |y - x| ≤ |x| * (10 : ℝ) ^ (1 - (P : ℤ)) / 2
  | a, b => b = a

/-- numbers of a size at which nothing overflows -/
def Moderate : Dbl → Prop
  | .fin x => |x| ≤ (10 : ℝ) ^ 300
  | _ => True

/-- the same for a moderate number, an infinity or NaN -/
def ToDigits (P : ℕ) (a b : Dbl) : Prop := Moderate a → Rounded P a b

/-- the C and C++ library: `std::stod`, `atof` and output with the standard precision of six digits -/
noncomputable def standard : Library Dbl := ⟨stod, atof, print 6⟩

end ISO.Spec.Text
