import Verif.Num.Dbl

/-! # Specification: signs of doubles -/

namespace ISO.Spec

/-- a non-negative number or `+inf` (not NaN) -/
def IsNonneg (d : Dbl) : Prop := d = .pinf ∨ ∃ r : ℝ, 0 ≤ r ∧ d = .fin r

end ISO.Spec
