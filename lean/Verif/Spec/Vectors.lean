import Verif.Num.Lemmas

/-! # What the vector functions of the monthly model are expected to compute -/

namespace ISO.Spec
open ISO

/-- a quotient, with the largest double in place of a division by zero -/
noncomputable def quotient (a b : Dbl) : Dbl := open Classical in if b = .fin 0 then .fin 1.7976931348623157e308 else a / b

/-- `a` is at least `b`, as numbers; nothing is comparable with NaN -/
def AtLeast : Dbl → Dbl → Prop
  | .nan, _ => False
  | _, .nan => False
  | .pinf, _ => True
  | _, .ninf => True
  | .fin a, .fin b => b ≤ a
  | _, _ => False

end ISO.Spec
