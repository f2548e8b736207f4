import Verif.Num.Dbl

/-!
# IEEE binary64

Lean's `Float` is the machine's binary64 type, with rounding; the kernel knows nothing about its operations.  The theorems that hold for every
arithmetic (`C27`, `C28_order`, `C55`, `C56`) therefore hold for it too.  Nothing else in the development uses this file.
-/

namespace ISO

instance : CNum Float where
  clt a b := decide (a < b)
  ceq a b := a == b
  cabs := Float.abs
  cpow := Float.pow
  cexp := Float.exp
  csin := Float.sin
  ccos := Float.cos
  casin := Float.asin
  cacos := Float.acos
  catan2 := Float.atan2
  cint x := if -2147483649.0 < x ∧ x < 2147483648.0 then some x.toInt64.toInt else none

instance : OfInt Float := ⟨Float.ofInt⟩

end ISO
