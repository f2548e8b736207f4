import Verif.Num.Dbl
import Mathlib.Data.ENNReal.Basic

/-!
# Machine numbers

`Dbl` leaves out rounding, overflow, underflow and the sign of zero.  Here is an arithmetic with all four.  A `Fl` is a sign and a magnitude,
an infinity or NaN.  The operations are those of IEEE-754: the exact result is rounded, and a result that is too large becomes an infinity.
The rounding is a parameter: any monotone rounding of magnitudes that keeps the numbers it gives, the integers up to 2^53 and the powers of two down to 2^-1022
(`Num/Binary64` has the one of binary64, to nearest with ties to even).  The functions of `<cmath>`, whose results the standards leave open, are
parameters too, without any assumption.
-/

namespace ISO
open scoped NNReal ENNReal

/-- a floating point number: sign (`true` is minus) and magnitude, infinity, or NaN -/
inductive Fl where
  | num (s : Bool) (m : ℝ≥0)
  | inf (s : Bool)
  | nan

/-- rounding of a magnitude; `⊤` is overflow -/
structure Rounding where
  round : ℝ≥0 → ℝ≥0∞
  mono : Monotone round
  idem : ∀ x y : ℝ≥0, round x = y → round y = y
  int : ∀ n : ℕ, n ≤ 2 ^ 53 → round n = n
  half : ∀ k : ℕ, k ≤ 1022 → round (2⁻¹ ^ k) = ((2⁻¹ ^ k : ℝ≥0) : ℝ≥0∞)

/-- a rounding, and the functions of `<cmath>` -/
structure Machine extends Rounding where
  pow : Fl → Fl → Fl
  exp : Fl → Fl
  sin : Fl → Fl
  cos : Fl → Fl
  asin : Fl → Fl
  acos : Fl → Fl
  atan2 : Fl → Fl → Fl

namespace Fl

/-- the real number, for finite numbers -/
noncomputable def value : Fl → ℝ
  | num false m => m
  | num true m => -m
  | _ => 0

/-- the place among the real numbers and the two infinities, for numbers -/
noncomputable def key : Fl → EReal
  | num false m => ((m : ℝ) : EReal)
  | num true m => ((-m : ℝ) : EReal)
  | inf false => ⊤
  | inf true => ⊥
  | nan => 0

/-- is it a NaN? -/
def isNan : Fl → Bool
  | nan => true
  | _ => false

def neg : Fl → Fl
  | num s m => num (!s) m
  | inf s => inf (!s)
  | nan => nan

def abs : Fl → Fl
  | num _ m => num false m
  | inf _ => inf false
  | nan => nan

open Classical in
/-- IEEE `<` -/
noncomputable def lt (a b : Fl) : Bool := !a.isNan && !b.isNan && decide (a.key < b.key)

open Classical in
/-- IEEE `==`; zeros of both signs are equal -/
noncomputable def eq (a b : Fl) : Bool := !a.isNan && !b.isNan && decide (a.key = b.key)

/-- C++ `(int)` -/
noncomputable def int : Fl → Option Int
  | num s m => cintR (num s m).value
  | _ => none

end Fl

namespace Rounding
open Fl
variable (R : Rounding)

/-- the number with a sign and a rounded magnitude -/
noncomputable def make (s : Bool) (m : ℝ≥0) : Fl := if R.round m = ⊤ then .inf s else .num s (R.round m).toNNReal

open Classical in
/-- the rounded real number; an exact zero gets the sign `s` -/
noncomputable def ofReal (s : Bool) (x : ℝ) : Fl := if x = 0 then .num s 0 else R.make (decide (x < 0)) (Real.toNNReal |x|)

/-- IEEE addition; an exact zero is negative only if both numbers are -/
noncomputable def add : Fl → Fl → Fl
  | num s m, num t n => R.ofReal (s && t) ((num s m).value + (num t n).value)
  | nan, _ => nan
  | _, nan => nan
  | inf s, inf t => if s = t then inf s else nan
  | inf s, num _ _ => inf s
  | num _ _, inf t => inf t

/-- IEEE multiplication -/
noncomputable def mul : Fl → Fl → Fl
  | num s m, num t n => R.make (s ^^ t) (m * n)
  | nan, _ => nan
  | _, nan => nan
  | inf s, inf t => inf (s ^^ t)
  | inf s, num t n => if n = 0 then nan else inf (s ^^ t)
  | num s m, inf t => if m = 0 then nan else inf (s ^^ t)

/-- IEEE division -/
noncomputable def div : Fl → Fl → Fl
  | num s m, num t n => if n = 0 then (if m = 0 then nan else inf (s ^^ t)) else R.make (s ^^ t) (m / n)
  | nan, _ => nan
  | _, nan => nan
  | inf _, inf _ => nan
  | inf s, num t _ => inf (s ^^ t)
  | num s _, inf t => num (s ^^ t) 0

end Rounding

/-- the numbers of a machine -/
def Mach (_ : Machine) : Type := Fl

namespace Mach
variable {M : Machine}

noncomputable instance : CNum (Mach M) where
  add a b := M.toRounding.add a b
  sub a b := M.toRounding.add a (Fl.neg b)
  mul a b := M.toRounding.mul a b
  div a b := M.toRounding.div a b
  neg a := Fl.neg a
  ofScientific m s e := M.toRounding.ofReal false (OfScientific.ofScientific m s e)
  clt := Fl.lt
  ceq := Fl.eq
  cabs a := Fl.abs a
  cpow := M.pow
  cexp := M.exp
  csin := M.sin
  ccos := M.cos
  casin := M.asin
  cacos := M.acos
  catan2 := M.atan2
  cint := Fl.int

noncomputable instance : OfInt (Mach M) := ⟨fun n => M.toRounding.ofReal false n⟩

end Mach

end ISO
