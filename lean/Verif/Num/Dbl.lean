import Mathlib.Data.Real.Basic
import Mathlib.Analysis.SpecialFunctions.Pow.Real
import Mathlib.Analysis.SpecialFunctions.Trigonometric.Inverse
import Mathlib.Analysis.SpecialFunctions.Complex.Arg
import Mathlib.Tactic.Linarith
import Mathlib.Tactic.NormNum
import Mathlib.Tactic.NormNum.OfScientific
import Mathlib.Tactic.Positivity
import Verif.Num.Attr

/-!
# Numbers

`Dbl` is an idealised C++ `double`: the IEEE-754 special values (`+inf`, `-inf`, `NaN`) behave as in
IEEE-754, finite values are exact reals.  Not modelled: rounding, overflow, underflow, the sign of
zero (a division of a non-zero number by zero takes the sign of the numerator).

`CNum` is the arithmetic interface the numeric code of the repository uses.  Every numeric function of
the model is written once, generically over `CNum`; read at `Dbl` it is the model of the program, read
at `ℝ` it is the formula without special values.  `Dbl.fin` lemmas (simp set `dblfin`) relate the two
readings wherever no division by zero / domain error happens.
-/

namespace ISO

/-- Idealised `double` (whole repository; see the module comment for what is simplified). -/
inductive Dbl where
  | fin (r : ℝ)
  | pinf
  | ninf
  | nan

/-- The operations of `double` used by the code: arithmetic, `<`, `==`, `fabs`, `std::pow`, `exp`,
`sin`, `cos`, `asin`, `acos`, `atan2`, decimal literals and `(int)` casts. -/
class CNum (α : Type) extends Add α, Sub α, Mul α, Div α, Neg α, OfScientific α where
  /-- C++ `a < b` -/
  clt : α → α → Bool
  /-- C++ `a == b` -/
  ceq : α → α → Bool
  cabs : α → α
  cpow : α → α → α
  cexp : α → α
  csin : α → α
  ccos : α → α
  casin : α → α
  cacos : α → α
  catan2 : α → α → α
  /-- C++ `(int) a`; `none` is undefined behaviour (NaN, infinity or out of the 32-bit range). -/
  cint : α → Option Int

open CNum

/-- truncation toward zero, C++ `(int)` on an in-range value -/
noncomputable def truncR (r : ℝ) : Int := if 0 ≤ r then ⌊r⌋ else ⌈r⌉

/-- `(int) r`: undefined unless the truncated value fits in 32 bits. -/
noncomputable def cintR (r : ℝ) : Option Int :=
  if -2147483648 ≤ truncR r ∧ truncR r ≤ 2147483647 then some (truncR r) else none

open Classical in
noncomputable instance : CNum ℝ where
  clt a b := decide (a < b)
  ceq a b := decide (a = b)
  cabs a := |a|
  cpow a b := a ^ b
  cexp := Real.exp
  csin := Real.sin
  ccos := Real.cos
  casin := Real.arcsin
  cacos := Real.arccos
  catan2 y x := Complex.arg ⟨x, y⟩
  cint := cintR

namespace Dbl

/-- IEEE addition (exact on finite values). -/
noncomputable def add : Dbl → Dbl → Dbl
  | fin a, fin b => fin (a + b)
  | nan, _ => nan
  | _, nan => nan
  | pinf, ninf => nan
  | ninf, pinf => nan
  | pinf, _ => pinf
  | _, pinf => pinf
  | ninf, _ => ninf
  | _, ninf => ninf

noncomputable def neg : Dbl → Dbl
  | fin a => fin (-a)
  | pinf => ninf
  | ninf => pinf
  | nan => nan

noncomputable def sub : Dbl → Dbl → Dbl
  | fin a, fin b => fin (a - b)
  | x, y => add x (neg y)

open Classical in
/-- an infinity of the sign of `r`, `NaN` for `r = 0` -/
noncomputable def infOfSign (r : ℝ) : Dbl := if 0 < r then pinf else if r < 0 then ninf else nan

/-- IEEE multiplication: `inf * 0 = NaN`. -/
noncomputable def mul : Dbl → Dbl → Dbl
  | fin a, fin b => fin (a * b)
  | nan, _ => nan
  | _, nan => nan
  | fin a, pinf => infOfSign a
  | pinf, fin a => infOfSign a
  | fin a, ninf => neg (infOfSign a)
  | ninf, fin a => neg (infOfSign a)
  | pinf, pinf => pinf
  | ninf, ninf => pinf
  | pinf, ninf => ninf
  | ninf, pinf => ninf

open Classical in
/-- IEEE division: `0/0 = NaN`, `x/0 = ±inf` with the sign of `x` (zero is taken as positive). -/
noncomputable def div : Dbl → Dbl → Dbl
  | fin a, fin b => if b = 0 then infOfSign a else fin (a / b)
  | nan, _ => nan
  | _, nan => nan
  | fin _, pinf => fin 0
  | fin _, ninf => fin 0
  | pinf, fin b => if 0 ≤ b then pinf else ninf
  | ninf, fin b => if 0 ≤ b then ninf else pinf
  | _, _ => nan

open Classical in
/-- IEEE `<`: false as soon as a NaN is involved. -/
noncomputable def lt : Dbl → Dbl → Bool
  | fin a, fin b => decide (a < b)
  | nan, _ => false
  | _, nan => false
  | ninf, ninf => false
  | ninf, _ => true
  | pinf, _ => false
  | fin _, pinf => true
  | fin _, ninf => false

open Classical in
/-- IEEE `==`: `NaN == NaN` is false. -/
noncomputable def eq : Dbl → Dbl → Bool
  | fin a, fin b => decide (a = b)
  | pinf, pinf => true
  | ninf, ninf => true
  | _, _ => false

noncomputable def abs : Dbl → Dbl
  | fin a => fin |a|
  | nan => nan
  | _ => pinf

open Classical in
/-- `std::pow`: NaN for a negative base and a non-integral exponent, `+inf` for `0` to a negative
power, otherwise the real power; infinite arguments as in IEEE-754. -/
noncomputable def pow : Dbl → Dbl → Dbl
  | fin a, fin b =>
      if a < 0 ∧ ¬ ∃ n : ℤ, b = n then nan
      else if a = 0 ∧ b < 0 then pinf
      else fin (a ^ b)
  | pinf, fin b => if b = 0 then fin 1 else if 0 < b then pinf else fin 0
  | ninf, fin b =>
      if b = 0 then fin 1 else if b < 0 then fin 0
      else if ∃ n : ℤ, b = 2 * n + 1 then ninf else pinf
  | nan, fin b => if b = 0 then fin 1 else nan
  | fin a, pinf => if |a| < 1 then fin 0 else if |a| = 1 then fin 1 else pinf
  | fin a, ninf => if |a| < 1 then pinf else if |a| = 1 then fin 1 else fin 0
  | pinf, pinf => pinf
  | pinf, ninf => fin 0
  | ninf, pinf => pinf
  | ninf, ninf => fin 0
  | fin a, nan => if a = 1 then fin 1 else nan
  | _, _ => nan

noncomputable def exp : Dbl → Dbl
  | fin a => fin (Real.exp a)
  | pinf => pinf
  | ninf => fin 0
  | nan => nan

noncomputable def sin : Dbl → Dbl
  | fin a => fin (Real.sin a)
  | _ => nan

noncomputable def cos : Dbl → Dbl
  | fin a => fin (Real.cos a)
  | _ => nan

open Classical in
/-- `asin`: NaN outside `[-1,1]`. -/
noncomputable def asin : Dbl → Dbl
  | fin a => if -1 ≤ a ∧ a ≤ 1 then fin (Real.arcsin a) else nan
  | _ => nan

open Classical in
/-- `acos`: NaN outside `[-1,1]`. -/
noncomputable def acos : Dbl → Dbl
  | fin a => if -1 ≤ a ∧ a ≤ 1 then fin (Real.arccos a) else nan
  | _ => nan

open Classical in
/-- `atan2(y, x)`; `atan2(0,0) = 0` as in IEEE-754 with positive zeros. -/
noncomputable def atan2 : Dbl → Dbl → Dbl
  | fin y, fin x => fin (Complex.arg ⟨x, y⟩)
  | nan, _ => nan
  | _, nan => nan
  | pinf, pinf => fin (Real.pi / 4)
  | pinf, ninf => fin (3 * Real.pi / 4)
  | ninf, pinf => fin (-(Real.pi / 4))
  | ninf, ninf => fin (-(3 * Real.pi / 4))
  | pinf, _ => fin (Real.pi / 2)
  | ninf, _ => fin (-(Real.pi / 2))
  | fin _, pinf => fin 0
  | fin y, ninf => if y < 0 then fin (-Real.pi) else fin Real.pi

noncomputable def int : Dbl → Option Int
  | fin a => cintR a
  | _ => none

end Dbl

noncomputable instance : CNum Dbl where
  add := Dbl.add
  sub := Dbl.sub
  mul := Dbl.mul
  div := Dbl.div
  neg := Dbl.neg
  ofScientific m s e := .fin (OfScientific.ofScientific m s e)
  clt := Dbl.lt
  ceq := Dbl.eq
  cabs := Dbl.abs
  cpow := Dbl.pow
  cexp := Dbl.exp
  csin := Dbl.sin
  ccos := Dbl.cos
  casin := Dbl.asin
  cacos := Dbl.acos
  catan2 := Dbl.atan2
  cint := Dbl.int

section derived
variable {α : Type} [CNum α]

/-- `std::max(a, b)` = `(a < b) ? b : a` (a NaN in first position is returned, in second is not). -/
def cmax (a b : α) : α := bif clt a b then b else a

/-- `std::min(a, b)` = `(b < a) ? b : a`. -/
def cmin (a b : α) : α := bif clt b a then b else a

/-- `std::accumulate(begin, end, 0.0)` and the hand-written summation loops. -/
def csum (l : List α) : α := l.foldl (· + ·) (0.0 : α)

/-- `DBL_MIN` (MonthlyModel.hpp:50, <cfloat>) -/
def dblMin : α := 2.2250738585072014e-308

/-- `DBL_MAX` (MonthlyModel.hpp:47, <cfloat>) -/
def dblMax : α := 1.7976931348623157e308

end derived

/-- Read an integer loop variable / `int` as a number. -/
class OfInt (α : Type) where
  ofInt : Int → α

noncomputable instance : OfInt ℝ := ⟨fun n => (n : ℝ)⟩
noncomputable instance : OfInt Dbl := ⟨fun n => .fin (n : ℝ)⟩

end ISO
