import Verif.Model.Properties
import Verif.Num.Lemmas
import Mathlib.Data.Nat.Digits.Defs
import Mathlib.Data.Int.Log
import Mathlib.Data.List.DropRight

/-!
# Numbers as text: `strtod`, `std::stod`, `atof` and `operator<<(ostream&, double)`

The library functions the repository calls at Properties.cpp:59, 89, 108, EpwData.cpp:32-63, UserModel.cpp:467-487 (reading) and
EpwData.cpp:80-110, standalone_main.cpp:29-121 (printing).  The other model files take these functions as parameters; here they are given
after ISO C 7.22.1.3 and 7.21.6.1 in the "C" locale.  Simplified as in `Num/Dbl`: the value of a text is exact, not rounded to 53 bits, and
zero has no sign.
-/

namespace ISO.Numerals
open ISO ISO.Properties

/-- what a text stands for -/
inductive Value where
  | number (q : ℚ)
  | infinite (negative : Bool)
  | nan
  deriving DecidableEq

/-- the value of a digit, also a hexadecimal one -/
def hexVal (c : Char) : Nat :=
  if isDigit c then digitVal c else if 'a' ≤ c ∧ c ≤ 'f' then c.toNat - 'a'.toNat + 10 else c.toNat - 'A'.toNat + 10

/-- `isxdigit` -/
def isHex (c : Char) : Bool := isDigit c || ('a' ≤ c && c ≤ 'f') || ('A' ≤ c && c ≤ 'F')

/-- value of a string of hexadecimal digits -/
def hexDigitsVal (s : Str) : Nat := s.foldl (fun n c => 16 * n + hexVal c) 0

/-- a sign, if there is one -/
def sign (s : Str) : Bool × Str :=
  match s with
  | '-' :: t => (true, t)
  | '+' :: t => (false, t)
  | t => (false, t)

/-- ISO C 7.22.1.3: the exponent after the given letters, and what follows; without digits the letter is not part of the number -/
def exponent (letter : Char → Bool) (s : Str) : Int × Str :=
  match s with
  | [] => (0, [])
  | c :: t =>
    if letter c then
      let (negative, u) := sign t
      let d := u.takeWhile isDigit
      if d = [] then (0, s)
      else (if negative then -(digitsVal d : Int) else (digitsVal d : Int), u.dropWhile isDigit)
    else (0, s)

/-- the digits before and after a decimal point, at least one of them, and what follows -/
def mantissa (digit : Char → Bool) (s : Str) : Option (Str × Str × Str) :=
  let i := s.takeWhile digit
  match s.dropWhile digit with
  | '.' :: r =>
    let f := r.takeWhile digit
    if i = [] ∧ f = [] then none else some (i, f, r.dropWhile digit)
  | r => if i = [] then none else some (i, [], r)

/-- `e` or `E` -/
def isE (c : Char) : Bool := c == 'e' || c == 'E'

/-- `p` or `P` -/
def isP (c : Char) : Bool := c == 'p' || c == 'P'

/-- a decimal number without sign -/
def decimal (s : Str) : Option (Value × Str) :=
  (mantissa isDigit s).map fun (i, f, r) =>
    let (e, r) := exponent isE r
    (.number (digitsVal (i ++ f) * (10 : ℚ) ^ (e - f.length)), r)

/-- a hexadecimal number without sign -/
def hexadecimal (s : Str) : Option (Value × Str) :=
  match s with
  | '0' :: x :: t =>
    if x == 'x' || x == 'X' then
      (mantissa isHex t).map fun (i, f, r) =>
        let (e, r) := exponent isP r
        (.number (hexDigitsVal (i ++ f) * (2 : ℚ) ^ (e - 4 * f.length)), r)
    else none
  | _ => none

/-- the characters within the parentheses after `nan` -/
def isNChar (c : Char) : Bool := isHex c || ('a' ≤ c && c ≤ 'z') || ('A' ≤ c && c ≤ 'Z') || c == '_'

/-- the words, in any case of letters -/
def word (s : Str) : Option (Value × Str) :=
  if lower (s.take 8) = "infinity".toList then some (.infinite false, s.drop 8)
  else if lower (s.take 3) = "inf".toList then some (.infinite false, s.drop 3)
  else if lower (s.take 3) = "nan".toList then
    match s.drop 3 with
    | '(' :: t =>
      match t.dropWhile isNChar with
      | ')' :: r => some (.nan, r)
      | _ => some (.nan, s.drop 3)
    | r => some (.nan, r)
  else none

/-- with the sign -/
def Value.negate : Bool → Value → Value
  | true, .number q => .number (-q)
  | true, .infinite _ => .infinite true
  | _, v => v

/-- a number or a word without sign -/
def unsigned (t : Str) : Option (Value × Str) :=
  match hexadecimal t with
  | some r => some r
  | none =>
    match decimal t with
    | some r => some r
    | none => word t

/-- `strtod`: white space, a sign, a number or a word; the value and what follows; `none` if there is no number -/
def strtod (s : Str) : Option (Value × Str) :=
  let (negative, t) := sign (s.dropWhile isSpace)
  (unsigned t).map fun (v, r) => (v.negate negative, r)

/-- numbers that are rounded to an infinity -/
def overflows (q : ℚ) : Bool := decide ((2 : ℚ) ^ 1024 - (2 : ℚ) ^ 970 ≤ |q|)

/-- numbers below the normal ones that are not a multiple of the smallest; simplified: tininess before rounding -/
def underflows (q : ℚ) : Bool := decide (q ≠ 0 ∧ |q| < (2 : ℚ) ^ (-1022 : ℤ) ∧ (q * (2 : ℚ) ^ 1074).den ≠ 1)

/-- `std::stod`: `invalid_argument` without a number, `out_of_range` if `strtod` sets `errno` to `ERANGE` -/
noncomputable def stod (s : Str) : Except ConvError Dbl :=
  match strtod s with
  | none => .error .invalidArgument
  | some (.number q, _) => if overflows q || underflows q then .error .outOfRange else .ok (.fin q)
  | some (.infinite true, _) => .ok .ninf
  | some (.infinite false, _) => .ok .pinf
  | some (.nan, _) => .ok .nan

/-- `atof`: zero without a number, an infinity for a number that is too large -/
noncomputable def atof (s : Str) : Dbl :=
  match strtod s with
  | none => .fin 0
  | some (.number q, _) => if overflows q then (if q < 0 then .ninf else .pinf) else .fin q
  | some (.infinite true, _) => .ninf
  | some (.infinite false, _) => .pinf
  | some (.nan, _) => .nan

/-! ## Printing -/

/-- the nearest integer, the even one of two -/
noncomputable def nearest (y : ℝ) : ℤ :=
  open Classical in
  if y - ⌊y⌋ < 1 / 2 then ⌊y⌋ else if 1 / 2 < y - ⌊y⌋ then ⌊y⌋ + 1 else if Even ⌊y⌋ then ⌊y⌋ else ⌊y⌋ + 1

/-- the `P` significant digits and the exponent of the style `%e` of a positive number -/
noncomputable def significant (P : Nat) (x : ℝ) : ℕ × ℤ :=
  let X := Int.log 10 x
  let m := (nearest (x / (10 : ℝ) ^ (X - P + 1))).toNat
  if m = 10 ^ P then (10 ^ (P - 1), X + 1) else (m, X)

/-- a digit as a character -/
def digitChar (d : Nat) : Char := Char.ofNat ('0'.toNat + d)

/-- a number in decimal digits -/
def showNat (n : Nat) : Str := (Nat.digits 10 n).reverse.map digitChar

/-- without the zeros at the end -/
def strip (s : Str) : Str := s.rdropWhile (· == '0')

/-- the digits after the point, without the zeros at the end and without a point if there are none -/
def pointAnd (f : Str) : Str := if strip f = [] then [] else '.' :: strip f

/-- the exponent of the style `%e`: a sign and at least two digits -/
def showExponent (X : Int) : Str :=
  'e' :: (if X < 0 then '-' else '+') :: (if X.natAbs < 10 then '0' :: (if X = 0 then ['0'] else showNat X.natAbs) else showNat X.natAbs)

/-- the style `%g` for the digits `m` and the exponent `X` -/
def layout (P : Nat) (m : ℕ) (X : ℤ) : Str :=
  let d := showNat m
  if -4 ≤ X ∧ X < P then
    if 0 ≤ X then d.take (X.toNat + 1) ++ pointAnd (d.drop (X.toNat + 1))
    else '0' :: pointAnd (List.replicate (-X - 1).toNat '0' ++ d)
  else d.take 1 ++ pointAnd (d.drop 1) ++ showExponent X

/-- `operator<<(ostream&, double)` with precision `P` and no other flags, that is `printf("%.*g", P, x)`; a precision of zero counts as one -/
noncomputable def print (P : Nat) : Dbl → Str
  | .nan => "nan".toList
  | .pinf => "inf".toList
  | .ninf => "-inf".toList
  | .fin x =>
    open Classical in
    if x = 0 then ['0']
    else
      let s := significant (max P 1) |x|
      (if x < 0 then ['-'] else []) ++ layout (max P 1) s.1 s.2

end ISO.Numerals
