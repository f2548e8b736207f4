import Mathlib.Data.Rat.Defs
import Mathlib.Data.Nat.Digits.Defs
import Verif.Model.Numerals

/-!
# Which texts are numbers (ISO C 7.22.1.3, "C" locale)

Only the type `Value` of what a text stands for is taken from the model.
-/

namespace ISO.Spec.Text
open ISO ISO.Numerals

/-- a decimal digit -/
def Digit (c : Char) (d : Nat) : Prop := d < 10 ∧ c.toNat = 48 + d

/-- a hexadecimal digit -/
def HexDigit (c : Char) (d : Nat) : Prop := Digit c d ∨ (10 ≤ d ∧ d < 16 ∧ (c.toNat = 87 + d ∨ c.toNat = 55 + d))

/-- a string of digits of the given base and its value: the digits, the last one first, in the positional system -/
def Digits (digit : Char → Nat → Prop) (base : Nat) (s : Str) (n : Nat) : Prop :=
  ∃ ds : List Nat, List.Forall₂ digit s ds ∧ n = Nat.ofDigits base ds.reverse

/-- an optional sign -/
inductive Sign : Str → Int → Prop
  | none : Sign [] 1
  | plus : Sign ['+'] 1
  | minus : Sign ['-'] (-1)

/-- digits with at most one point among them, at least one digit: the digits without the point, and how many follow it -/
inductive Mantissa (digit : Char → Nat → Prop) (base : Nat) : Str → Nat → Nat → Prop
  | whole (s : Str) (n : Nat) : s ≠ [] → Digits digit base s n → Mantissa digit base s n 0
  | point (i f : Str) (n : Nat) : i ++ f ≠ [] → Digits digit base (i ++ f) n → Mantissa digit base (i ++ '.' :: f) n f.length

/-- an optional exponent: one of the letters, an optional sign, decimal digits -/
inductive Exponent (letters : List Char) : Str → Int → Prop
  | none : Exponent letters [] 0
  | some (c : Char) (s d : Str) (g : Int) (n : Nat) : c ∈ letters → Sign s g → d ≠ [] → Digits Digit 10 d n →
      Exponent letters (c :: (s ++ d)) (g * n)

/-- a number or word without a sign -/
inductive Unsigned : Str → Value → Prop
  | decimal (m x : Str) (n k : Nat) (e : Int) : Mantissa Digit 10 m n k → Exponent ['e', 'E'] x e →
      Unsigned (m ++ x) (.number (n * (10 : ℚ) ^ e / 10 ^ k))
  | hexadecimal (c : Char) (m x : Str) (n k : Nat) (e : Int) : c ∈ ['x', 'X'] → Mantissa HexDigit 16 m n k → Exponent ['p', 'P'] x e →
      Unsigned ('0' :: c :: (m ++ x)) (.number (n * (2 : ℚ) ^ e / 16 ^ k))
  | infinite (s : Str) : lower s = "inf".toList ∨ lower s = "infinity".toList → Unsigned s (.infinite false)
  | nan (s : Str) : lower s = "nan".toList → Unsigned s .nan
  | nanWith (s n : Str) : lower s = "nan".toList → (∀ c ∈ n, c.isAlphanum ∨ c = '_') → Unsigned (s ++ '(' :: n ++ [')']) .nan

/-- a number with an optional sign -/
inductive Numeral : Str → Value → Prop
  | plain (s t : Str) (v : Value) : Sign s 1 → Unsigned t v → Numeral (s ++ t) v
  | minus (t : Str) (q : ℚ) : Unsigned t (.number q) → Numeral ('-' :: t) (.number (-q))
  | minusInfinite (t : Str) : Unsigned t (.infinite false) → Numeral ('-' :: t) (.infinite true)
  | minusNan (t : Str) : Unsigned t .nan → Numeral ('-' :: t) .nan

/-- white space -/
def Blank (c : Char) : Prop := c ∈ [' ', '\t', '\n', '\r', Char.ofNat 11, Char.ofNat 12]

/-- the text is white space, the number `p` and a rest, and no longer part of it is white space and a number -/
def Reads (text p : Str) (v : Value) : Prop :=
  ∃ blanks rest, text = blanks ++ p ++ rest ∧ (∀ c ∈ blanks, Blank c) ∧ Numeral p v ∧
    ∀ blanks' p' rest' v', text = blanks' ++ p' ++ rest' → (∀ c ∈ blanks', Blank c) → Numeral p' v' → p'.length ≤ p.length

/-- the least number that is rounded to an infinity, half a step above the largest double -/
def tooLarge : ℚ := (2 : ℚ) ^ 1024 - (2 : ℚ) ^ 970

/-- no part of the text that follows white space at its start is a number -/
def ReadsNothing (text : Str) : Prop :=
  ∀ blanks p rest v, text = blanks ++ p ++ rest → (∀ c ∈ blanks, Blank c) → ¬ Numeral p v

end ISO.Spec.Text
