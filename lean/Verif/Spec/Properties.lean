import Mathlib.Data.List.Basic
import Mathlib.Data.Nat.Digits.Defs

/-!
# Specification of the .ism property file format (independent of the model)
-/

namespace ISO.Spec

/-- space or tab -/
def Blank (c : Char) : Prop := c = ' ' ∨ c = '\t'

/-- space, tab or carriage return -/
def BlankOrCR (c : Char) : Prop := c = ' ' ∨ c = '\t' ∨ c = '\r'

/-- `t` is `s` without the blanks in front and the blanks and carriage returns at the end. -/
def Trimmed (s t : List Char) : Prop :=
  ∃ l r, s = l ++ t ++ r ∧ (∀ c ∈ l, Blank c) ∧ (∀ c ∈ r, BlankOrCR c) ∧
    (∀ c, t.head? = some c → ¬ Blank c) ∧ (∀ c, t.getLast? = some c → ¬ BlankOrCR c)

/-- The lines of a text: every line ends with a newline, except possibly a non-empty last one. -/
def IsLines (text : List Char) (ls : List (List Char)) : Prop :=
  (∀ l ∈ ls, '\n' ∉ l) ∧
  (text = (ls.map (· ++ ['\n'])).flatten ∨
   ∃ init last, ls = init ++ [last] ∧ last ≠ [] ∧ text = (init.map (· ++ ['\n'])).flatten ++ last)

/-- empty line or comment line -/
def Ignored (line : List Char) : Prop :=
  (∀ c ∈ line, BlankOrCR c) ∨ ∃ l r, (∀ c ∈ l, Blank c) ∧ line = l ++ '#' :: r

/-- The line defines key `k` (as written) with value `v`. -/
def Defines (line k v : List Char) : Prop :=
  ¬ Ignored line ∧ ∃ before after, line = before ++ '=' :: after ∧ '=' ∉ before ∧
    Trimmed before k ∧ k ≠ [] ∧ Trimmed after v ∧ v ≠ []

/-- neither ignored nor a definition -/
def Malformed (line : List Char) : Prop := ¬ Ignored line ∧ ¬ ∃ k v, Defines line k v

/-- equal up to ASCII letter case -/
def SameKey (k k' : List Char) : Prop := k.map Char.toLower = k'.map Char.toLower

/-- The lines of several files read one after the other. -/
def AllLines (texts : List (List Char)) (ls : List (List Char)) : Prop :=
  ∃ lss, List.Forall₂ IsLines texts lss ∧ ls = lss.flatten

/-- `v` is the value on the first line that defines `key` (up to case). -/
def FirstDef (ls : List (List Char)) (key v : List Char) : Prop :=
  ∃ pre l post k, ls = pre ++ l :: post ∧ Defines l k v ∧ SameKey k key ∧
    ∀ l' ∈ pre, ∀ k' v', Defines l' k' v' → ¬ SameKey k' key

/-- `v` is the value of the last pair with this key (up to case). -/
def LastPut (puts : List (List Char × List Char)) (key v : List Char) : Prop :=
  ∃ pre k post, puts = pre ++ (k, v) :: post ∧ SameKey k key ∧ ∀ p ∈ post, ¬ SameKey p.1 key

/-- `v` is the value of the first pair with this key (up to case). -/
def FirstPair (pairs : List (List Char × List Char)) (key v : List Char) : Prop :=
  ∃ pre k post, pairs = pre ++ (k, v) :: post ∧ SameKey k key ∧ ∀ p ∈ pre, ¬ SameKey p.1 key

/-- no pair with this key (up to case) -/
def NoPut (puts : List (List Char × List Char)) (key : List Char) : Prop :=
  ∀ p ∈ puts, ¬ SameKey p.1 key

/-- the text with every line end changed from LF to CRLF -/
def toCRLF (text : List Char) : List Char :=
  text.flatMap fun c => if c = '\n' then ['\r', '\n'] else [c]

/-- the file with one line `key = value` for each pair -/
def fileOf (pairs : List (List Char × List Char)) : List Char :=
  pairs.flatMap fun p => p.1 ++ [' ', '=', ' '] ++ p.2 ++ ['\n']

/-- A key that can be written to a file. -/
def GoodKey (k : List Char) : Prop :=
  k ≠ [] ∧ '\n' ∉ k ∧ '=' ∉ k ∧ (∀ c, k.head? = some c → ¬ Blank c ∧ c ≠ '#') ∧
    ∀ c, k.getLast? = some c → ¬ BlankOrCR c

/-- A value that can be written to a file. -/
def GoodValue (v : List Char) : Prop :=
  v ≠ [] ∧ '\n' ∉ v ∧ (∀ c, v.head? = some c → ¬ Blank c) ∧ ∀ c, v.getLast? = some c → ¬ BlankOrCR c

/-- decimal digit -/
def Digit (c : Char) : Prop := 48 ≤ c.toNat ∧ c.toNat ≤ 57

/-- white space of the C library (space, \t, \n, \v, \f, \r) -/
def Space (c : Char) : Prop := c.toNat = 32 ∨ (9 ≤ c.toNat ∧ c.toNat ≤ 13)

/-- `s` starts, after white space, with an optionally signed decimal number of value `n`
(all digits that follow belong to it). -/
def StartsWithInt (s : List Char) (n : Int) : Prop :=
  ∃ ws sign digits rest, s = ws ++ sign ++ digits ++ rest ∧ (∀ c ∈ ws, Space c) ∧
    (sign = [] ∨ sign = ['+'] ∨ sign = ['-']) ∧ digits ≠ [] ∧ (∀ c ∈ digits, Digit c) ∧
    (∀ c, rest.head? = some c → ¬ Digit c) ∧
    n = (if sign = ['-'] then -1 else 1) *
      ((Nat.ofDigits 10 ((digits.map fun c => c.toNat - 48).reverse) : ℕ) : Int)

/-- the fields separated by commas -/
def joinComma : List (List Char) → List Char
  | [] => []
  | [x] => x
  | x :: xs => x ++ ',' :: joinComma xs

/-- `Csv quoted text fields`: the rest `text` of a line of comma-separated values, inside quotes or not, has the `fields`, the
first one begun already.  Quotes may start and end anywhere and are dropped; a comma within quotes belongs to the field; `\\n`
is a newline, and a backslash before a comma, a quote or a backslash stands for that character; quotes may stay open at the
end. -/
inductive Csv : Bool → List Char → List (List Char) → Prop where
  | done (quoted) : Csv quoted [] [[]]
  | char {quoted t f fs c} : c ≠ ',' → c ≠ '"' → c ≠ '\\' → Csv quoted t (f :: fs) → Csv quoted (c :: t) ((c :: f) :: fs)
  | comma {t fs} : Csv false t fs → Csv false (',' :: t) ([] :: fs)
  | quotedComma {t f fs} : Csv true t (f :: fs) → Csv true (',' :: t) ((',' :: f) :: fs)
  | quote {quoted t fs} : Csv (!quoted) t fs → Csv quoted ('"' :: t) fs
  | newline {quoted t f fs} : Csv quoted t (f :: fs) → Csv quoted ('\\' :: 'n' :: t) (('\n' :: f) :: fs)
  | escaped {quoted t f fs c} : c = ',' ∨ c = '"' ∨ c = '\\' → Csv quoted t (f :: fs) → Csv quoted ('\\' :: c :: t) ((c :: f) :: fs)

/-- characters and complete escapes -/
inductive Escapes : List Char → Prop where
  | nil : Escapes []
  | char {t c} : c ≠ '\\' → Escapes t → Escapes (c :: t)
  | escape {t c} : c = 'n' ∨ c = ',' ∨ c = '"' ∨ c = '\\' → Escapes t → Escapes ('\\' :: c :: t)

/-- a backslash that is not part of an escape: at the end, or before another character than `n`, comma, quote and backslash -/
def BadEscape (text : List Char) : Prop :=
  ∃ before after, text = before ++ '\\' :: after ∧ Escapes before ∧
    ∀ c t, after = c :: t → c ≠ 'n' ∧ c ≠ ',' ∧ c ≠ '"' ∧ c ≠ '\\'

/-- a field in quotes -/
def quoteField (f : List Char) : List Char :=
  '"' :: (f.flatMap fun c => if c = '"' ∨ c = '\\' then ['\\', c] else [c]) ++ ['"']

end ISO.Spec
