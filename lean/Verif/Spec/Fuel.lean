import Verif.Spec.Editing
import Mathlib.Logic.Equiv.Basic

/-! # What it means that a change of the fuel moves numbers from one column to another (for C84) -/

namespace ISO.Spec.Fuel
open ISO ISO.Spec.Text ISO.Spec.Editing

/-- the two fuels of the building file -/
inductive Carrier where
  | electric
  | gas
  deriving DecidableEq

/-- the word for a fuel in the building file -/
def Carrier.word : Carrier → String
  | .electric => "electric"
  | .gas => "gas"

/-- the building file names this fuel (in whatever case) under this parameter -/
def Burns (file : Properties.Store) (name : String) (c : Carrier) : Prop :=
  ∃ t, Properties.getProperty name.toList file = some t ∧ lower t = c.word.toList

/-- two lists of results, or none: the second has the columns `a` and `b` of the first exchanged, and everything else alike -/
def Swapped {α : Type} (a b : Fin 13) : Option (List (Hourly.EndUses α)) → Option (List (Hourly.EndUses α)) → Prop
  | none, none => True
  | some r, some r' => r.length = r'.length ∧
      ∀ (i : Nat) (h : i < r.length) (h' : i < r'.length) (k : Fin 13), r'[i] k = r[i] (Equiv.swap a b k)
  | _, _ => False

/-- Two printed tables have the same title, the same names of columns and the same lines; in every line the texts in the columns `a` and `b`
are exchanged, and all others are alike. -/
structure SwappedTable (a b : Fin 13) (text text' : Str) : Prop where
  lines : (readTable ',' text').length = (readTable ',' text).length
  title : ∀ j, cell text' 0 j = cell text 0 j ∧ cell text' 1 j = cell text 1 j
  number : ∀ i, cell text' i 0 = cell text i 0
  first : ∀ i, 2 ≤ i → cell text' i (a + 1) = cell text i (b + 1)
  second : ∀ i, 2 ≤ i → cell text' i (b + 1) = cell text i (a + 1)
  others : ∀ i (k : Fin 13), k ≠ a → k ≠ b → cell text' i (k + 1) = cell text i (k + 1)
  columns : ∀ i j, 13 < j → cell text' i j = none ∧ cell text i j = none

end ISO.Spec.Fuel
