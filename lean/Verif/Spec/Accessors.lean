import Verif.Model.Accessors

/-!
# What the getters of a UserModel are expected to show

A getter shows the value of the last call of its setter, and no other setter changes it.
-/

namespace ISO.User
open ISO

/-- a getter: one of the pairs, or the getter of one of the four settings given by a keyword -/
inductive Getter where
  | of (a : Accessor)
  | code (c : Code)
  deriving DecidableEq

/-- what the getter returns -/
def Getter.read {α : Type} [CNum α] [OfInt α] : Getter → Object α → Reading α
  | .of a, u => a.get u
  | .code c, u => .num (c.get u)

/-- the allowed keywords; the getter shows 1 for the first, 2 for the second, 3 for the third -/
def keywords : Code → List String
  | .bemType => ["none", "simple", "advanced"]
  | .dhwEnergyCarrier => ["electric", "gas"]
  | .heatingEnergyCarrier => ["electric", "gas"]
  | .ventilationType => ["mechanical", "combined", "natural"]

/-- the place of an orientation in a vector of nine: from south by east, north and west, the roof last -/
def place : Facade → ℕ
  | .S => 0 | .SE => 1 | .E => 2 | .NE => 3 | .N => 4 | .NW => 5 | .W => 6 | .SW => 7 | .roof => 8

/-- the value the call gives to what the getter shows, `none` if it gives none -/
noncomputable def written : SetterCall Dbl → Getter → Option (Reading Dbl)
  | .value a v, .of b => if b = a then some (a.shown v) else none
  | .keyword c text, .code d =>
    if d = c then ((keywords c).findIdx? fun k => lower text = k.toList).map fun i : ℕ => .num (.fin ((i : ℝ) + 1)) else none
  | .vector n v, .of (.facade m f) => if m = n ∧ v.length = 9 then v[place f]?.map .num else none
  | .dhwDistributionSystem v, .of (.heating .dhwDistributionEfficiency) => some (.num v)
  | _, _ => none

/-- the value of the last call that gives one -/
noncomputable def lastWritten (g : Getter) (calls : List (SetterCall Dbl)) : Option (Reading Dbl) :=
  calls.reverse.findSome? fun c => written c g

/-- the calls that are refused: another keyword, in any case of the letters, or a vector without nine values -/
def Refused : SetterCall Dbl → Prop
  | .keyword c text => ∀ k ∈ keywords c, lower text ≠ k.toList
  | .vector _ v => v.length ≠ 9
  | _ => False

end ISO.User
