import Verif.Props.Properties

/-!
# C03: files that cannot be opened
-/

namespace ISO.Props
open ISO.Spec ISO.Properties

theorem readLines_opened (n : ℕ) (ls : List Str) (m : Store) : readLines n ls m ≠ .error .cannotOpen := by
  induction ls generalizing n m with
  | nil => intro h; cases h
  | cons l ls ih =>
    unfold readLines
    split
    · exact ih _ _
    · exact ih _ _
    all_goals intro h; cases h

/-- C03: reading one file fails for want of the file exactly if it cannot be opened (it never reads as an empty one). -/
theorem C03_cannotOpen (file : Option Str) : ofFile file = .error .cannotOpen ↔ file = none := by
  cases file with
  | none => exact ⟨fun _ => rfl, fun _ => rfl⟩
  | some t => exact ⟨fun h => absurd h (readLines_opened _ _ _), fun h => nomatch h⟩

/-- C03: reading a building file and a defaults file fails for want of a file exactly if the first cannot be opened, or the first is
read and the second cannot be opened. -/
theorem C03_cannotOpen_two (building defaults : Option Str) :
    ofFiles building defaults = .error .cannotOpen ↔ building = none ∨ (∃ m, ofFile building = .ok m) ∧ defaults = none := by
  cases building with
  | none => exact ⟨fun _ => .inl rfl, fun _ => rfl⟩
  | some t =>
    have e : ofFiles (some t) defaults = (ofFile (some t)).bind fun m => readFile defaults m := rfl
    rw [e]
    cases h : ofFile (some t) with
    | error x =>
      constructor
      · intro hx
        have : x = .cannotOpen := by cases hx; rfl
        subst this
        exact absurd h (readLines_opened _ _ _)
      · rintro (h' | ⟨⟨m, h'⟩, -⟩)
        · cases h'
        · cases h'
    | ok m =>
      show readFile defaults m = .error .cannotOpen ↔ _
      cases defaults with
      | none => exact ⟨fun _ => .inr ⟨⟨m, rfl⟩, rfl⟩, fun _ => rfl⟩
      | some d =>
        constructor
        · intro hx; exact absurd hx (readLines_opened _ _ _)
        · rintro (h' | ⟨-, h'⟩) <;> cases h'

/-- both cases occur -/
example : ofFile none = .error .cannotOpen ∧ ofFile (some []) = .ok [] ∧ ofFiles (some "a = 1".toList) none = .error .cannotOpen ∧
    ofFiles none (some "a = 1".toList) = .error .cannotOpen := ⟨rfl, rfl, by rfl, rfl⟩

end ISO.Props
