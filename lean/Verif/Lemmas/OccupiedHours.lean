import Verif.Spec.OccupiedHours
import Verif.Props.Schedule
import Mathlib.Algebra.BigOperators.Intervals
import Mathlib.Tactic.LinearCombination

/-! # Counting the occupied hours of a week -/

namespace ISO.Lemmas.OccupiedHours
open ISO ISO.Spec ISO.Spec.OccupiedHours

/-- hours by days -/
theorem sum_days (f : ℕ → ℝ) (n : ℕ) :
    ∑ j ∈ Finset.range (24 * n), f j = ∑ t ∈ Finset.range n, ∑ h ∈ Finset.range 24, f (24 * t + h) := by
  induction n with
  | zero => simp
  | succ n ih => rw [Nat.mul_succ, Finset.sum_range_add, ih, Finset.sum_range_succ _ n]

/-- numbers below `n` in a closed interval -/
theorem sum_between {a b n : ℕ} (hab : a ≤ b) (hb : b < n) :
    ∑ h ∈ Finset.range n, (if a ≤ h ∧ h ≤ b then (1 : ℝ) else 0) = b - a + 1 := by
  rw [Finset.sum_boole]
  have : (Finset.range n).filter (fun h => a ≤ h ∧ h ≤ b) = Finset.Icc a b := by
    ext h; simp only [Finset.mem_filter, Finset.mem_range, Finset.mem_Icc]; omega
  rw [this, Nat.card_Icc, Nat.cast_sub (by omega)]; push_cast; ring

open Classical in
/-- the energy of a week with a closed window -/
theorem week_closed {p : Population ℝ} {a b c d : ℕ} (hw : Whole p a b c d) (hab : a ≤ b) (hb : b < 24) (hcd : c ≤ d) (hd : d < 7)
    (u v : ℝ) (k : ℕ) :
    weekOf (fun i => (if Occupied p i then u else v) / 1000) k = weekWith ((b - a + 1) * (d - c + 1)) u v := by
  unfold weekOf weekWith
  rw [show (168 : ℕ) = 24 * 7 by rfl, sum_days]
  have key : ∀ t ∈ Finset.range 7, ∀ h ∈ Finset.range 24,
      (if Occupied p (24 * 7 * k + (24 * t + h)) then u else v) / 1000
        = v / 1000 + (if c ≤ t ∧ t ≤ d then (1 : ℝ) else 0) * (if a ≤ h ∧ h ≤ b then (1 : ℝ) else 0) * ((u - v) / 1000) := by
    intro t ht h hh
    rw [Finset.mem_range] at ht hh
    have e1 : (24 * 7 * k + (24 * t + h)) % 24 = h := by omega
    have e2 : (24 * 7 * k + (24 * t + h)) / 24 % 7 = t := by omega
    rw [Props.C13_whole p hw.first hw.last hw.firstDay hw.lastDay, e1, e2]
    by_cases q1 : a ≤ h ∧ h ≤ b <;> by_cases q2 : c ≤ t ∧ t ≤ d <;> simp [q1, q2] <;> ring
  rw [Finset.sum_congr rfl fun t ht => Finset.sum_congr rfl fun h hh => key t ht h hh]
  simp only [Finset.sum_add_distrib, ← Finset.sum_mul, ← Finset.mul_sum, Finset.sum_const, Finset.card_range, nsmul_eq_mul]
  rw [sum_between hab hb, sum_between hcd hd]
  push_cast; ring

open Classical in
/-- a window that ends before it starts is never occupied -/
theorem week_never {p : Population ℝ} {a b c d : ℕ} (hw : Whole p a b c d) (hab : b < a) (u v : ℝ) (k : ℕ) :
    weekOf (fun i => (if Occupied p i then u else v) / 1000) k = weekWith 0 u v := by
  unfold weekOf weekWith
  have key : ∀ i, (if Occupied p i then u else v) / 1000 = v / 1000 := fun i => by
    rw [if_neg (Props.C13_empty p hab (.inl ⟨hw.first, hw.last⟩) i)]
  simp only [key]
  rw [Finset.sum_const, Finset.card_range, nsmul_eq_mul]; push_cast; ring

end ISO.Lemmas.OccupiedHours
