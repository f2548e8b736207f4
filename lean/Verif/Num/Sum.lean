import Verif.Num.Lemmas
import Mathlib.Algebra.BigOperators.Group.Finset.Basic
import Mathlib.Algebra.BigOperators.Intervals
import Mathlib.Algebra.BigOperators.Fin

/-! Helper lemmas: addition of `Dbl` is associative and commutative (finite arithmetic is exact), so sums
do not depend on the order. -/

namespace ISO
open CNum

noncomputable instance : Zero Dbl := ⟨.fin 0⟩

noncomputable instance : AddCommMonoid Dbl where
  add := (· + ·)
  add_assoc a b c := by
    cases a <;> cases b <;> cases c <;> first | rfl | (show Dbl.fin _ = Dbl.fin _; rw [add_assoc])
  zero_add a := by cases a <;> first | rfl | (show Dbl.fin _ = Dbl.fin _; rw [zero_add])
  add_zero a := by cases a <;> first | rfl | (show Dbl.fin _ = Dbl.fin _; rw [add_zero])
  add_comm a b := by cases a <;> cases b <;> first | rfl | (show Dbl.fin _ = Dbl.fin _; rw [add_comm])
  nsmul := nsmulRec

theorem Dbl.zero_def : (0 : Dbl) = .fin 0 := rfl

theorem zero_lit_real : (0.0 : ℝ) = 0 := by norm_num
theorem zero_lit_dbl : (0.0 : Dbl) = 0 := by
  show Dbl.fin (0.0 : ℝ) = .fin 0
  rw [zero_lit_real]

theorem csum_dbl (l : List Dbl) : csum l = l.sum := by
  have h : ∀ (l : List Dbl) (a : Dbl), l.foldl (· + ·) a = a + l.sum := by
    intro l
    induction l with
    | nil => intro a; simp
    | cons x l ih => intro a; simp only [List.foldl_cons, List.sum_cons, ih, add_assoc]
  unfold csum
  rw [h, zero_lit_dbl, zero_add]

/-- the sum of a list as a sum over its indices -/
theorem sum_eq_range (l : List Dbl) : l.sum = ∑ i ∈ Finset.range l.length, l.getD i 0 := by
  induction l with
  | nil => simp
  | cons x l ih =>
    rw [List.sum_cons, List.length_cons, Finset.sum_range_succ', ih, add_comm]
    simp

theorem csum_slice (l : List Dbl) {a b : Nat} (hab : a ≤ b) (hb : b ≤ l.length) :
    csum ((l.take b).drop a) = ∑ i ∈ Finset.Ico a b, l.getD i 0 := by
  rw [csum_dbl, sum_eq_range, Finset.sum_Ico_eq_sum_range]
  have hlen : ((l.take b).drop a).length = b - a := by simp; omega
  rw [hlen]
  apply Finset.sum_congr rfl
  intro i hi
  rw [Finset.mem_range] at hi
  have h1 : i < b - a := hi
  have h2 : a + i < b := by omega
  have h3 : a + i < l.length := by omega
  simp [List.getD_eq_getElem?_getD, List.getElem?_drop, h2]

theorem fin_sum {ι : Type} (s : Finset ι) (f : ι → ℝ) :
    ∑ i ∈ s, Dbl.fin (f i) = Dbl.fin (∑ i ∈ s, f i) := by
  classical
  induction s using Finset.induction_on with
  | empty => rfl
  | insert a s ha ih => rw [Finset.sum_insert ha, Finset.sum_insert ha, ih, Dbl.fin_add]

end ISO
