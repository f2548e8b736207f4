import Verif.Lemmas.Machine

/-!
# Whole numbers are exact in machine arithmetic
-/

namespace ISO.Mach
open Fl CNum Spec
open scoped NNReal
variable {M : Machine}

/-- the whole number `n` -/
def whole (n : ℕ) : Mach M := Fl.num false n

theorem whole_plain (n : ℕ) : PlainNumber (whole n : Mach M) := ⟨n, rfl⟩

theorem whole_add {a b : ℕ} (h : a + b ≤ 2 ^ 53) : (whole a + whole b : Mach M) = whole (a + b) := by
  show M.toRounding.ofReal (false && false) ((a : ℝ≥0) + (b : ℝ≥0) : ℝ) = _
  have := M.toRounding.ofReal_nat (a + b) h
  push_cast at this ⊢
  rw [Bool.false_and, this]
  simp [whole]

theorem whole_sub {a b : ℕ} (hab : b ≤ a) (h : a ≤ 2 ^ 53) : (whole a - whole b : Mach M) = whole (a - b) := by
  show M.toRounding.ofReal (false && true) ((a : ℝ≥0) + -((b : ℝ≥0) : ℝ)) = _
  have := M.toRounding.ofReal_nat (a - b) (by omega)
  rw [Nat.cast_sub hab] at this
  rw [Bool.false_and]
  push_cast
  rw [← sub_eq_add_neg, this]
  rfl

theorem whole_mul {a b : ℕ} (h : a * b ≤ 2 ^ 53) : (whole a * whole b : Mach M) = whole (a * b) := by
  show M.toRounding.make (false ^^ false) ((a : ℝ≥0) * (b : ℝ≥0)) = _
  rw [← Nat.cast_mul, M.toRounding.make_int _ h]
  rfl

theorem whole_lt (a b : ℕ) : clt (whole a : Mach M) (whole b) = decide (a < b) := by
  show Fl.lt (num false a) (num false b) = _
  simp only [Fl.lt, isNan, key, Bool.not_false, Bool.true_and, EReal.coe_lt_coe_iff, NNReal.coe_natCast, Nat.cast_lt]

theorem whole_lit {m : ℕ} {s : Bool} {e : ℕ} (n : ℕ) (h : (OfScientific.ofScientific m s e : ℝ) = n) (hn : n ≤ 2 ^ 53) :
    (OfScientific.ofScientific m s e : Mach M) = whole n := lit_nat n h hn

theorem whole_ofInt (n : ℕ) (h : n ≤ 2 ^ 53) : (OfInt.ofInt (n : ℤ) : Mach M) = whole n := by
  show M.toRounding.ofReal false ((n : ℤ) : ℝ) = _
  rw [Int.cast_natCast, M.toRounding.ofReal_nat n h]
  rfl

theorem whole_cmin (a b : ℕ) : cmin (whole a : Mach M) (whole b) = whole (min a b) := by
  unfold cmin
  rw [whole_lt]
  rcases Nat.lt_or_ge b a with h | h
  · rw [decide_eq_true h, min_eq_right h.le]; rfl
  · rw [decide_eq_false (not_lt.mpr h), min_eq_left h]; rfl

theorem whole_cmax (a b : ℕ) : cmax (whole a : Mach M) (whole b) = whole (max a b) := by
  unfold cmax
  rw [whole_lt]
  rcases Nat.lt_or_ge a b with h | h
  · rw [decide_eq_true h, max_eq_right h.le]; rfl
  · rw [decide_eq_false (not_lt.mpr h), max_eq_left h]; rfl

/-- the positive part of a difference of whole numbers -/
theorem whole_excess {a b : ℕ} (ha : a ≤ 2 ^ 53) (hb : b ≤ 2 ^ 53) : cmax (whole a - whole b : Mach M) 0.0 = whole (a - b) := by
  rcases Nat.le_total b a with h | h
  · rw [whole_sub h ha, whole_lit (m := 0) 0 (by norm_num) (by norm_num), whole_cmax, Nat.max_zero]
  · rcases h.lt_or_eq with h1 | h1
    · have e : (whole a - whole b : Mach M) = num true ((b - a : ℕ) : ℝ≥0) := by
        show M.toRounding.ofReal (false && true) ((a : ℝ≥0) + -((b : ℝ≥0) : ℝ)) = _
        have hr : (a : ℝ) < b := by exact_mod_cast h1
        have e1 : ((a : ℝ≥0) : ℝ) + -((b : ℝ≥0) : ℝ) = -((b - a : ℕ) : ℝ) := by push_cast [Nat.cast_sub h1.le]; ring
        have pos : (0 : ℝ) < ((b - a : ℕ) : ℝ) := by exact_mod_cast Nat.sub_pos_of_lt h1
        rw [e1]
        unfold Rounding.ofReal
        rw [if_neg (by linarith), decide_eq_true (by linarith), abs_neg, abs_of_pos pos, Real.toNNReal_natCast,
          M.toRounding.make_int _ (by omega)]
      have e0 : a - b = 0 := by omega
      rw [e, e0, zero]
      have : Fl.lt (num true ((b - a : ℕ) : ℝ≥0)) (num false 0) = true := by
        have pos : (0 : ℝ) < ((b - a : ℕ) : ℝ) := by exact_mod_cast Nat.sub_pos_of_lt h1
        simp only [Fl.lt, isNan, key, Bool.not_false, Bool.true_and, EReal.coe_lt_coe_iff, NNReal.coe_natCast, NNReal.coe_zero,
          decide_eq_true_eq]
        linarith
      show (bif Fl.lt (num true ((b - a : ℕ) : ℝ≥0)) (num false 0) then (num false 0 : Mach M) else _) = _
      rw [this]
      simp [whole]
    · subst h1
      rw [whole_sub le_rfl ha, whole_lit (m := 0) 0 (by norm_num) (by norm_num), whole_cmax, Nat.max_zero]

/-- one minus a quotient of whole numbers -/
theorem plus_one_sub_whole {a b : ℕ} (h : a ≤ b) : P (1.0 - whole a / whole b : Mach M) :=
  plus_one_sub_div (whole_plain a).plus (whole_plain b).plus (by unfold AtMost; rw [whole_lt]; simpa using h)

/-- the product of a number and a plain number other than zero is a number -/
theorem mul_isNan' {a b : Mach M} (ha : Fl.isNan a = false) (hb : 0 < Fl.key b) (hb' : PlainNumber b) : Fl.isNan (a * b) = false := by
  obtain ⟨n, rfl⟩ := hb'
  have hn : n ≠ 0 := by rintro rfl; simp [key] at hb
  rcases a with ⟨s, m⟩ | ⟨s⟩ | _
  · exact M.toRounding.make_not_nan _ _
  · show (M.toRounding.mul _ _).isNan = false
    simp only [Rounding.mul, if_neg hn]
    rfl
  · exact Bool.noConfusion (show true = false from ha)

theorem mul_comm' (a b : Mach M) : a * b = b * a := by
  show M.toRounding.mul a b = M.toRounding.mul b a
  rcases a with ⟨s, m⟩ | ⟨s⟩ | _ <;> rcases b with ⟨t, n⟩ | ⟨t⟩ | _ <;> simp [Rounding.mul, mul_comm, Bool.xor_comm]

end ISO.Mach
