import Verif.Spec.Machine
import Verif.Num.Sum
import Mathlib.Tactic.Linarith

/-!
# Signs in machine arithmetic
-/

namespace ISO
open scoped NNReal ENNReal

namespace Fl

/-- sign bit clear, or NaN -/
def Plus : Fl → Prop
  | num s _ => s = false
  | inf s => s = false
  | nan => True

/-- not below zero: sign bit clear, a zero, or NaN -/
def NN : Fl → Prop
  | num s m => s = false ∨ m = 0
  | inf s => s = false
  | nan => True

theorem Plus.nn {a : Fl} (h : Plus a) : NN a := by
  cases a with
  | num s m => exact .inl h
  | inf s => exact h
  | nan => trivial

theorem key_nonneg {a : Fl} (h : NN a) : 0 ≤ a.key := by
  rcases a with ⟨_ | _, m⟩ | ⟨_ | _⟩ | _
  · exact EReal.coe_nonneg.mpr m.2
  · rcases h with h | h
    · simp at h
    · subst h; simp [key]
  · exact le_top
  · simp [NN] at h
  · exact le_rfl

theorem nn_of_key {a : Fl} (h : 0 ≤ a.key) : NN a := by
  rcases a with ⟨_ | _, m⟩ | ⟨_ | _⟩ | _
  · exact .inl rfl
  · right
    have h2 : (0 : ℝ) ≤ -m := EReal.coe_nonneg.mp h
    have := m.2
    exact NNReal.coe_eq_zero.mp (le_antisymm (by linarith) m.2)
  · rfl
  · simp [key] at h
  · trivial

theorem plus_of_key {a : Fl} (h : 0 < a.key) : Plus a := by
  rcases a with ⟨_ | _, m⟩ | ⟨_ | _⟩ | _
  · rfl
  · exfalso
    have h2 : (0 : ℝ) < -m := EReal.coe_pos.mp h
    have := m.2
    have h3 : (0 : ℝ) ≤ m := m.2
    linarith
  · rfl
  · simp [key] at h
  · trivial

theorem lt_true {a b : Fl} (h : lt a b = true) : a.isNan = false ∧ b.isNan = false ∧ a.key < b.key := by
  unfold lt at h
  simp only [Bool.and_eq_true, Bool.not_eq_true', decide_eq_true_eq] at h
  exact ⟨h.1.1, h.1.2, h.2⟩

theorem lt_false {a b : Fl} (h : lt a b = false) (ha : a.isNan = false) (hb : b.isNan = false) : b.key ≤ a.key := by
  unfold lt at h
  rw [ha, hb] at h
  simpa using h

theorem isNan_eq {a : Fl} (h : a.isNan = true) : a = nan := by cases a <;> simp_all [isNan]

theorem plus_abs (a : Fl) : Plus a.abs := by cases a <;> simp [abs, Plus]

end Fl

namespace Rounding
open Fl
variable (R : Rounding)

theorem round_zero : R.round 0 = 0 := by have := R.int 0 (by norm_num); simpa using this

theorem round_one : R.round 1 = 1 := by have := R.int 1 (by norm_num); simpa using this

/-- numbers up to 2^53 do not overflow, and stay below the integers above them -/
theorem round_le {m : ℝ≥0} {n : ℕ} (h : m ≤ n) (hn : n ≤ 2 ^ 53) : R.round m ≤ n := R.int n hn ▸ R.mono h

theorem le_round {m : ℝ≥0} {n : ℕ} (h : (n : ℝ≥0) ≤ m) (hn : n ≤ 2 ^ 53) : (n : ℝ≥0∞) ≤ R.round m := R.int n hn ▸ R.mono h

theorem round_ne_top {m : ℝ≥0} (h : m ≤ 2 ^ 53) : R.round m ≠ ⊤ := by
  have h1 := R.round_le (n := 2 ^ 53) (by exact_mod_cast h) le_rfl
  exact ne_top_of_le_ne_top (ENNReal.natCast_ne_top _) h1

theorem plus_make (m : ℝ≥0) : Plus (R.make false m) := by unfold make; split <;> rfl

theorem make_not_nan (s : Bool) (m : ℝ≥0) : (R.make s m).isNan = false := by unfold make; split <;> rfl

theorem make_zero (s : Bool) : R.make s 0 = num s 0 := by
  unfold make; rw [R.round_zero]; simp

theorem make_int (s : Bool) {n : ℕ} (h : n ≤ 2 ^ 53) : R.make s n = num s n := by
  unfold make; rw [R.int n h]; simp

theorem make_num (s : Bool) {m : ℝ≥0} (h : m ≤ 2 ^ 53) : R.make s m = num s (R.round m).toNNReal := by
  unfold make; rw [if_neg (R.round_ne_top h)]

theorem plus_ofReal {x : ℝ} (h : 0 ≤ x) : Plus (R.ofReal false x) := by
  unfold ofReal
  split
  · rfl
  · rw [decide_eq_false (not_lt.mpr h)]; exact R.plus_make _

theorem ofReal_not_nan (s : Bool) (x : ℝ) : (R.ofReal s x).isNan = false := by
  unfold ofReal
  split
  · rfl
  · exact R.make_not_nan _ _

theorem ofReal_zero (s : Bool) : R.ofReal s 0 = num s 0 := if_pos rfl

theorem ofReal_nat (n : ℕ) (h : n ≤ 2 ^ 53) : R.ofReal false n = num false n := by
  unfold ofReal
  split
  case isTrue h0 => simp at h0; subst h0; simp
  case isFalse h0 =>
    rw [decide_eq_false (not_lt.mpr (Nat.cast_nonneg n)), abs_of_nonneg (Nat.cast_nonneg n), Real.toNNReal_natCast, R.make_int _ h]

theorem plus_ofReal' {x : ℝ} {s : Bool} (h : 0 ≤ x) (hs : s = false) : Plus (R.ofReal s x) := hs ▸ R.plus_ofReal h

theorem nn_ofReal (s : Bool) {x : ℝ} (h : 0 ≤ x) : NN (R.ofReal s x) := by
  unfold ofReal
  split
  · exact .inr rfl
  · rw [decide_eq_false (not_lt.mpr h)]; exact (R.plus_make _).nn

theorem plus_add {a b : Fl} (ha : Plus a) (hb : Plus b) : Plus (R.add a b) := by
  rcases a with ⟨_ | _, m⟩ | ⟨_ | _⟩ | _ <;> rcases b with ⟨_ | _, n⟩ | ⟨_ | _⟩ | _ <;>
    first
    | trivial
    | exact Bool.noConfusion (show true = false from ha)
    | exact Bool.noConfusion (show true = false from hb)
    | exact R.plus_ofReal (add_nonneg m.2 n.2)

theorem value_nonneg {s : Bool} {m : ℝ≥0} (h : NN (num s m)) : 0 ≤ (num s m).value := by
  cases s
  · exact m.2
  · rcases h with h | h
    · simp at h
    · subst h; simp [value]

theorem nn_add {a b : Fl} (ha : NN a) (hb : NN b) : NN (R.add a b) := by
  rcases a with ⟨s, m⟩ | ⟨s⟩ | _ <;> rcases b with ⟨t, n⟩ | ⟨t⟩ | _ <;> try trivial
  · exact R.nn_ofReal _ (add_nonneg (value_nonneg ha) (value_nonneg hb))
  · simp only [NN] at ha hb
    subst ha hb
    rfl

theorem plus_mul {a b : Fl} (ha : Plus a) (hb : Plus b) : Plus (R.mul a b) := by
  rcases a with ⟨_ | _, m⟩ | ⟨_ | _⟩ | _ <;> rcases b with ⟨_ | _, n⟩ | ⟨_ | _⟩ | _ <;>
    first
    | trivial
    | exact Bool.noConfusion (show true = false from ha)
    | exact Bool.noConfusion (show true = false from hb)
    | exact R.plus_make _
    | (simp only [mul]; split <;> trivial)

theorem plus_div {a b : Fl} (ha : Plus a) (hb : Plus b) : Plus (R.div a b) := by
  rcases a with ⟨_ | _, m⟩ | ⟨_ | _⟩ | _ <;> rcases b with ⟨_ | _, n⟩ | ⟨_ | _⟩ | _ <;>
    first
    | trivial
    | exact Bool.noConfusion (show true = false from ha)
    | exact Bool.noConfusion (show true = false from hb)
    | (simp only [div]; split
       · split <;> trivial
       · exact R.plus_make _)

/-- a zero keeps its sign, and stays not below zero -/
theorem nn_mul {a b : Fl} (ha : NN a) (hb : Plus b) : NN (R.mul a b) := by
  rcases a with ⟨_ | _, m⟩ | ⟨_ | _⟩ | _ 
  · exact (R.plus_mul (show Plus (num false m) from rfl) hb).nn
  · rcases ha with h | h
    · simp at h
    · subst h
      rcases b with ⟨t, n⟩ | ⟨t⟩ | _ <;> try trivial
      · simp only [mul, zero_mul, R.make_zero]; exact .inr rfl
      · simp only [mul, if_pos]; trivial
  · exact (R.plus_mul (show Plus (inf false) from rfl) hb).nn
  · exact Bool.noConfusion (show true = false from ha)
  · trivial

theorem nn_div {a b : Fl} (ha : NN a) (hb : Plus b) : NN (R.div a b) := by
  rcases a with ⟨_ | _, m⟩ | ⟨_ | _⟩ | _ 
  · exact (R.plus_div (show Plus (num false m) from rfl) hb).nn
  · rcases ha with h | h
    · simp at h
    · subst h
      rcases b with ⟨t, n⟩ | ⟨t⟩ | _ <;> try trivial
      · simp only [div, if_pos, zero_div, R.make_zero]
        split
        · trivial
        · exact .inr rfl
      · exact .inr rfl
  · exact (R.plus_div (show Plus (inf false) from rfl) hb).nn
  · exact Bool.noConfusion (show true = false from ha)
  · trivial

/-- one minus a quotient of a smaller by a larger number keeps its sign: this is where the rounding has to be monotone -/
theorem plus_one_sub_div {a b : Fl} (ha : Plus a) (hb : Plus b) (h : lt b a = false) :
    Plus (R.add (num false 1) (Fl.neg (R.div a b))) := by
  rcases a with ⟨_ | _, m⟩ | ⟨_ | _⟩ | _ <;> rcases b with ⟨_ | _, n⟩ | ⟨_ | _⟩ | _ <;>
    first
    | trivial
    | exact Bool.noConfusion (show true = false from ha)
    | exact Bool.noConfusion (show true = false from hb)
    | skip
  · have hk := lt_false h rfl rfl
    have hmn : m ≤ n := by
      have : ((m : ℝ) : EReal) ≤ ((n : ℝ) : EReal) := hk
      exact_mod_cast EReal.coe_le_coe_iff.mp this
    simp only [div]
    split
    case isTrue hn =>
      subst hn
      rw [if_pos (le_antisymm hmn (zero_le))]
      trivial
    case isFalse hn =>
      have h1 : m / n ≤ 1 := div_le_one_of_le₀ hmn (zero_le)
      have h2 : R.round (m / n) ≤ 1 := R.round_one ▸ R.mono h1
      have h3 : R.round (m / n) ≠ ⊤ := ne_top_of_le_ne_top ENNReal.one_ne_top h2
      have h4 : (R.round (m / n)).toNNReal ≤ 1 := by
        have := ENNReal.toNNReal_mono ENNReal.one_ne_top h2
        simpa using this
      simp only [Bool.xor_false, make, if_neg h3, Fl.neg]
      refine R.plus_ofReal' ?_ rfl
      show (0 : ℝ) ≤ (1 : ℝ≥0) + -((R.round (m / n)).toNNReal : ℝ)
      have : ((R.round (m / n)).toNNReal : ℝ) ≤ 1 := by exact_mod_cast h4
      rw [NNReal.coe_one]
      linarith
  · simp only [div, Fl.neg]
    refine R.plus_ofReal' ?_ rfl
    show (0 : ℝ) ≤ (1 : ℝ≥0) + -((0 : ℝ≥0) : ℝ)
    norm_num

end Rounding

namespace Mach
open Fl CNum Spec
variable {M : Machine}

/-- sign bit clear, or NaN -/
def P (x : Mach M) : Prop := Fl.Plus x

/-- not below zero: sign bit clear, a zero, or NaN -/
def N (x : Mach M) : Prop := Fl.NN x

theorem P.n {x : Mach M} (h : P x) : N x := Plus.nn h

theorem lit (m : ℕ) (s : Bool) (e : ℕ) :
    (OfScientific.ofScientific m s e : Mach M) = M.toRounding.ofReal false (OfScientific.ofScientific m s e) := rfl

theorem zero : (0.0 : Mach M) = num false 0 := by
  rw [lit, show (OfScientific.ofScientific 0 true 1 : ℝ) = 0 by norm_num]; exact M.toRounding.ofReal_zero _

/-- a literal that is a small integer is exact -/
theorem lit_nat {m : ℕ} {s : Bool} {e : ℕ} (n : ℕ) (h : (OfScientific.ofScientific m s e : ℝ) = n) (hn : n ≤ 2 ^ 53) :
    (OfScientific.ofScientific m s e : Mach M) = num false n := by
  rw [lit, h]; exact M.toRounding.ofReal_nat n hn

theorem one : (1.0 : Mach M) = num false 1 := by rw [lit_nat 1 (by norm_num) (by norm_num), Nat.cast_one]

theorem plus_lit (m : ℕ) (s : Bool) (e : ℕ) : P (OfScientific.ofScientific m s e : Mach M) :=
  M.toRounding.plus_ofReal (by
    rw [show (OfScientific.ofScientific m s e : ℝ) = ((OfScientific.ofScientific m s e : ℚ≥0) : ℝ) from rfl]
    exact NNRat.cast_nonneg _)

theorem plus_add {a b : Mach M} (ha : P a) (hb : P b) : P (a + b) := M.toRounding.plus_add ha hb
theorem plus_mul {a b : Mach M} (ha : P a) (hb : P b) : P (a * b) := M.toRounding.plus_mul ha hb
theorem plus_div {a b : Mach M} (ha : P a) (hb : P b) : P (a / b) := M.toRounding.plus_div ha hb
theorem nn_add {a b : Mach M} (ha : N a) (hb : N b) : N (a + b) := M.toRounding.nn_add ha hb
theorem nn_mul {a b : Mach M} (ha : N a) (hb : P b) : N (a * b) := M.toRounding.nn_mul ha hb
theorem nn_div {a b : Mach M} (ha : N a) (hb : P b) : N (a / b) := M.toRounding.nn_div ha hb

theorem plus_one_sub_div {a b : Mach M} (ha : P a) (hb : P b) (h : AtMost a b) : P (1.0 - a / b) := by
  rw [one]; exact M.toRounding.plus_one_sub_div ha hb h

theorem cmax_cases (a b : Mach M) : (clt a b = true ∧ cmax a b = b) ∨ (clt a b = false ∧ cmax a b = a) := by
  unfold cmax
  cases clt a b
  · right; exact ⟨rfl, rfl⟩
  · left; exact ⟨rfl, rfl⟩

/-- the larger of a number with the sign bit clear and anything else (NaN included) -/
theorem plus_cmax {a : Mach M} (ha : P a) (b : Mach M) : P (cmax a b) := by
  rcases cmax_cases a b with ⟨h, e⟩ | ⟨_, e⟩ <;> rw [e]
  · exact plus_of_key (lt_of_le_of_lt (key_nonneg (Plus.nn ha)) (lt_true h).2.2)
  · exact ha

/-- the larger of anything and a number with the sign bit clear -/
theorem nn_cmax {b : Mach M} (hb : P b) (h0 : Fl.isNan b = false) (a : Mach M) : N (cmax a b) := by
  rcases cmax_cases a b with ⟨h, e⟩ | ⟨h, e⟩ <;> rw [e]
  · exact Plus.nn hb
  · by_cases ha : Fl.isNan a = true
    · rw [show a = (nan : Fl) from isNan_eq ha]; trivial
    · exact nn_of_key (le_trans (key_nonneg (Plus.nn hb)) (lt_false h (by simpa using ha) h0))

theorem notNegative_iff (x : Mach M) : NotNegative x ↔ N x := by
  unfold NotNegative
  rw [zero]
  constructor
  · intro h
    by_cases hx : Fl.isNan x = true
    · rw [show x = (nan : Fl) from isNan_eq hx]; trivial
    · have hk : (num false 0).key ≤ Fl.key x := lt_false h (by simpa using hx) rfl
      exact nn_of_key (by simpa [key] using hk)
  · intro h
    by_contra hc
    have hk := (lt_true (Bool.eq_true_of_not_eq_false hc)).2.2
    have := key_nonneg h
    simp only [key, NNReal.coe_zero, EReal.coe_zero] at hk
    exact absurd hk (not_lt.mpr this)

theorem nn_csum : ∀ l : List (Mach M), (∀ a ∈ l, N a) → N (csum l) := by
  have key : ∀ (l : List (Mach M)) (a : Mach M), N a → (∀ b ∈ l, N b) → N (l.foldl (· + ·) a) := by
    intro l
    induction l with
    | nil => intro a ha _; exact ha
    | cons b l ih => intro a ha h; exact ih _ (nn_add ha (h b (by simp))) fun c hc => h c (by simp [hc])
  intro l h
  exact key l _ (Plus.nn (plus_lit _ _ _)) h

theorem plus_csum : ∀ l : List (Mach M), (∀ a ∈ l, P a) → P (csum l) := by
  have key : ∀ (l : List (Mach M)) (a : Mach M), P a → (∀ b ∈ l, P b) → P (l.foldl (· + ·) a) := by
    intro l
    induction l with
    | nil => intro a ha _; exact ha
    | cons b l ih => intro a ha h; exact ih _ (plus_add ha (h b (by simp))) fun c hc => h c (by simp [hc])
  intro l h
  exact key l _ (plus_lit _ _ _) h

theorem _root_.ISO.Spec.PlainNumber.plus {x : Mach M} (h : PlainNumber x) : P x := by obtain ⟨m, rfl⟩ := h; rfl

/-- a product of two plain numbers may overflow but is a number -/
theorem mul_isNan {a b : Mach M} (ha : PlainNumber a) (hb : PlainNumber b) : Fl.isNan (a * b) = false := by
  obtain ⟨m, rfl⟩ := ha
  obtain ⟨n, rfl⟩ := hb
  exact M.toRounding.make_not_nan _ _

/-- the quotient of a number by a plain number other than zero is a number -/
theorem div_isNan {a b : Mach M} (ha : Fl.isNan a = false) (hb : PlainNumber b) (h0 : clt 0.0 b = true) : Fl.isNan (a / b) = false := by
  obtain ⟨n, rfl⟩ := hb
  have hn : n ≠ 0 := by
    rintro rfl
    have := (lt_true h0).2.2
    rw [zero] at this
    exact lt_irrefl _ this
  rcases a with ⟨s, m⟩ | ⟨s⟩ | _
  · show (M.toRounding.div _ _).isNan = false
    simp only [Rounding.div, if_neg hn]
    exact M.toRounding.make_not_nan _ _
  · rfl
  · exact Bool.noConfusion (show true = false from ha)

/-- a literal up to 2^53 is a plain number -/
theorem lit_plain (m : ℕ) (s : Bool) (e : ℕ) (h : (OfScientific.ofScientific m s e : ℝ) ≤ 2 ^ 53) :
    PlainNumber (OfScientific.ofScientific m s e : Mach M) := by
  have h0 : 0 ≤ (OfScientific.ofScientific m s e : ℝ) := by
    rw [show (OfScientific.ofScientific m s e : ℝ) = ((OfScientific.ofScientific m s e : ℚ≥0) : ℝ) from rfl]
    exact NNRat.cast_nonneg _
  rw [lit]
  unfold Rounding.ofReal
  split
  · exact ⟨0, rfl⟩
  · rw [decide_eq_false (not_lt.mpr h0), M.toRounding.make_num]
    · exact ⟨_, rfl⟩
    · rw [abs_of_nonneg h0]
      rw [Real.toNNReal_le_iff_le_coe]
      exact_mod_cast h

/-- a literal above 2^-1022 is above zero -/
theorem lit_pos (m : ℕ) (s : Bool) (e : ℕ) (k : ℕ) (hk : k ≤ 1022) (h : (2⁻¹ ^ k : ℝ) ≤ OfScientific.ofScientific m s e) :
    0 < Fl.key (OfScientific.ofScientific m s e : Mach M) := by
  rw [lit]
  have h0 : (0 : ℝ) < 2⁻¹ ^ k := by positivity
  generalize (OfScientific.ofScientific m s e : ℝ) = x at h
  have hx : 0 < x := lt_of_lt_of_le h0 h
  have h1 : (2⁻¹ ^ k : ℝ≥0) ≤ Real.toNNReal |x| := by
    rw [abs_of_pos hx, ← NNReal.coe_le_coe, Real.coe_toNNReal x hx.le]
    push_cast
    exact h
  have h2 := M.mono h1
  rw [M.half k hk] at h2
  have h3 : (0 : ℝ≥0) < 2⁻¹ ^ k := by positivity
  unfold Rounding.ofReal Rounding.make
  rw [if_neg hx.ne', decide_eq_false (not_lt.mpr hx.le)]
  split
  · exact EReal.zero_lt_top
  case isFalse ht =>
    have h4 : (2⁻¹ ^ k : ℝ≥0) ≤ (M.round (Real.toNNReal |x|)).toNNReal := by
      have := ENNReal.toNNReal_mono ht h2
      simpa only [ENNReal.toNNReal_coe] using this
    have h5 : (0 : ℝ≥0) < (M.round (Real.toNNReal |x|)).toNNReal := lt_of_lt_of_le h3 h4
    exact EReal.coe_pos.mpr (NNReal.coe_pos.mpr h5)

/-- the larger of anything and a number above zero -/
theorem plus_cmax_pos {b : Mach M} (hb : 0 < Fl.key b) (h0 : Fl.isNan b = false) (a : Mach M) : P (cmax a b) := by
  rcases cmax_cases a b with ⟨h, e⟩ | ⟨h, e⟩ <;> rw [e]
  · exact plus_of_key hb
  · by_cases ha : Fl.isNan a = true
    · rw [show a = (nan : Fl) from isNan_eq ha]; trivial
    · exact plus_of_key (lt_of_lt_of_le hb (lt_false h (by simpa using ha) h0))

end Mach

end ISO
