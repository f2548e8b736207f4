import Verif.Num.Binary64
import Verif.Lemmas.Machine
import Mathlib.Tactic.Linarith
import Mathlib.Tactic.Positivity
import Mathlib.Tactic.FieldSimp
import Mathlib.Tactic.Ring

/-!
# The rounding error of a sum in binary64
-/

namespace ISO.Binary64
open scoped NNReal ENNReal

theorem nearest_error (x : ℝ) : |(nearest x : ℝ) - x| ≤ 1 / 2 := by
  have h1 := Int.floor_le x
  have h2 := Int.lt_floor_add_one x
  unfold nearest
  split_ifs with a b c <;> push_cast <;> rw [abs_le] <;> constructor <;> linarith

/-- the error of rounding: half a unit of the 53rd digit, or half the least positive number -/
theorem digits_error {x : ℝ} (hx : 0 ≤ x) : |digits x - x| ≤ x / 2 ^ 53 + 2⁻¹ ^ 1075 := by
  have two : (2 : ℝ) ≠ 0 := by norm_num
  rcases hx.lt_or_eq with h0 | h0
  swap
  · subst h0
    rw [digits_zero, sub_zero, abs_zero]
    positivity
  have p := place_pos x
  have h1 : |digits x - x| ≤ 2 ^ lastPlace x / 2 := by
    have e : digits x - x = ((nearest (x / 2 ^ lastPlace x) : ℝ) - x / 2 ^ lastPlace x) * 2 ^ lastPlace x := by
      unfold digits
      rw [sub_mul, div_mul_cancel₀ _ p.ne']
    rw [e, abs_mul, abs_of_pos p]
    have := mul_le_mul_of_nonneg_right (nearest_error (x / 2 ^ lastPlace x)) p.le
    linarith
  refine h1.trans ?_
  have n1 : (0 : ℝ) ≤ x / 2 ^ 53 := by positivity
  have n2 : (0 : ℝ) ≤ 2⁻¹ ^ 1075 := by positivity
  rcases le_or_gt (-1022) (Int.log 2 x) with h | h
  · have hl : lastPlace x = Int.log 2 x - 52 := by unfold lastPlace; omega
    have h3 : (2 : ℝ) ^ Int.log 2 x ≤ x := by
      have := Int.zpow_log_le_self (b := 2) (by norm_num) h0
      exact_mod_cast this
    have e : (2 : ℝ) ^ lastPlace x / 2 = 2 ^ Int.log 2 x / 2 ^ 53 := by
      rw [hl, zpow_sub₀ two, div_div]
      congr 1
    rw [e]
    have : (2 : ℝ) ^ Int.log 2 x / 2 ^ 53 ≤ x / 2 ^ 53 := div_le_div_of_nonneg_right h3 (by positivity)
    exact this.trans (le_add_of_nonneg_right n2)
  · have hl : lastPlace x = -1074 := by unfold lastPlace; omega
    have e : (2 : ℝ) ^ lastPlace x / 2 = 2⁻¹ ^ 1075 := by
      rw [hl, zpow_neg, inv_pow, pow_succ, mul_inv]
      rw [div_eq_mul_inv]
      congr 1
    rw [e]
    exact le_add_of_nonneg_left n1

/-- a rounded real number -/
noncomputable def rnd (x : ℝ) : ℝ := if x < 0 then -digits |x| else digits |x|

theorem rnd_error (x : ℝ) : |rnd x - x| ≤ |x| / 2 ^ 53 + 2⁻¹ ^ 1075 := by
  have h := digits_error (abs_nonneg x)
  unfold rnd
  split_ifs with hx
  · rw [abs_of_neg hx] at h ⊢
    have e : -digits (-x) - x = -(digits (-x) - -x) := by ring
    rw [e, abs_neg]; exact h
  · rw [abs_of_nonneg (not_lt.mp hx)] at h ⊢
    exact h

/-- a real number that is not too large is rounded to a number -/
theorem ofReal_value (s : Bool) {x : ℝ} (h : |x| ≤ 2 ^ 1022) :
    ∃ t m, rounding.ofReal s x = Fl.num t m ∧ (Fl.num t m).value = rnd x := by
  unfold Rounding.ofReal
  by_cases hx : x = 0
  · subst hx
    rw [if_pos rfl]
    refine ⟨s, 0, rfl, ?_⟩
    unfold rnd
    rw [if_neg (lt_irrefl _), abs_zero, digits_zero]
    cases s <;> simp [Fl.value]
  · rw [if_neg hx]
    have hd : digits ((Real.toNNReal |x| : ℝ≥0) : ℝ) = digits |x| := by rw [Real.coe_toNNReal _ (abs_nonneg x)]
    have hb : digits |x| < 2 ^ 1024 := by
      have h1 := (abs_le.mp (digits_error (abs_nonneg x))).2
      have h2 : |x| / 2 ^ 53 ≤ |x| / 1 := div_le_div_of_nonneg_left (abs_nonneg x) one_pos (one_le_pow₀ one_le_two)
      have h3 : (2⁻¹ : ℝ) ^ 1075 ≤ 1 := pow_le_one₀ (by norm_num) (by norm_num)
      have h4 : (2 : ℝ) ^ 1024 = 4 * 2 ^ 1022 := by rw [show 1024 = 1022 + 2 from rfl, pow_add]; ring
      have h5 : (1 : ℝ) ≤ 2 ^ 1022 := one_le_pow₀ (by norm_num)
      rw [h4]
      generalize (2 : ℝ) ^ 1022 = B at h h5
      generalize (2⁻¹ : ℝ) ^ 1075 = e at h1 h3
      linarith
    have hr : rounding.round (Real.toNNReal |x|) = ENNReal.ofReal (digits |x|) := by
      show (if (2 : ℝ) ^ 1024 ≤ digits ((Real.toNNReal |x| : ℝ≥0) : ℝ) then ⊤ else ENNReal.ofReal (digits ((Real.toNNReal |x| : ℝ≥0) : ℝ))) = _
      rw [hd, if_neg (not_le.mpr hb)]
    unfold Rounding.make
    rw [hr, if_neg ENNReal.ofReal_ne_top]
    refine ⟨_, _, rfl, ?_⟩
    have hv : (((ENNReal.ofReal (digits |x|)).toNNReal : ℝ≥0) : ℝ) = digits |x| :=
      ENNReal.toReal_ofReal (digits_nonneg (abs_nonneg x))
    unfold rnd
    by_cases h0 : x < 0
    · rw [decide_eq_true h0, if_pos h0]
      exact congrArg Neg.neg hv
    · rw [decide_eq_false h0, if_neg h0]
      exact hv

/-- the error of a sum of `n` terms -/
theorem step_error {n : ℕ} {s S v A : ℝ} (hA : |S| ≤ A)
    (h : |s - S| ≤ ((1 + 1 / 2 ^ 53) ^ n - 1) * (A + 2⁻¹ ^ 1022)) :
    |rnd (s + v) - (S + v)| ≤ ((1 + 1 / 2 ^ 53) ^ (n + 1) - 1) * (A + |v| + 2⁻¹ ^ 1022) := by
  have h1 := rnd_error (s + v)
  have e0 : (2⁻¹ : ℝ) ^ 1075 = 1 / 2 ^ 53 * 2⁻¹ ^ 1022 := by
    rw [show 1075 = 53 + 1022 from rfl, pow_add, inv_pow, one_div]
  rw [e0] at h1
  have p : (0 : ℝ) ≤ 2⁻¹ ^ 1022 := by positivity
  generalize (2⁻¹ : ℝ) ^ 1022 = η at h h1 p
  have hu : (0 : ℝ) < 1 / 2 ^ 53 := by positivity
  rw [div_eq_mul_one_div] at h1
  generalize (1 : ℝ) / 2 ^ 53 = u at h h1 hu
  have hq : (1 : ℝ) ≤ (1 + u) ^ n := one_le_pow₀ (by linarith)
  rw [pow_succ]
  generalize (1 + u) ^ n = q at h hq
  have t1 : |rnd (s + v) - (S + v)| ≤ |rnd (s + v) - (s + v)| + |s - S| := by
    have : rnd (s + v) - (S + v) = (rnd (s + v) - (s + v)) + (s - S) := by ring
    rw [this]; exact abs_add_le _ _
  have t2 : |s + v| ≤ |s - S| + A + |v| := by
    have : s + v = (s - S) + S + v := by ring
    rw [this]
    exact (abs_add_le _ _).trans (add_le_add ((abs_add_le _ _).trans (by linarith)) le_rfl)
  have t3 : |s + v| * u ≤ (|s - S| + A + |v|) * u := mul_le_mul_of_nonneg_right t2 hu.le
  have t4 : |s - S| * (1 + u) ≤ ((q - 1) * (A + η)) * (1 + u) := mul_le_mul_of_nonneg_right h (by linarith)
  have t5 : 0 ≤ (q - 1) * (1 + u) * |v| := by
    have := abs_nonneg v
    have : 0 ≤ q - 1 := by linarith
    positivity
  nlinarith [abs_nonneg v]

end ISO.Binary64

namespace ISO.Mach
open Spec
open scoped NNReal ENNReal

theorem growth {n : ℕ} (h : n ≤ 744) : (1 + 1 / 2 ^ 53 : ℝ) ^ n - 1 ≤ 1 / 10 ^ 13 := by
  have h1 : (1 + 1 / 2 ^ 53 : ℝ) ^ n ≤ (1 + 1 / 2 ^ 53) ^ 744 := pow_le_pow_right₀ (by norm_num) h
  have h2 : (1 + 1 / 2 ^ 53 : ℝ) ^ 31 ≤ 1 + 32 / 2 ^ 53 := by norm_num
  have h3 : ((1 + 1 / 2 ^ 53 : ℝ) ^ 31) ^ 24 ≤ (1 + 32 / 2 ^ 53) ^ 24 := pow_le_pow_left₀ (by positivity) h2 24
  rw [← pow_mul] at h3
  have h4 : (1 + 32 / 2 ^ 53 : ℝ) ^ 24 ≤ 1 + 1 / 10 ^ 13 := by norm_num
  have h5 : (1 + 1 / 2 ^ 53 : ℝ) ^ n ≤ 1 + 1 / 10 ^ 13 := h1.trans (h3.trans h4)
  linarith

theorem sum_error {M : Machine} (hR : M.toRounding = Binary64.rounding) :
    ∀ (l : List (Mach M)) (v : List ℝ), List.Forall₂ Represents l v → ∀ (n : ℕ) (a : Mach M) (s S A : ℝ), n + l.length ≤ 744 →
      Represents a s → |S| ≤ A → A + (v.map abs).sum ≤ 2 ^ 1000 → |s - S| ≤ ((1 + 1 / 2 ^ 53) ^ n - 1) * (A + 2⁻¹ ^ 1022) →
      ∃ r : ℝ, Represents (l.foldl (· + ·) a) r ∧ |r - (S + v.sum)| ≤ (A + (v.map abs).sum + 2⁻¹ ^ 1022) / 10 ^ 13 := by
  have p : (0 : ℝ) ≤ 2⁻¹ ^ 1022 := by positivity
  have p1 : (2⁻¹ : ℝ) ^ 1022 ≤ 1 := pow_le_one₀ (by norm_num) (by norm_num)
  have p2 : (4 : ℝ) * 2 ^ 1000 ≤ 2 ^ 1022 := by
    rw [show (4 : ℝ) = 2 ^ 2 by norm_num, ← pow_add]
    exact pow_le_pow_right₀ (by norm_num) (by norm_num)
  have p3 : (1 : ℝ) ≤ 2 ^ 1000 := one_le_pow₀ (by norm_num)
  intro l v h
  induction h with
  | nil =>
    intro n a s S A hn ha hA _ he
    refine ⟨s, ha, ?_⟩
    have h0 : 0 ≤ A := (abs_nonneg S).trans hA
    simp only [List.map_nil, List.sum_nil, add_zero]
    refine he.trans ?_
    have := mul_le_mul_of_nonneg_right (growth (n := n) (by simpa using hn)) (show 0 ≤ A + 2⁻¹ ^ 1022 by linarith)
    exact this.trans (le_of_eq (by rw [one_div_mul_eq_div]))
  | @cons x y l v hx _ ih =>
    intro n a s S A hn ha hA hb he
    have h0 : 0 ≤ A := (abs_nonneg S).trans hA
    rw [List.length_cons] at hn
    rw [List.map_cons, List.sum_cons] at hb
    have hsum : 0 ≤ (v.map abs).sum := List.sum_nonneg (by intro z hz; obtain ⟨w, -, rfl⟩ := List.mem_map.mp hz; exact abs_nonneg w)
    have hsmall : |s + y| ≤ 2 ^ 1022 := by
      have g := mul_le_mul_of_nonneg_right (growth (n := n) (by omega)) (show 0 ≤ A + 2⁻¹ ^ 1022 by linarith)
      have t : |s + y| ≤ |s - S| + |S| + |y| := by
        have : s + y = (s - S) + S + y := by ring
        rw [this]
        exact (abs_add_le _ _).trans (add_le_add (abs_add_le _ _) le_rfl)
      have g2 := he.trans g
      generalize (2 : ℝ) ^ 1022 = C at p2
      generalize (2 : ℝ) ^ 1000 = B at hb p2 p3
      generalize (2⁻¹ : ℝ) ^ 1022 = η at p p1 g2
      have : 1 / (10 : ℝ) ^ 13 * (A + η) ≤ A + η := by nlinarith [show (0 : ℝ) ≤ A + η by linarith]
      linarith [abs_nonneg y]
    obtain ⟨t, m, rfl, ht⟩ := ha
    obtain ⟨t', m', rfl, ht'⟩ := hx
    have hadd : Represents ((show Mach M from Fl.num t m) + (show Mach M from Fl.num t' m')) (Binary64.rnd (s + y)) := by
      obtain ⟨q, z, e1, e2⟩ := Binary64.ofReal_value (t && t') hsmall
      refine ⟨q, z, ?_, e2⟩
      show M.toRounding.ofReal (t && t') ((Fl.num t m).value + (Fl.num t' m').value) = _
      rw [ht, ht', hR, e1]
    obtain ⟨r, h1, h2⟩ := ih (n + 1) _ (Binary64.rnd (s + y)) (S + y) (A + |y|) (by omega) hadd
      ((abs_add_le _ _).trans (add_le_add hA le_rfl)) (by linarith) (Binary64.step_error hA he)
    refine ⟨r, h1, ?_⟩
    rw [List.sum_cons, List.map_cons, List.sum_cons, ← add_assoc, ← add_assoc]
    exact h2

end ISO.Mach
