import Verif.Num.Machine
import Mathlib.Data.Int.Log
import Mathlib.Algebra.Order.Floor.Ring
import Mathlib.Algebra.Order.Floor.Semiring

/-!
# The rounding of binary64

To nearest, ties to even, with gradual underflow, and overflow to infinity (IEEE-754, the default mode, the one of `double` on the usual
machines).
-/

namespace ISO.Binary64
open scoped NNReal ENNReal

/-- the nearest integer, the even one of two -/
noncomputable def nearest (x : ℝ) : ℤ :=
  if x - ⌊x⌋ < 1 / 2 then ⌊x⌋ else if 1 / 2 < x - ⌊x⌋ then ⌊x⌋ + 1 else if Even ⌊x⌋ then ⌊x⌋ else ⌊x⌋ + 1

/-- the exponent of the last place of a number: 53 digits, but not below 2^-1074 -/
noncomputable def lastPlace (x : ℝ) : ℤ := max (Int.log 2 x) (-1022) - 52

/-- a magnitude rounded to 53 digits, without regard to overflow -/
noncomputable def digits (x : ℝ) : ℝ := nearest (x / 2 ^ lastPlace x) * 2 ^ lastPlace x

theorem nearest_int (n : ℤ) : nearest n = n := by
  unfold nearest; rw [Int.floor_intCast, if_pos (by norm_num)]

theorem nearest_ge_floor (x : ℝ) : ⌊x⌋ ≤ nearest x := by
  unfold nearest; split_ifs <;> omega

theorem nearest_le_floor (x : ℝ) : nearest x ≤ ⌊x⌋ + 1 := by
  unfold nearest; split_ifs <;> omega

theorem nearest_mono : Monotone nearest := by
  intro x y h
  have hf := Int.floor_le_floor h
  rcases hf.lt_or_eq with h1 | h1
  · exact le_trans (nearest_le_floor x) (le_trans (by omega) (nearest_ge_floor y))
  · unfold nearest
    rw [h1]
    have : x - ⌊y⌋ ≤ y - ⌊y⌋ := by linarith
    split_ifs <;> first | omega | (exfalso; linarith)

theorem place_pos (x : ℝ) : (0 : ℝ) < 2 ^ lastPlace x := by positivity

theorem digits_nonneg {x : ℝ} (h : 0 ≤ x) : 0 ≤ digits x := by
  have : (0 : ℤ) ≤ nearest (x / 2 ^ lastPlace x) :=
    le_trans (Int.floor_nonneg.mpr (div_nonneg h (place_pos x).le)) (nearest_ge_floor _)
  exact mul_nonneg (by exact_mod_cast this) (place_pos x).le

/-- multiples of the last place are kept -/
theorem digits_of_multiple {x : ℝ} (n : ℤ) (h : x = n * 2 ^ lastPlace x) : digits x = x := by
  have h1 : x / 2 ^ lastPlace x = n := by rw [div_eq_iff (place_pos x).ne']; exact h
  unfold digits
  rw [h1, nearest_int, ← h]

/-- every number of at most 53 digits is kept -/
theorem digits_exact (n : ℕ) (e : ℤ) (hn : n ≤ 2 ^ 53) (he : -1074 ≤ e) : digits (n * 2 ^ e) = n * 2 ^ e := by
  have two : (2 : ℝ) ≠ 0 := by norm_num
  rcases Nat.eq_zero_or_pos n with h0 | h0
  · subst h0
    exact digits_of_multiple 0 (by simp)
  by_cases h : lastPlace (n * 2 ^ e) ≤ e
  · refine digits_of_multiple ((n : ℤ) * 2 ^ (e - lastPlace ((n : ℝ) * 2 ^ e)).toNat) ?_
    generalize lastPlace ((n : ℝ) * 2 ^ e) = l at h
    push_cast
    rw [mul_assoc, ← zpow_natCast, ← zpow_add₀ two, Int.toNat_of_nonneg (by omega)]
    congr 2
    omega
  · have hl : lastPlace ((n : ℝ) * 2 ^ e) = Int.log 2 ((n : ℝ) * 2 ^ e) - 52 := by unfold lastPlace at h ⊢; omega
    have hx : (0 : ℝ) < n * 2 ^ e := by
      have : (0 : ℝ) < n := by exact_mod_cast h0
      positivity
    have h1 : (2 : ℝ) ^ Int.log 2 ((n : ℝ) * 2 ^ e) ≤ n * 2 ^ e := by
      have := Int.zpow_log_le_self (b := 2) (by norm_num) hx
      exact_mod_cast this
    have h2 : (n : ℝ) * 2 ^ e ≤ 2 ^ (e + 53) := by
      rw [zpow_add₀ two, mul_comm]
      refine mul_le_mul_of_nonneg_left ?_ (by positivity)
      exact_mod_cast hn
    have h3 : e + 53 ≤ Int.log 2 ((n : ℝ) * 2 ^ e) := by omega
    have h4 : (2 : ℝ) ^ (e + 53) ≤ 2 ^ Int.log 2 ((n : ℝ) * 2 ^ e) := zpow_le_zpow_right₀ (by norm_num) h3
    have h5 : (n : ℝ) * 2 ^ e = 2 ^ Int.log 2 ((n : ℝ) * 2 ^ e) := le_antisymm (le_trans h2 h4) h1
    refine digits_of_multiple (2 ^ 52) ?_
    rw [hl, Int.cast_pow, Int.cast_ofNat, ← zpow_natCast, ← zpow_add₀ two]
    refine h5.trans ?_
    congr 1
    push_cast
    ring

theorem digits_zero : digits 0 = 0 := by simpa using digits_exact 0 0 (by norm_num) (by norm_num)

/-- rounding does not leave the binade -/
theorem digits_le {x : ℝ} (_ : 0 ≤ x) : digits x ≤ 2 ^ (lastPlace x + 53) := by
  have two : (2 : ℝ) ≠ 0 := by norm_num
  have h1 : x < 2 ^ (Int.log 2 x + 1) := by
    have := Int.lt_zpow_succ_log_self (b := 2) (by norm_num) x
    exact_mod_cast this
  have h2 : (2 : ℝ) ^ (Int.log 2 x + 1) ≤ 2 ^ (lastPlace x + 53) := zpow_le_zpow_right₀ (by norm_num) (by unfold lastPlace; omega)
  have h3 : x / 2 ^ lastPlace x ≤ ((2 ^ 53 : ℤ) : ℝ) := by
    rw [div_le_iff₀ (place_pos x)]
    refine le_trans (h1.le.trans h2) (le_of_eq ?_)
    rw [zpow_add₀ two, mul_comm]
    norm_num
  have h4 := nearest_mono h3
  rw [nearest_int] at h4
  unfold digits
  rw [zpow_add₀ two, mul_comm]
  refine mul_le_mul_of_nonneg_left ?_ (place_pos x).le
  exact_mod_cast h4

theorem le_digits {x : ℝ} (hx : 0 < x) (h : -1022 ≤ Int.log 2 x) : 2 ^ Int.log 2 x ≤ digits x := by
  have two : (2 : ℝ) ≠ 0 := by norm_num
  have h1 : (2 : ℝ) ^ Int.log 2 x ≤ x := by
    have := Int.zpow_log_le_self (b := 2) (by norm_num) hx
    exact_mod_cast this
  have hl : lastPlace x = Int.log 2 x - 52 := by unfold lastPlace; omega
  have h2 : (2 : ℝ) ^ Int.log 2 x = 2 ^ (52 : ℕ) * 2 ^ lastPlace x := by
    rw [hl, ← zpow_natCast, ← zpow_add₀ two]; congr 1; push_cast; ring
  have h3 : ((2 ^ 52 : ℤ) : ℝ) ≤ x / 2 ^ lastPlace x := by
    rw [le_div_iff₀ (place_pos x)]
    refine le_trans (le_of_eq ?_) h1
    rw [h2]; norm_num
  have h4 := nearest_mono h3
  rw [nearest_int] at h4
  unfold digits
  rw [h2]
  refine mul_le_mul_of_nonneg_right ?_ (place_pos x).le
  exact_mod_cast h4

theorem digits_mono {x y : ℝ} (hx : 0 ≤ x) (h : x ≤ y) : digits x ≤ digits y := by
  rcases hx.lt_or_eq with hx | hx
  · have hlog : Int.log 2 x ≤ Int.log 2 y := Int.log_mono_right hx h
    have hp : lastPlace x ≤ lastPlace y := by unfold lastPlace; omega
    rcases hp.lt_or_eq with h1 | h1
    · have h2 : lastPlace x + 53 ≤ Int.log 2 y := by unfold lastPlace at h1 ⊢; omega
      have h3 : -1022 ≤ Int.log 2 y := by unfold lastPlace at h1; omega
      exact le_trans (digits_le hx.le) (le_trans (zpow_le_zpow_right₀ (by norm_num) h2) (le_digits (lt_of_lt_of_le hx h) h3))
    · unfold digits
      rw [h1]
      refine mul_le_mul_of_nonneg_right ?_ (place_pos y).le
      exact_mod_cast nearest_mono (div_le_div_of_nonneg_right h (place_pos y).le)
  · subst hx
    rw [digits_zero]
    exact digits_nonneg h

theorem digits_idem {x : ℝ} (hx : 0 ≤ x) : digits (digits x) = digits x := by
  have h1 : (0 : ℤ) ≤ nearest (x / 2 ^ lastPlace x) :=
    le_trans (Int.floor_nonneg.mpr (div_nonneg hx (place_pos x).le)) (nearest_ge_floor _)
  obtain ⟨n, hn⟩ := Int.eq_ofNat_of_zero_le h1
  have h2 : digits x = n * 2 ^ lastPlace x := by unfold digits; rw [hn]; push_cast; rfl
  have h3 := digits_le hx
  rw [h2, zpow_add₀ (by norm_num : (2 : ℝ) ≠ 0), mul_comm, mul_le_mul_iff_right₀ (place_pos x)] at h3
  have h4 : n ≤ 2 ^ 53 := by exact_mod_cast h3
  rw [h2]
  exact digits_exact n _ h4 (by unfold lastPlace; omega)

/-- the rounding of binary64 -/
noncomputable def rounding : Rounding where
  round x := if (2 : ℝ) ^ 1024 ≤ digits x then ⊤ else ENNReal.ofReal (digits x)
  mono := by
    intro x y h
    have hd := digits_mono (NNReal.coe_nonneg x) (show (x : ℝ) ≤ y by exact_mod_cast h)
    dsimp only
    split_ifs with h1 h2
    · exact le_rfl
    · exact absurd (le_trans h1 hd) h2
    · exact le_top
    · exact ENNReal.ofReal_le_ofReal hd
  idem := by
    intro x y h
    split_ifs at h with h1
    · exact absurd h.symm ENNReal.coe_ne_top
    · have hy : (y : ℝ) = digits x := by
        have := congrArg ENNReal.toReal h
        rw [ENNReal.toReal_ofReal (digits_nonneg (NNReal.coe_nonneg x))] at this
        exact this.symm
      have hd : digits y = y := by rw [hy]; exact digits_idem (NNReal.coe_nonneg x)
      rw [hd, if_neg (by rw [hy]; exact h1), ENNReal.ofReal_coe_nnreal]
  int := by
    intro n hn
    have h1 : digits ((n : ℝ≥0) : ℝ) = n := by
      have := digits_exact n 0 hn (by norm_num)
      simpa using this
    have h2 : (n : ℝ) < 2 ^ 1024 := by
      refine lt_of_le_of_lt (b := (2 : ℝ) ^ 53) (by exact_mod_cast hn) ?_
      exact pow_lt_pow_right₀ (by norm_num) (by norm_num)
    rw [h1, if_neg (not_le.mpr h2), ENNReal.ofReal_natCast]
  half := by
    intro k hk
    have h0 : (((2⁻¹ ^ k : ℝ≥0)) : ℝ) = 2⁻¹ ^ k := by push_cast; rfl
    have h1 : digits ((2⁻¹ ^ k : ℝ≥0) : ℝ) = 2⁻¹ ^ k := by
      have := digits_exact 1 (-k) (by norm_num) (by omega)
      rw [h0]
      simpa [zpow_neg, inv_pow] using this
    have h2 : ((2⁻¹ : ℝ) ^ k) < 2 ^ 1024 := by
      refine lt_of_le_of_lt (b := 1) (pow_le_one₀ (by norm_num) (by norm_num)) ?_
      exact one_lt_pow₀ (by norm_num) (by norm_num)
    rw [h1, if_neg (not_le.mpr h2), ← h0, ENNReal.ofReal_coe_nnreal]

end ISO.Binary64
