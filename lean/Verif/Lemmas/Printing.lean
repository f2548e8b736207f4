import Verif.Lemmas.Numerals
import Mathlib.Data.Nat.Digits.Lemmas
import Mathlib.Algebra.Order.Floor.Ring
import Mathlib.Tactic.Linarith
import Mathlib.Tactic.FieldSimp

/-! # Lemmas for C60: printing numbers -/

namespace ISO.Numerals
open ISO ISO.Properties ISO.Spec.Text

/-! ## rounding -/

theorem nearest_le (y : ℝ) (n : ℤ) : |(nearest y : ℝ) - y| ≤ |(n : ℝ) - y| := by
  have h1 := Int.floor_le y
  have h2 := Int.lt_floor_add_one y
  unfold nearest
  have hn : n ≤ ⌊y⌋ ∨ ⌊y⌋ + 1 ≤ n := by omega
  have key : (n : ℝ) ≤ ⌊y⌋ ∨ (⌊y⌋ : ℝ) + 1 ≤ n := by
    rcases hn with h | h
    · left; exact_mod_cast h
    · right; exact_mod_cast h
  split_ifs with ha hb hc
  · rw [abs_le]
    rcases key with h | h
    · have := neg_le_abs ((n : ℝ) - y); constructor <;> linarith
    · have := le_abs_self ((n : ℝ) - y); constructor <;> linarith
  · push_cast
    rw [abs_le]
    rcases key with h | h
    · have := neg_le_abs ((n : ℝ) - y); constructor <;> linarith
    · have := le_abs_self ((n : ℝ) - y); constructor <;> linarith
  · rw [abs_le]
    rcases key with h | h
    · have := neg_le_abs ((n : ℝ) - y); constructor <;> linarith
    · have := le_abs_self ((n : ℝ) - y); constructor <;> linarith
  · push_cast
    rw [abs_le]
    rcases key with h | h
    · have := neg_le_abs ((n : ℝ) - y); constructor <;> linarith
    · have := le_abs_self ((n : ℝ) - y); constructor <;> linarith

theorem nearest_half (y : ℝ) : |(nearest y : ℝ) - y| ≤ 1 / 2 := by
  have h1 := Int.floor_le y
  have h2 := Int.lt_floor_add_one y
  have a := nearest_le y ⌊y⌋
  have b := nearest_le y (⌊y⌋ + 1)
  push_cast at b
  rw [abs_of_nonpos (by linarith : (⌊y⌋ : ℝ) - y ≤ 0)] at a
  rw [abs_of_pos (by linarith : (0 : ℝ) < (⌊y⌋ : ℝ) + 1 - y)] at b
  linarith

theorem nearest_floor (y : ℝ) : nearest y = ⌊y⌋ ∨ (nearest y = ⌊y⌋ + 1 ∧ (⌊y⌋ : ℝ) < y) := by
  unfold nearest
  split_ifs with ha hb hc
  · exact .inl rfl
  · exact .inr ⟨rfl, by linarith⟩
  · exact .inl rfl
  · exact .inr ⟨rfl, by linarith⟩

theorem le_nearest {y : ℝ} {n : ℤ} (h : (n : ℝ) ≤ y) : n ≤ nearest y := by
  have := Int.le_floor.2 h
  rcases nearest_floor y with e | ⟨e, -⟩ <;> omega

theorem nearest_le_of {y : ℝ} {n : ℤ} (h : y ≤ n) : nearest y ≤ n := by
  rcases nearest_floor y with e | ⟨e, h'⟩
  · rw [e]; exact_mod_cast (Int.floor_le y).trans h
  · rw [e]
    have : (⌊y⌋ : ℝ) < n := h'.trans_le h
    have : ⌊y⌋ < n := by exact_mod_cast this
    omega

theorem ten_pos (z : ℤ) : (0 : ℝ) < (10 : ℝ) ^ z := zpow_pos (by norm_num) z

/-- the scaled number lies between the powers of ten -/
theorem scaled {P : Nat} {x : ℝ} (hx : 0 < x) :
    (10 : ℝ) ^ ((P : ℤ) - 1) ≤ x / (10 : ℝ) ^ (Int.log 10 x - P + 1) ∧ x / (10 : ℝ) ^ (Int.log 10 x - P + 1) < (10 : ℝ) ^ (P : ℤ) := by
  have h1 := Int.zpow_log_le_self (R := ℝ) (b := 10) (by norm_num) hx
  have h2 := Int.lt_zpow_succ_log_self (R := ℝ) (b := 10) (by norm_num) x
  push_cast at h1 h2
  have hp := ten_pos (Int.log 10 x - P + 1)
  constructor
  · rw [le_div_iff₀ hp, ← zpow_add₀ (by norm_num)]
    refine le_trans (le_of_eq ?_) h1
    congr 1; ring
  · rw [div_lt_iff₀ hp, ← zpow_add₀ (by norm_num)]
    refine lt_of_lt_of_eq h2 ?_
    congr 1; ring

theorem nearest_range {P : Nat} (hP : 1 ≤ P) {x : ℝ} (hx : 0 < x) :
    (10 : ℤ) ^ (P - 1) ≤ nearest (x / (10 : ℝ) ^ (Int.log 10 x - P + 1)) ∧ nearest (x / (10 : ℝ) ^ (Int.log 10 x - P + 1)) ≤ 10 ^ P := by
  obtain ⟨h1, h2⟩ := scaled (P := P) hx
  constructor
  · apply le_nearest
    push_cast
    rw [← zpow_natCast, Nat.cast_sub hP]
    exact h1
  · apply nearest_le_of
    push_cast
    rw [← zpow_natCast]
    exact h2.le

/-- the value of the significant digits -/
noncomputable def sigValue (P : Nat) (s : ℕ × ℤ) : ℝ := s.1 * (10 : ℝ) ^ (s.2 - P + 1)

theorem sigValue_eq {P : Nat} (hP : 1 ≤ P) {x : ℝ} (hx : 0 < x) :
    sigValue P (significant P x) = nearest (x / (10 : ℝ) ^ (Int.log 10 x - P + 1)) * (10 : ℝ) ^ (Int.log 10 x - P + 1) := by
  obtain ⟨h1, h2⟩ := nearest_range hP hx
  unfold significant
  simp only
  generalize nearest (x / (10 : ℝ) ^ (Int.log 10 x - P + 1)) = m at *
  have hm0 : 0 ≤ m := le_trans (by positivity) h1
  have hm : ((m.toNat : ℕ) : ℝ) = m := by
    have : ((m.toNat : ℕ) : ℤ) = m := Int.toNat_of_nonneg hm0
    exact_mod_cast congrArg (Int.cast (R := ℝ)) this
  split_ifs with he
  · unfold sigValue
    rw [← hm, he]
    push_cast
    rw [← zpow_natCast, ← zpow_natCast, ← zpow_add₀ (by norm_num), ← zpow_add₀ (by norm_num), Nat.cast_sub hP]
    congr 1; push_cast; ring
  · unfold sigValue
    rw [hm]

theorem significant_range {P : Nat} (hP : 1 ≤ P) {x : ℝ} (hx : 0 < x) :
    10 ^ (P - 1) ≤ (significant P x).1 ∧ (significant P x).1 < 10 ^ P := by
  obtain ⟨h1, h2⟩ := nearest_range hP hx
  unfold significant
  simp only
  generalize nearest (x / (10 : ℝ) ^ (Int.log 10 x - P + 1)) = m at *
  have hm0 : 0 ≤ m := le_trans (by positivity) h1
  obtain ⟨k, rfl⟩ := Int.eq_ofNat_of_zero_le hm0
  have h1' : 10 ^ (P - 1) ≤ k := by exact_mod_cast h1
  have h2' : k ≤ 10 ^ P := by exact_mod_cast h2
  split_ifs with he
  · exact ⟨le_rfl, Nat.pow_lt_pow_right (by norm_num) (by omega)⟩
  · simp only [Int.toNat_natCast] at he ⊢
    exact ⟨h1', lt_of_le_of_ne h2' he⟩

/-- no decimal with `P` digits is closer -/
theorem sigValue_best {P : Nat} (hP : 1 ≤ P) {x : ℝ} (hx : 0 < x) (k j : ℤ) (hk : |k| < 10 ^ P) :
    |sigValue P (significant P x) - x| ≤ |(k : ℝ) * (10 : ℝ) ^ j - x| := by
  rw [sigValue_eq hP hx]
  set X := Int.log 10 x with hX
  have hp := ten_pos (X - P + 1)
  set u := (10 : ℝ) ^ (X - P + 1) with hu
  have lattice : ∀ n : ℤ, |(nearest (x / u) : ℝ) * u - x| ≤ |(n : ℝ) * u - x| := by
    intro n
    have h := nearest_le (x / u) n
    have e : ∀ a : ℝ, |a * u - x| = |a - x / u| * u := by
      intro a
      rw [← abs_of_pos hp, ← abs_mul, abs_of_pos hp]
      congr 1
      field_simp
    rw [e, e]
    exact mul_le_mul_of_nonneg_right h hp.le
  by_cases hj : X - P + 1 ≤ j
  · have : (k : ℝ) * (10 : ℝ) ^ j = ((k * 10 ^ (j - (X - P + 1)).toNat : ℤ) : ℝ) * u := by
      push_cast
      rw [mul_assoc, hu, ← zpow_natCast, ← zpow_add₀ (by norm_num), Int.toNat_of_nonneg (by omega)]
      congr 2; ring
    rw [this]
    exact lattice _
  · have h1 := Int.zpow_log_le_self (R := ℝ) (b := 10) (by norm_num) hx
    push_cast at h1
    have hk' : ((|k| : ℤ) : ℝ) ≤ (10 : ℝ) ^ (P : ℤ) := by
      rw [zpow_natCast]; exact_mod_cast hk.le
    have hle : (k : ℝ) * (10 : ℝ) ^ j ≤ (10 : ℝ) ^ X := by
      calc (k : ℝ) * (10 : ℝ) ^ j ≤ |(k : ℝ)| * (10 : ℝ) ^ j := mul_le_mul_of_nonneg_right (le_abs_self _) (ten_pos j).le
        _ ≤ (10 : ℝ) ^ (P : ℤ) * (10 : ℝ) ^ j := mul_le_mul_of_nonneg_right (by rw [← Int.cast_abs]; exact hk') (ten_pos j).le
        _ = (10 : ℝ) ^ ((P : ℤ) + j) := (zpow_add₀ (by norm_num) _ _).symm
        _ ≤ (10 : ℝ) ^ X := zpow_le_zpow_right₀ (by norm_num) (by omega)
    have hX10 : (10 : ℝ) ^ X = (((10 : ℤ) ^ (P - 1) : ℤ) : ℝ) * u := by
      push_cast
      rw [hu, ← zpow_natCast, ← zpow_add₀ (by norm_num), Nat.cast_sub hP]
      congr 1; push_cast; ring
    have h2 := lattice ((10 : ℤ) ^ (P - 1))
    rw [← hX10] at h2
    rw [abs_of_nonpos (by linarith : (10 : ℝ) ^ X - x ≤ 0)] at h2
    have h3 := neg_le_abs ((k : ℝ) * (10 : ℝ) ^ j - x)
    linarith

theorem sigValue_error {P : Nat} (hP : 1 ≤ P) {x : ℝ} (hx : 0 < x) :
    |sigValue P (significant P x) - x| ≤ x * (10 : ℝ) ^ (1 - (P : ℤ)) / 2 := by
  rw [sigValue_eq hP hx]
  have hp := ten_pos (Int.log 10 x - P + 1)
  have h := nearest_half (x / (10 : ℝ) ^ (Int.log 10 x - P + 1))
  have h1 := Int.zpow_log_le_self (R := ℝ) (b := 10) (by norm_num) hx
  push_cast at h1
  set u := (10 : ℝ) ^ (Int.log 10 x - P + 1) with hu
  have e : |(nearest (x / u) : ℝ) * u - x| = |(nearest (x / u) : ℝ) - x / u| * u := by
    rw [← abs_of_pos hp, ← abs_mul, abs_of_pos hp]
    congr 1
    field_simp
  rw [e]
  have hux : u ≤ x * (10 : ℝ) ^ (1 - (P : ℤ)) := by
    have : u = (10 : ℝ) ^ (Int.log 10 x) * (10 : ℝ) ^ (1 - (P : ℤ)) := by
      rw [hu, ← zpow_add₀ (by norm_num)]; congr 1; ring
    rw [this]
    exact mul_le_mul_of_nonneg_right h1 (ten_pos _).le
  calc |(nearest (x / u) : ℝ) - x / u| * u ≤ 1 / 2 * u := mul_le_mul_of_nonneg_right h hp.le
    _ ≤ _ := by linarith

/-! ## digits -/

theorem digitChar_spec {d : Nat} (h : d < 10) : Digit (digitChar d) d := by
  refine ⟨h, ?_⟩
  interval_cases d <;> rfl

theorem digitVal_digitChar {d : Nat} (h : d < 10) : isDigit (digitChar d) = true ∧ digitVal (digitChar d) = d := (digit_iff _ _).1 (digitChar_spec h)

theorem showNat_digits (n : Nat) : ∀ c ∈ showNat n, isDigit c = true := by
  intro c hc
  unfold showNat at hc
  rw [List.mem_map] at hc
  obtain ⟨d, hd, rfl⟩ := hc
  exact (digitVal_digitChar (Nat.digits_lt_base (by norm_num) (List.mem_reverse.1 hd))).1

theorem digitsVal_eq (s : Str) : digitsVal s = Nat.ofDigits 10 (s.map digitVal).reverse := foldl_ofDigits 10 digitVal s

theorem digitsVal_showNat (n : Nat) : digitsVal (showNat n) = n := by
  rw [digitsVal_eq]
  have : (showNat n).map digitVal = (Nat.digits 10 n).reverse := by
    unfold showNat
    rw [List.map_map]
    conv_rhs => rw [← List.map_id (Nat.digits 10 n).reverse]
    apply List.map_congr_left
    intro d hd
    exact (digitVal_digitChar (Nat.digits_lt_base (by norm_num) (List.mem_reverse.1 hd))).2
  rw [this, List.reverse_reverse, Nat.ofDigits_digits]

theorem showNat_length {P n : Nat} (hP : 1 ≤ P) (h1 : 10 ^ (P - 1) ≤ n) (h2 : n < 10 ^ P) : (showNat n).length = P := by
  unfold showNat
  rw [List.length_map, List.length_reverse]
  apply le_antisymm
  · exact (Nat.digits_length_le_iff (by norm_num) n).2 h2
  · have := (Nat.lt_digits_length_iff (b := 10) (k := P - 1) (by norm_num) n).2 h1
    omega

theorem digitsVal_append_zeros (s : Str) (k : Nat) : digitsVal (s ++ List.replicate k '0') = digitsVal s * 10 ^ k := by
  induction k with
  | zero => simp
  | succ k ih =>
    rw [List.replicate_succ', ← List.append_assoc]
    unfold digitsVal at *
    rw [List.foldl_append, ih]
    simp only [List.foldl_cons, List.foldl_nil]
    rw [show digitVal '0' = 0 from rfl]
    ring

theorem digitsVal_zeros_append (k : Nat) (s : Str) : digitsVal (List.replicate k '0' ++ s) = digitsVal s := by
  induction k with
  | zero => rfl
  | succ k ih => rw [← ih]; rfl

theorem strip_spec (f : Str) : ∃ k, f = strip f ++ List.replicate k '0' := by
  refine ⟨(f.rtakeWhile (· == '0')).length, ?_⟩
  have h := List.rdropWhile_append_rtakeWhile (p := (· == '0')) (l := f)
  conv_lhs => rw [← h]
  congr 1
  apply List.eq_replicate_of_mem
  intro c hc
  have := List.mem_rtakeWhile_imp hc
  simpa using this

/-- digits with the zeros at the end left out are a mantissa of the same value -/
theorem mantissa_pointAnd {i f : Str} (hi : ∀ c ∈ i, isDigit c = true) (hn : i ≠ []) (hf : ∀ c ∈ f, isDigit c = true) :
    ∃ n k, Mantissa Digit 10 (i ++ pointAnd f) n k ∧ (n : ℚ) / 10 ^ k = digitsVal (i ++ f) / 10 ^ f.length := by
  obtain ⟨z, hz⟩ := strip_spec f
  have hs : ∀ c ∈ strip f, isDigit c = true := fun c hc => hf c (by rw [hz]; exact List.mem_append_left _ hc)
  have hd : ∀ c ∈ i ++ strip f, isDigit c = true := by
    intro c hc; rcases List.mem_append.1 hc with h | h
    · exact hi c h
    · exact hs c h
  refine ⟨digitsVal (i ++ strip f), (strip f).length, (mantissa_spec base10 _ _ _).2 ⟨i, strip f, ⟨hd, by simp [hn], ?_⟩, rfl, rfl⟩, ?_⟩
  · unfold pointAnd
    split_ifs with h
    · left; exact ⟨by simp, h⟩
    · right; rfl
  · have hv : digitsVal (i ++ f) = digitsVal (i ++ strip f) * 10 ^ z := by
      conv_lhs => rw [hz, ← List.append_assoc]
      exact digitsVal_append_zeros _ _
    have hl : f.length = (strip f).length + z := by
      conv_lhs => rw [hz]
      simp
    rw [hv, hl, pow_add]
    push_cast
    rw [mul_div_mul_right _ _ (by positivity)]

theorem showNat_ne {n : Nat} (h : 0 < n) : showNat n ≠ [] := by
  unfold showNat
  simp [Nat.digits_ne_nil_iff_ne_zero.2 (by omega : n ≠ 0)]

theorem exponent_show (X : Int) : Exponent ['e', 'E'] (showExponent X) X := by
  have hg : Sign [if X < 0 then '-' else '+'] (if X < 0 then -1 else 1) := by
    split_ifs
    · exact .minus
    · exact .plus
  have hd : ∃ d : Str, showExponent X = 'e' :: ([if X < 0 then '-' else '+'] ++ d) ∧ d ≠ [] ∧ (∀ c ∈ d, isDigit c = true) ∧ digitsVal d = X.natAbs := by
    unfold showExponent
    by_cases h10 : X.natAbs < 10
    · by_cases h0 : X = 0
      · refine ⟨['0', '0'], ?_, by simp, by decide, by rw [h0]; rfl⟩
        simp [h0]
      · refine ⟨'0' :: showNat X.natAbs, by simp [h10, h0], by simp, ?_, ?_⟩
        · intro c hc
          rcases List.mem_cons.1 hc with rfl | hc
          · rfl
          · exact showNat_digits _ c hc
        · exact (digitsVal_zeros_append 1 _).trans (digitsVal_showNat _)
    · exact ⟨showNat X.natAbs, by simp [h10], showNat_ne (by omega), showNat_digits _, digitsVal_showNat _⟩
  obtain ⟨d, h1, h2, h3, h4⟩ := hd
  have := Exponent.some (letters := ['e', 'E']) 'e' _ d _ _ (by simp) hg h2 ((digits_iff base10 d _).2 ⟨h3, rfl⟩)
  rw [h1]
  have e : (if X < 0 then (-1 : Int) else 1) * ((d.foldl (fun n c => 10 * n + digitVal c) 0 : Nat) : Int) = X := by
    have : d.foldl (fun n c => 10 * n + digitVal c) 0 = X.natAbs := h4
    rw [this]
    split_ifs <;> omega
  rw [e] at this
  exact this

theorem layout_numeral {P m : Nat} {X : Int} (hP : 1 ≤ P) (h1 : 10 ^ (P - 1) ≤ m) (h2 : m < 10 ^ P) :
    Unsigned (layout P m X) (.number (m * (10 : ℚ) ^ (X - P + 1))) := by
  have hm : 0 < m := lt_of_lt_of_le (by positivity) h1
  have hlen := showNat_length hP h1 h2
  have hdig := showNat_digits m
  have hval := digitsVal_showNat m
  have hne := showNat_ne hm
  unfold layout
  simp only
  generalize showNat m = d at *
  have htake : ∀ k, ∀ c ∈ d.take k, isDigit c = true := fun k c hc => hdig c (List.mem_of_mem_take hc)
  have hdrop : ∀ k, ∀ c ∈ d.drop k, isDigit c = true := fun k c hc => hdig c (List.mem_of_mem_drop hc)
  have hk : ∀ k, d.take (k + 1) ≠ [] := by
    intro k h
    cases d with
    | nil => exact hne rfl
    | cons a t => simp at h
  have none10 : Exponent ['e', 'E'] [] 0 := .none
  split_ifs with hr h0
  · obtain ⟨n, k, hM, hv⟩ := mantissa_pointAnd (htake (X.toNat + 1)) (hk _) (hdrop (X.toNat + 1))
    have := Unsigned.decimal _ _ _ _ _ hM none10
    rw [List.append_nil, zpow_zero, mul_one, hv, List.take_append_drop, hval] at this
    convert this using 2
    rw [List.length_drop, hlen, div_eq_mul_inv, ← zpow_natCast, ← zpow_neg]
    congr 2
    rw [Nat.cast_sub (by omega)]
    push_cast
    rw [Int.toNat_of_nonneg h0]; ring
  · have hz : ∀ c ∈ List.replicate (-X - 1).toNat '0' ++ d, isDigit c = true := by
      intro c hc
      rcases List.mem_append.1 hc with hc | hc
      · rw [(List.mem_replicate.1 hc).2]; rfl
      · exact hdig c hc
    obtain ⟨n, k, hM, hv⟩ := mantissa_pointAnd (i := ['0']) (by decide) (by simp) hz
    have := Unsigned.decimal _ _ _ _ _ hM none10
    rw [List.append_nil, zpow_zero, mul_one, hv] at this
    have e : digitsVal (['0'] ++ (List.replicate (-X - 1).toNat '0' ++ d)) = m := by
      exact (digitsVal_zeros_append 1 (List.replicate (-X - 1).toNat '0' ++ d)).trans ((digitsVal_zeros_append _ _).trans hval)
    rw [e] at this
    have e2 : (m : ℚ) * (10 : ℚ) ^ (X - P + 1) = m / 10 ^ (List.replicate (-X - 1).toNat '0' ++ d).length := by
      rw [List.length_append, List.length_replicate, hlen, div_eq_mul_inv, ← zpow_natCast, ← zpow_neg]
      congr 2
      push_cast
      omega
    rw [e2]
    exact this
  · obtain ⟨n, k, hM, hv⟩ := mantissa_pointAnd (htake 1) (hk 0) (hdrop 1)
    have := Unsigned.decimal _ _ _ _ _ hM (exponent_show X)
    rw [List.take_append_drop, hval] at hv
    have e : (n : ℚ) * (10 : ℚ) ^ X / 10 ^ k = m * (10 : ℚ) ^ (X - P + 1) := by
      rw [mul_div_right_comm, hv, List.length_drop, hlen, div_eq_mul_inv, ← zpow_natCast, ← zpow_neg, mul_assoc, ← zpow_add₀ (by norm_num)]
      congr 2
      rw [Nat.cast_sub hP]; push_cast; ring
    rw [e] at this
    exact this

/-- what is printed for a number other than zero -/
theorem print_fin {P : Nat} {x : ℝ} (hx : x ≠ 0) :
    Numeral (print P (.fin x)) (.number ((if x < 0 then -1 else 1) * ((significant (max P 1) |x|).1 * (10 : ℚ) ^ ((significant (max P 1) |x|).2 - (max P 1 : ℕ) + 1)))) := by
  have hP : 1 ≤ max P 1 := le_max_right _ _
  obtain ⟨h1, h2⟩ := significant_range hP (abs_pos.2 hx)
  have hU := layout_numeral (X := (significant (max P 1) |x|).2) hP h1 h2
  unfold print
  simp only [if_neg hx]
  split_ifs with h
  · rw [neg_one_mul]; exact .minus _ _ hU
  · rw [one_mul]; exact .plain [] _ _ .none hU

theorem number_whole {p : Str} {v : Value} (h : Numeral p v) : strtod p = some (v, []) := by
  obtain ⟨v', r', h1, h2, h3⟩ := strtod_munch (b := []) (by simp) h []
  have : r' = [] := List.length_eq_zero_iff.1 (by simpa using h2)
  rw [List.nil_append, List.append_nil, h3 rfl, this] at h1
  exact h1

/-! ## characters -/

/-- the characters of printed numbers -/
def Printed (c : Char) : Prop := isDigit c = true ∨ c ∈ ['.', 'e', '+', '-', 'i', 'n', 'f', 'a']

theorem printed_pointAnd {f : Str} (h : ∀ c ∈ f, isDigit c = true) : ∀ c ∈ pointAnd f, Printed c := by
  obtain ⟨z, hz⟩ := strip_spec f
  unfold pointAnd
  split_ifs with h0
  · simp
  · intro c hc
    rcases List.mem_cons.1 hc with rfl | hc
    · exact .inr (by simp)
    · exact .inl (h c (by rw [hz]; exact List.mem_append_left _ hc))

theorem printed_layout (P m : Nat) (X : Int) : ∀ c ∈ layout P m X, Printed c := by
  have hdig := showNat_digits m
  unfold layout
  simp only
  generalize showNat m = d at *
  have htake : ∀ k, ∀ c ∈ d.take k, isDigit c = true := fun k c hc => hdig c (List.mem_of_mem_take hc)
  have hdrop : ∀ k, ∀ c ∈ d.drop k, isDigit c = true := fun k c hc => hdig c (List.mem_of_mem_drop hc)
  split_ifs with hr h0
  · intro c hc
    rcases List.mem_append.1 hc with hc | hc
    · exact .inl (htake _ c hc)
    · exact printed_pointAnd (hdrop _) c hc
  · intro c hc
    rcases List.mem_cons.1 hc with rfl | hc
    · exact .inl rfl
    · refine printed_pointAnd ?_ c hc
      intro c hc
      rcases List.mem_append.1 hc with hc | hc
      · rw [(List.mem_replicate.1 hc).2]; rfl
      · exact hdig c hc
  · intro c hc
    rcases List.mem_append.1 hc with hc | hc
    · rcases List.mem_append.1 hc with hc | hc
      · exact .inl (htake _ c hc)
      · exact printed_pointAnd (hdrop _) c hc
    · unfold showExponent at hc
      rcases List.mem_cons.1 hc with rfl | hc
      · exact .inr (by simp)
      · rcases List.mem_cons.1 hc with rfl | hc
        · right; split_ifs <;> simp
        · left
          split_ifs at hc
          · rcases List.mem_cons.1 hc with rfl | hc
            · rfl
            · rcases List.mem_cons.1 hc with rfl | hc
              · rfl
              · simp at hc
          · rcases List.mem_cons.1 hc with rfl | hc
            · rfl
            · exact showNat_digits _ c hc
          · exact showNat_digits _ c hc

theorem printed_print (P : Nat) (x : Dbl) : print P x ≠ [] ∧ ∀ c ∈ print P x, Printed c := by
  cases x with
  | nan =>
    change "nan".toList ≠ [] ∧ ∀ c ∈ "nan".toList, Printed c
    exact ⟨by decide, fun c hc => .inr (by revert c; decide)⟩
  | pinf =>
    change "inf".toList ≠ [] ∧ ∀ c ∈ "inf".toList, Printed c
    exact ⟨by decide, fun c hc => .inr (by revert c; decide)⟩
  | ninf =>
    change "-inf".toList ≠ [] ∧ ∀ c ∈ "-inf".toList, Printed c
    exact ⟨by decide, fun c hc => .inr (by revert c; decide)⟩
  | fin x =>
    by_cases hx : x = 0
    · subst hx
      have : print P (.fin 0) = ['0'] := by unfold print; simp
      rw [this]
      exact ⟨by simp, fun c hc => .inl (by revert c; decide)⟩
    · refine ⟨fun h0 => ?_, ?_⟩
      · have := print_fin (P := P) hx
        rw [h0] at this
        have := number_whole this
        exact absurd this (by simp [strtod, sign, unsigned, hexadecimal, decimal, mantissa, word, lower])
      · unfold print
        simp only [if_neg hx]
        intro c hc
        rcases List.mem_append.1 hc with hc | hc
        · right
          split_ifs at hc
          · rcases List.mem_singleton.1 hc with rfl; simp
          · simp at hc
        · exact printed_layout _ _ _ c hc

end ISO.Numerals
