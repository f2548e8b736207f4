import Verif.Lemmas.Machine

/-! # The order of machine numbers that are not below zero -/

namespace ISO
open CNum ISO.Spec
open scoped NNReal ENNReal

namespace Fl

/-- NaN together, otherwise at most -/
def Le (a b : Fl) : Prop := a.isNan = b.isNan ∧ a.key ≤ b.key

theorem isNan_num (s : Bool) (m : ℝ≥0) : (num s m).isNan = false := rfl
theorem isNan_inf (s : Bool) : (inf s).isNan = false := rfl
theorem isNan_nan : nan.isNan = true := rfl

theorem Le.refl (a : Fl) : Le a a := ⟨rfl, le_rfl⟩

theorem le_nan_left {b : Fl} (h : Le nan b) : b = nan := isNan_eq (by rw [← h.1]; rfl)

theorem le_nan_right {a : Fl} (h : Le a nan) : a = nan := isNan_eq (by rw [h.1]; rfl)

/-- the magnitude -/
def mag : Fl → ℝ≥0∞
  | num _ m => m
  | inf _ => ⊤
  | nan => 0

theorem key_mag {a : Fl} (h : NN a) : a.key = ((mag a : ℝ≥0∞) : EReal) := by
  rcases a with ⟨_ | _, m⟩ | ⟨_ | _⟩ | _
  · rfl
  · rcases h with h | h
    · cases h
    · subst h; simp [key, mag]
  · rfl
  · exact Bool.noConfusion h
  · simp [key, mag]

theorem le_iff {a b : Fl} (ha : NN a) (hb : NN b) : Le a b ↔ a.isNan = b.isNan ∧ mag a ≤ mag b := by
  unfold Le
  rw [key_mag ha, key_mag hb, EReal.coe_ennreal_le_coe_ennreal_iff]

end Fl

namespace Rounding
open Fl
variable (R : Rounding)

theorem mag_make (s : Bool) (m : ℝ≥0) : mag (R.make s m) = R.round m := by
  unfold make
  split
  case isTrue h => exact h.symm
  case isFalse h => exact ENNReal.coe_toNNReal h

theorem mag_ofReal (s : Bool) (x : ℝ) : mag (R.ofReal s x) = R.round (Real.toNNReal |x|) := by
  unfold ofReal
  split
  case isTrue h => subst h; simp [mag, R.round_zero]
  case isFalse h => exact R.mag_make _ _

theorem value_mag {s : Bool} {m : ℝ≥0} (h : NN (num s m)) : (num s m).value = m := by
  cases s
  · rfl
  · rcases h with h | h
    · cases h
    · subst h; simp [value]

/-- adding is monotone for numbers not below zero -/
theorem le_add {a b c d : Fl} (ha : NN a) (hb : NN b) (hc : NN c) (hd : NN d) (h1 : Le a c) (h2 : Le b d) : Le (R.add a b) (R.add c d) := by
  have n1 := R.nn_add ha hb
  have n2 := R.nn_add hc hd
  rw [le_iff n1 n2]
  rw [le_iff ha hc] at h1
  rw [le_iff hb hd] at h2
  rcases a with ⟨s, m⟩ | ⟨s⟩ | _ <;> rcases c with ⟨s', m'⟩ | ⟨s'⟩ | _ <;>
    first
    | (exfalso; have := h1.1; simp [isNan] at this; done)
    | skip
  all_goals
    rcases b with ⟨t, n⟩ | ⟨t⟩ | _ <;> rcases d with ⟨t', n'⟩ | ⟨t'⟩ | _ <;>
    first
    | (exfalso; have := h2.1; simp [isNan] at this; done)
    | exact ⟨rfl, le_rfl⟩
    | skip
  case num.num.num.num =>
    refine ⟨?_, ?_⟩
    · simp only [add]; rw [R.ofReal_not_nan, R.ofReal_not_nan]
    · simp only [add]
      rw [R.mag_ofReal, R.mag_ofReal, value_mag ha, value_mag hb, value_mag hc, value_mag hd]
      apply R.mono
      rw [abs_of_nonneg (by positivity), abs_of_nonneg (by positivity)]
      apply Real.toNNReal_mono
      have e1 : m ≤ m' := by have := h1.2; simpa [mag] using this
      have e2 : n ≤ n' := by have := h2.2; simpa [mag] using this
      exact_mod_cast add_le_add e1 e2
  all_goals
    simp only [NN] at ha hb hc hd
    simp_all [add, isNan_num, isNan_inf, isNan_nan, mag, R.ofReal_not_nan]

/-- a positive finite number -/
def _root_.ISO.Fl.Pos (a : Fl) : Prop := ∃ m : ℝ≥0, 0 < m ∧ a = num false m

/-- multiplying is monotone -/
theorem le_mul {a c b d : Fl} (ha : NN a) (hc : NN c) (hb : Pos b) (hd : Pos d) (h1 : Le a c) (h2 : Le b d) : Le (R.mul a b) (R.mul c d) := by
  obtain ⟨n, hn, rfl⟩ := hb
  obtain ⟨n', hn', rfl⟩ := hd
  have n1 := R.nn_mul ha (show Plus (num false n) from rfl)
  have n2 := R.nn_mul hc (show Plus (num false n') from rfl)
  rw [le_iff n1 n2]
  rw [le_iff ha hc] at h1
  rw [le_iff (show Plus (num false _) from rfl).nn (show Plus (num false _) from rfl).nn] at h2
  have e2 : n ≤ n' := by have := h2.2; simpa [mag] using this
  rcases a with ⟨s, m⟩ | ⟨s⟩ | _ <;> rcases c with ⟨s', m'⟩ | ⟨s'⟩ | _ <;>
    first
    | (exfalso; have := h1.1; simp [isNan] at this; done)
    | exact ⟨rfl, le_rfl⟩
    | skip
  case num.num =>
    have e1 : m ≤ m' := by have := h1.2; simpa [mag] using this
    refine ⟨?_, ?_⟩
    · simp only [mul]; rw [R.make_not_nan, R.make_not_nan]
    · simp only [mul]
      rw [R.mag_make, R.mag_make]
      exact R.mono (mul_le_mul' e1 e2)
  all_goals simp_all [mul, isNan_num, isNan_inf, isNan_nan, mag, R.make_not_nan, hn.ne', hn'.ne']

/-- dividing is monotone in the first argument and antitone in the second -/
theorem le_div {a c b d : Fl} (ha : NN a) (hc : NN c) (hb : Pos b) (hd : Pos d) (h1 : Le a c) (h2 : Le d b) : Le (R.div a b) (R.div c d) := by
  obtain ⟨n, hn, rfl⟩ := hb
  obtain ⟨n', hn', rfl⟩ := hd
  have n1 := R.nn_div ha (show Plus (num false n) from rfl)
  have n2 := R.nn_div hc (show Plus (num false n') from rfl)
  rw [le_iff n1 n2]
  rw [le_iff ha hc] at h1
  rw [le_iff (show Plus (num false _) from rfl).nn (show Plus (num false _) from rfl).nn] at h2
  have e2 : n' ≤ n := by have := h2.2; simpa [mag] using this
  rcases a with ⟨s, m⟩ | ⟨s⟩ | _ <;> rcases c with ⟨s', m'⟩ | ⟨s'⟩ | _ <;>
    first
    | (exfalso; have := h1.1; simp [isNan] at this; done)
    | exact ⟨rfl, le_rfl⟩
    | skip
  case num.num =>
    have e1 : m ≤ m' := by have := h1.2; simpa [mag] using this
    refine ⟨?_, ?_⟩
    · simp only [div]; rw [if_neg hn.ne', if_neg hn'.ne', R.make_not_nan, R.make_not_nan]
    · simp only [div]
      rw [if_neg hn.ne', if_neg hn'.ne', R.mag_make, R.mag_make]
      exact R.mono (div_le_div₀ (zero_le) e1 hn' e2)
  all_goals simp_all [div, isNan_num, isNan_inf, isNan_nan, mag, R.make_not_nan, hn.ne', hn'.ne']

/-- a product of numbers that are not below zero and finite -/
theorem le_mul_num {a b c d : ℝ≥0} (h1 : a ≤ c) (h2 : b ≤ d) : Le (R.mul (num false a) (num false b)) (R.mul (num false c) (num false d)) := by
  rw [le_iff (R.plus_mul (a := num false a) (b := num false b) rfl rfl).nn (R.plus_mul (a := num false c) (b := num false d) rfl rfl).nn]
  simp only [mul]
  rw [R.make_not_nan, R.make_not_nan, R.mag_make, R.mag_make]
  exact ⟨rfl, R.mono (mul_le_mul' h1 h2)⟩

end Rounding

namespace Mach
open Fl
variable {M : Machine}

/-- NaN together, otherwise at most -/
def Le (a b : Mach M) : Prop := Fl.Le a b

theorem Le.refl (a : Mach M) : Le a a := Fl.Le.refl a

theorem Le.of_eq {a b : Mach M} (h : a = b) : Le a b := h ▸ Le.refl a

def Pos (a : Mach M) : Prop := Fl.Pos a

theorem Pos.plus {a : Mach M} (h : Pos a) : P a := by obtain ⟨m, -, rfl⟩ := h; rfl

theorem le_add {a b c d : Mach M} (ha : N a) (hb : N b) (hc : N c) (hd : N d) (h1 : Le a c) (h2 : Le b d) : Le (a + b) (c + d) :=
  M.toRounding.le_add ha hb hc hd h1 h2

theorem le_mul {a b c d : Mach M} (ha : N a) (hc : N c) (hb : Pos b) (hd : Pos d) (h1 : Le a c) (h2 : Le b d) : Le (a * b) (c * d) :=
  M.toRounding.le_mul ha hc hb hd h1 h2

theorem le_div {a b c d : Mach M} (ha : N a) (hc : N c) (hb : Pos b) (hd : Pos d) (h1 : Le a c) (h2 : Le d b) : Le (a / b) (c / d) :=
  M.toRounding.le_div ha hc hb hd h1 h2

theorem le_csum : ∀ l l' : List (Mach M), List.Forall₂ (fun a b => N a ∧ N b ∧ Le a b) l l' → Le (csum l) (csum l') := by
  have key : ∀ l l' : List (Mach M), List.Forall₂ (fun a b => N a ∧ N b ∧ Le a b) l l' → ∀ a a' : Mach M, N a → N a' → Le a a' →
      Le (l.foldl (· + ·) a) (l'.foldl (· + ·) a') := by
    intro l l' h
    induction h with
    | nil => intro a a' _ _ h; exact h
    | cons h _ ih =>
      intro a a' ha ha' hl
      exact ih _ _ (nn_add ha h.1) (nn_add ha' h.2.1) (le_add ha h.1 ha' h.2.1 hl h.2.2)
  exact fun l l' h => key l l' h _ _ (plus_lit _ _ _).n (plus_lit _ _ _).n (Le.refl _)

/-- a positive literal -/
theorem pos_lit (m : ℕ) (s : Bool) (e : ℕ) (k : ℕ) (hk : k ≤ 1022) (h : (2⁻¹ ^ k : ℝ) ≤ OfScientific.ofScientific m s e)
    (h' : (OfScientific.ofScientific m s e : ℝ) ≤ 2 ^ 53) : Pos (OfScientific.ofScientific m s e : Mach M) := by
  have h1 := lit_pos (M := M) m s e k hk h
  obtain ⟨n, hn⟩ := lit_plain (M := M) m s e h'
  rw [hn] at h1
  exact ⟨n, by have := EReal.coe_pos.mp (show (0 : EReal) < ((n : ℝ) : EReal) from h1); exact_mod_cast this, hn⟩

/-- a plain number above zero -/
theorem pos_of {a : Mach M} (h : PlainNumber a) (h0 : clt 0.0 a = true) : Pos a := by
  obtain ⟨m, rfl⟩ := h
  refine ⟨m, ?_, rfl⟩
  have := (lt_true h0).2.2
  rw [zero] at this
  have e : (num false 0).key = 0 := by simp [key]
  rw [e] at this
  have := EReal.coe_pos.mp (show (0 : EReal) < ((m : ℝ) : EReal) from this)
  exact_mod_cast this

/-- a number between two whole numbers -/
def Between (a : Mach M) (l h : ℕ) : Prop := ∃ m : ℝ≥0, a = num false m ∧ l ≤ m ∧ m ≤ h

theorem Between.plus {a : Mach M} {l h : ℕ} (ha : Between a l h) : P a := by obtain ⟨m, rfl, -⟩ := ha; rfl

theorem Between.pos {a : Mach M} {l h : ℕ} (ha : Between a l h) (hl : 0 < l) : Pos a := by
  obtain ⟨m, rfl, h1, -⟩ := ha
  exact ⟨m, lt_of_lt_of_le (by exact_mod_cast hl) h1, rfl⟩

theorem make_between {m : ℝ≥0} {l h : ℕ} (h1 : l ≤ m) (h2 : m ≤ h) (hh : h ≤ 2 ^ 53) : Between (M := M) (M.toRounding.make false m) l h := by
  have h53 : m ≤ 2 ^ 53 := h2.trans (by exact_mod_cast hh)
  have hl : l ≤ 2 ^ 53 := by
    have : (l : ℝ≥0) ≤ h := h1.trans h2
    exact le_trans (by exact_mod_cast this) hh
  refine ⟨_, M.toRounding.make_num false h53, ?_, ?_⟩
  · have := ENNReal.toNNReal_mono (M.toRounding.round_ne_top h53) (M.toRounding.le_round h1 hl)
    simpa using this
  · have := ENNReal.toNNReal_mono (by simp) (M.toRounding.round_le h2 hh)
    simpa using this

theorem Between.add {a b : Mach M} {l h l' h' : ℕ} (ha : Between a l h) (hb : Between b l' h') (hh : h + h' ≤ 2 ^ 53) :
    Between (a + b) (l + l') (h + h') := by
  obtain ⟨m, rfl, m1, m2⟩ := ha
  obtain ⟨n, rfl, n1, n2⟩ := hb
  have e : (show Mach M from num false m) + (show Mach M from num false n) = M.toRounding.make false (m + n) := by
    show M.toRounding.ofReal false ((m : ℝ) + n) = _
    unfold Rounding.ofReal
    split
    case isTrue h0 =>
      have : m + n = 0 := by exact_mod_cast h0
      rw [this, M.toRounding.make_zero]
    case isFalse h0 =>
      rw [decide_eq_false (not_lt.mpr (by positivity)), abs_of_nonneg (by positivity)]
      congr 1
      exact_mod_cast Real.toNNReal_coe (r := m + n)
  have := make_between (M := M) (m := m + n) (l := l + l') (h := h + h') (by push_cast; exact add_le_add m1 n1)
    (by push_cast; exact add_le_add m2 n2) hh
  rw [← e] at this
  exact this

theorem Between.le {a : Mach M} {l h : ℕ} (ha : Between a l h) {l' h' : ℕ} (h1 : l' ≤ l) (h2 : h ≤ h') : Between a l' h' := by
  obtain ⟨m, e, m1, m2⟩ := ha
  exact ⟨m, e, le_trans (by exact_mod_cast h1) m1, m2.trans (by exact_mod_cast h2)⟩

theorem between_one : Between (1.0 : Mach M) 1 1 := ⟨1, one, by simp, by simp⟩

/-- one divided by a number of moderate size -/
theorem Between.inv {a : Mach M} {h : ℕ} (ha : Between a 1 h) (k : ℕ) (hk : h ≤ 2 ^ k) (hk' : k ≤ 1022) : Pos (1.0 / a) := by
  obtain ⟨m, rfl, m1, m2⟩ := ha
  rw [one]
  have m1' : (1 : ℝ≥0) ≤ m := by simpa using m1
  have m0 : m ≠ 0 := (lt_of_lt_of_le one_pos m1').ne'
  have e : (show Mach M from num false 1) / (show Mach M from num false m) = M.toRounding.make false (1 / m) := by
    show M.toRounding.div _ _ = _
    simp only [Rounding.div]
    rw [if_neg m0]
    rfl
  have h1 : 1 / m ≤ ((1 : ℕ) : ℝ≥0) := by rw [Nat.cast_one]; exact div_le_one_of_le₀ m1' zero_le
  have h53 : 1 / m ≤ 2 ^ 53 := h1.trans (by norm_num)
  have h2 : (2⁻¹ ^ k : ℝ≥0) ≤ 1 / m := by
    rw [inv_pow, one_div]
    refine inv_anti₀ (pos_iff_ne_zero.mpr m0) (m2.trans ?_)
    exact_mod_cast hk
  show Pos ((show Mach M from num false 1) / (show Mach M from num false m))
  rw [e]
  refine ⟨(M.round (1 / m)).toNNReal, ?_, M.toRounding.make_num false h53⟩
  have := ENNReal.toNNReal_mono (M.toRounding.round_ne_top h53) ((M.half k hk') ▸ M.mono h2)
  rw [ENNReal.toNNReal_coe] at this
  exact lt_of_lt_of_le (by positivity) this

/-- a plain number at most `n` -/
theorem between_of {a b : Mach M} (h : PlainNumber a) (n : ℕ) (hb : b = num false n) (hab : AtMost a b) : Between a 0 n := by
  obtain ⟨m, rfl⟩ := h
  subst hb
  have := lt_false hab rfl rfl
  refine ⟨m, rfl, by simp, ?_⟩
  have h' : ((m : ℝ) : EReal) ≤ (((n : ℝ≥0) : ℝ) : EReal) := this
  rw [EReal.coe_le_coe_iff] at h'
  exact_mod_cast h'

theorem le_of_atMost {a b : Mach M} (ha : PlainNumber a) (hb : PlainNumber b) (h : AtMost a b) : Le a b := by
  obtain ⟨m, rfl⟩ := ha
  obtain ⟨n, rfl⟩ := hb
  exact ⟨rfl, lt_false h rfl rfl⟩

theorem Between.plain {a : Mach M} {l h : ℕ} (ha : Between a l h) : PlainNumber a := by obtain ⟨m, e, -⟩ := ha; exact ⟨m, e⟩

end Mach

end ISO
