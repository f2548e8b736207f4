import Verif.Lemmas.Numerals

/-!
# C59: which number a text stands for
-/

namespace ISO.Props
open ISO ISO.Numerals ISO.Properties ISO.Spec.Text

/-- a text stands for at most one value -/
theorem C59_unique {p : Str} {v v' : Value} (h : Numeral p v) (h' : Numeral p v') : v = v' := by
  obtain ⟨a, r, h1, -, h3⟩ := strtod_munch (b := []) (by simp) h []
  obtain ⟨a', r', h1', -, h3'⟩ := strtod_munch (b := []) (by simp) h' []
  rw [h1] at h1'
  simp only [Option.some.injEq, Prod.mk.injEq] at h1'
  rw [← h3 rfl, ← h3' rfl, h1'.1]

/-- **C59.** `strtod` reads the longest number that follows the white space at the start of the text. -/
theorem C59_longest (text : Str) (v : Value) : (∃ rest, strtod text = some (v, rest)) ↔ ∃ p, Reads text p v := by
  constructor
  · rintro ⟨rest, h⟩
    obtain ⟨b, p, rfl, hb, hp⟩ := strtod_sound h
    refine ⟨p, b, rest, rfl, hb, hp, fun b' p' rest' v' e hb' hp' => ?_⟩
    obtain ⟨v'', r'', h1, h2, -⟩ := strtod_munch hb' hp' rest'
    rw [← e, h] at h1
    simp only [Option.some.injEq, Prod.mk.injEq] at h1
    obtain ⟨rfl, rfl⟩ := h1
    have hl := congrArg List.length (show p ++ rest = p' ++ rest' by rw [← skip_blanks hb hp, e, skip_blanks hb' hp'])
    simp only [List.length_append] at hl
    omega
  · rintro ⟨p, b, rest, rfl, hb, hp, hmax⟩
    obtain ⟨v', r', h1, h2, -⟩ := strtod_munch hb hp rest
    obtain ⟨b', p', e, hb', hp'⟩ := strtod_sound h1
    have hm := hmax b' p' r' v' e hb' hp'
    have he : p ++ rest = p' ++ r' := by rw [← skip_blanks hb hp, e, skip_blanks hb' hp']
    have hlen := congrArg List.length he
    simp only [List.length_append] at hlen
    obtain ⟨rfl, rfl⟩ := List.append_inj he (by omega)
    exact ⟨rest, by rw [h1, C59_unique hp hp']⟩

/-- **C59.** `strtod` reads nothing exactly if no number follows the white space at the start of the text. -/
theorem C59_nothing (text : Str) : strtod text = none ↔ ReadsNothing text := by
  constructor
  · rintro h b p rest v rfl hb hp
    obtain ⟨v', r', h1, -⟩ := strtod_munch hb hp rest
    rw [h] at h1; cases h1
  · intro h
    cases h' : strtod text with
    | none => rfl
    | some y =>
      obtain ⟨v, r⟩ := y
      obtain ⟨b, p, e, hb, hp⟩ := strtod_sound h'
      exact absurd hp (h b p r v e hb)

/-- **C59.** Every text reads as exactly one value or as nothing. -/
theorem C59_every (text : Str) : ReadsNothing text ∨ ∃ p v, Reads text p v ∧ ∀ p' v', Reads text p' v' → v' = v := by
  cases h : strtod text with
  | none => exact .inl ((C59_nothing text).1 h)
  | some y =>
    obtain ⟨v, r⟩ := y
    obtain ⟨p, hp⟩ := (C59_longest text v).1 ⟨r, h⟩
    refine .inr ⟨p, v, hp, fun p' v' hp' => ?_⟩
    obtain ⟨r', h'⟩ := (C59_longest text v').2 ⟨p', hp'⟩
    rw [h] at h'
    simp only [Option.some.injEq, Prod.mk.injEq] at h'
    exact h'.1.symm

/-- **C59.** What `std::stod`, used for parameter files, makes of a text: the number, an infinity or NaN for the words, `out_of_range` for a
number too large or too small for a double, `invalid_argument` if the text does not start with a number. -/
theorem C59_stod (text : Str) :
    (ReadsNothing text → stod text = .error .invalidArgument) ∧
    (∀ p q, Reads text p (.number q) → (q = 0 ∨ (2 : ℚ) ^ (-1022 : ℤ) ≤ |q|) → |q| < tooLarge → stod text = .ok (.fin q)) ∧
    (∀ p q, Reads text p (.number q) → tooLarge ≤ |q| → stod text = .error .outOfRange) ∧
    (∀ p, Reads text p (.infinite false) → stod text = .ok .pinf) ∧ (∀ p, Reads text p (.infinite true) → stod text = .ok .ninf) ∧
    (∀ p, Reads text p .nan → stod text = .ok .nan) := by
  refine ⟨fun h => ?_, fun p q h h1 h2 => ?_, fun p q h h1 => ?_, fun p h => ?_, fun p h => ?_, fun p h => ?_⟩
  · unfold stod; rw [(C59_nothing text).2 h]
  · obtain ⟨r, hr⟩ := (C59_longest text _).2 ⟨p, h⟩
    have e1 : overflows q = false := decide_eq_false (not_le.2 h2)
    have e2 : underflows q = false := decide_eq_false (by
      rintro ⟨h3, h4, -⟩
      rcases h1 with h1 | h1
      · exact h3 h1
      · exact absurd h4 (not_lt.2 h1))
    unfold stod; simp only [hr, e1, e2]; rfl
  · obtain ⟨r, hr⟩ := (C59_longest text _).2 ⟨p, h⟩
    have e1 : overflows q = true := decide_eq_true h1
    unfold stod; simp only [hr, e1]; rfl
  · obtain ⟨r, hr⟩ := (C59_longest text _).2 ⟨p, h⟩
    unfold stod; simp only [hr]
  · obtain ⟨r, hr⟩ := (C59_longest text _).2 ⟨p, h⟩
    unfold stod; simp only [hr]
  · obtain ⟨r, hr⟩ := (C59_longest text _).2 ⟨p, h⟩
    unfold stod; simp only [hr]

/-- **C59.** What `atof`, used for weather files, makes of a text: zero if it does not start with a number. -/
theorem C59_atof (text : Str) :
    (ReadsNothing text → atof text = .fin 0) ∧
    (∀ p q, Reads text p (.number q) → |q| < tooLarge → atof text = .fin q) ∧
    (∀ p q, Reads text p (.number q) → tooLarge ≤ q → atof text = .pinf) ∧
    (∀ p q, Reads text p (.number q) → tooLarge ≤ -q → atof text = .ninf) ∧
    (∀ p, Reads text p (.infinite false) → atof text = .pinf) ∧ (∀ p, Reads text p (.infinite true) → atof text = .ninf) ∧
    (∀ p, Reads text p .nan → atof text = .nan) := by
  have hpos : 0 < tooLarge := sub_pos.2 (pow_lt_pow_right₀ (by norm_num) (by norm_num))
  have ho : ∀ q : ℚ, overflows q = decide (tooLarge ≤ |q|) := fun _ => rfl
  refine ⟨fun h => ?_, fun p q h h1 => ?_, fun p q h h1 => ?_, fun p q h h1 => ?_, fun p h => ?_, fun p h => ?_, fun p h => ?_⟩
  · unfold atof; rw [(C59_nothing text).2 h]
  · obtain ⟨r, hr⟩ := (C59_longest text _).2 ⟨p, h⟩
    unfold atof
    simp only [hr]
    rw [if_neg (by rw [ho, decide_eq_true_eq]; exact not_le.2 h1)]
  · obtain ⟨r, hr⟩ := (C59_longest text _).2 ⟨p, h⟩
    unfold atof
    simp only [hr]
    rw [if_pos (by rw [ho, decide_eq_true_eq]; exact h1.trans (le_abs_self q)), if_neg (not_lt.2 (hpos.le.trans h1))]
  · obtain ⟨r, hr⟩ := (C59_longest text _).2 ⟨p, h⟩
    unfold atof
    simp only [hr]
    rw [if_pos (by rw [ho, decide_eq_true_eq]; exact h1.trans (neg_le_abs q)), if_pos (neg_pos.1 (hpos.trans_le h1))]
  · obtain ⟨r, hr⟩ := (C59_longest text _).2 ⟨p, h⟩
    unfold atof; simp only [hr]
  · obtain ⟨r, hr⟩ := (C59_longest text _).2 ⟨p, h⟩
    unfold atof; simp only [hr]
  · obtain ⟨r, hr⟩ := (C59_longest text _).2 ⟨p, h⟩
    unfold atof; simp only [hr]

/-- **C59.** A parameter that is asked for as a number: a text that starts with a number gives this number, a text that does not counts as
if the parameter were missing, and a number too large throws. -/
theorem C59_property (key text : Str) (store : Store) (h : getProperty key store = some text) :
    (ReadsNothing text → getPropertyAsDouble stod key store = .ok none) ∧
    (∀ p q, Reads text p (.number q) → (q = 0 ∨ (2 : ℚ) ^ (-1022 : ℤ) ≤ |q|) → |q| < tooLarge →
      getPropertyAsDouble stod key store = .ok (some (.fin q))) ∧
    (∀ p q, Reads text p (.number q) → tooLarge ≤ |q| → getPropertyAsDouble stod key store = .error .outOfRange) := by
  obtain ⟨h1, h2, h3, -⟩ := C59_stod text
  refine ⟨fun hr => ?_, fun p q hr hq hq' => ?_, fun p q hr hq => ?_⟩
  · unfold getPropertyAsDouble; simp only [h, h1 hr]
  · unfold getPropertyAsDouble; simp only [h, h2 p q hr hq hq']
  · unfold getPropertyAsDouble; simp only [h, h3 p q hr hq]

/-- with texts: what follows the number is ignored, a comma ends it, an exponent needs digits, words and hexadecimal numbers are numbers -/
example : strtod "  -12.50 W/m2".toList = some (.number (-12.5), " W/m2".toList) ∧ strtod "1,5".toList = some (.number 1, ",5".toList) ∧
    strtod "2e".toList = some (.number 2, "e".toList) ∧ strtod "1.5E-2".toList = some (.number 0.015, []) ∧
    strtod "0x1p4".toList = some (.number 16, []) ∧ strtod "infinite".toList = some (.infinite false, "inite".toList) ∧
    strtod "-NaN".toList = some (.nan, []) ∧ strtod "e5".toList = none ∧ strtod "".toList = none ∧ strtod ".".toList = none := by
  decide +kernel

/-- a text that meets the hypothesis of the first part, and one of the second -/
example : ReadsNothing "none".toList ∧ ∃ p, Reads "3.5 m".toList p (.number 3.5) :=
  ⟨(C59_nothing _).1 (by decide +kernel), (C59_longest _ _).1 ⟨" m".toList, by decide +kernel⟩⟩

end ISO.Props
