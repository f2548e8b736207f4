import Verif.Spec.Numerals

/-! # Lemmas for C59: reading numbers -/

namespace ISO.Numerals
open ISO ISO.Properties ISO.Spec.Text

theorem le_char (a c : Char) : (decide (a ≤ c)) = decide (a.toNat ≤ c.toNat) := rfl

theorem isDigit_iff (c : Char) : isDigit c = true ↔ 48 ≤ c.toNat ∧ c.toNat ≤ 57 := by
  simp only [isDigit, Bool.and_eq_true, le_char, decide_eq_true_eq]
  exact Iff.rfl

theorem digit_iff (c : Char) (d : Nat) : Digit c d ↔ isDigit c = true ∧ digitVal c = d := by
  rw [isDigit_iff]
  unfold Digit digitVal
  rw [show '0'.toNat = 48 from rfl]
  omega

theorem isHex_iff (c : Char) : isHex c = true ↔
    (48 ≤ c.toNat ∧ c.toNat ≤ 57) ∨ (97 ≤ c.toNat ∧ c.toNat ≤ 102) ∨ (65 ≤ c.toNat ∧ c.toNat ≤ 70) := by
  simp only [isHex, Bool.or_eq_true, isDigit_iff, Bool.and_eq_true, le_char, decide_eq_true_eq]
  rw [or_assoc]
  exact Iff.rfl

theorem hexDigit_iff (c : Char) (d : Nat) : HexDigit c d ↔ isHex c = true ∧ hexVal c = d := by
  rw [isHex_iff]
  unfold HexDigit Digit hexVal digitVal
  have h1 : ('a' ≤ c ∧ c ≤ 'f') ↔ (97 ≤ c.toNat ∧ c.toNat ≤ 102) := Iff.rfl
  simp only [isDigit_iff, h1, show '0'.toNat = 48 from rfl, show 'a'.toNat = 97 from rfl, show 'A'.toNat = 65 from rfl]
  split_ifs with h h' <;> omega

/-- a digit predicate, its digit values and its base -/
structure Base (digit : Char → Bool) (val : Char → Nat) (D : Char → Nat → Prop) (base : Nat) : Prop where
  iff : ∀ c d, D c d ↔ digit c = true ∧ val c = d

theorem base10 : Base isDigit digitVal Digit 10 := ⟨digit_iff⟩
theorem base16 : Base isHex hexVal HexDigit 16 := ⟨hexDigit_iff⟩

theorem foldl_ofDigits (b : Nat) (val : Char → Nat) (s : Str) :
    s.foldl (fun n c => b * n + val c) 0 = Nat.ofDigits b (s.map val).reverse := by
  rw [Nat.ofDigits_eq_foldr, List.foldr_reverse, List.foldl_map]
  congr 1
  funext n c
  simp [add_comm]

theorem digits_iff {digit val D base} (B : Base digit val D base) (s : Str) (n : Nat) :
    Digits D base s n ↔ (∀ c ∈ s, digit c = true) ∧ n = s.foldl (fun n c => base * n + val c) 0 := by
  rw [foldl_ofDigits]
  unfold Digits
  constructor
  · rintro ⟨ds, h, rfl⟩
    have : (∀ c ∈ s, digit c = true) ∧ ds = s.map val := by
      clear * - h B
      induction h with
      | nil => simp
      | cons h _ ih =>
        obtain ⟨h1, h2⟩ := (B.iff _ _).1 h
        refine ⟨fun c hc => ?_, by rw [List.map_cons, h2, ih.2]⟩
        rcases List.mem_cons.1 hc with rfl | hc
        · exact h1
        · exact ih.1 c hc
    exact ⟨this.1, by rw [this.2]⟩
  · rintro ⟨h, rfl⟩
    refine ⟨s.map val, ?_, rfl⟩
    induction s with
    | nil => exact .nil
    | cons c s ih =>
      exact .cons ((B.iff _ _).2 ⟨h c (by simp), rfl⟩) (ih fun c hc => h c (by simp [hc]))

theorem digits_unique {digit val D base} (B : Base digit val D base) {s : Str} {n n' : Nat} (h : Digits D base s n)
    (h' : Digits D base s n') : n = n' := by
  rw [((digits_iff B s n).1 h).2, ((digits_iff B s n').1 h').2]

/-! ## scanning -/

/-- the text does not start with a character of this kind -/
def Stops (p : Char → Bool) (r : Str) : Prop := ∀ c t, r = c :: t → p c = false

theorem takeWhile_all {p : Char → Bool} {s r : Str} (h : ∀ c ∈ s, p c = true) : (s ++ r).takeWhile p = s ++ r.takeWhile p := by
  induction s with
  | nil => rfl
  | cons c s ih => rw [List.cons_append, List.takeWhile_cons_of_pos (h c (by simp)), ih fun c hc => h c (by simp [hc])]; rfl

theorem dropWhile_all {p : Char → Bool} {s r : Str} (h : ∀ c ∈ s, p c = true) : (s ++ r).dropWhile p = r.dropWhile p := by
  induction s with
  | nil => rfl
  | cons c s ih => rw [List.cons_append, List.dropWhile_cons_of_pos (h c (by simp)), ih fun c hc => h c (by simp [hc])]

theorem takeWhile_stops {p : Char → Bool} {r : Str} (h : Stops p r) : r.takeWhile p = [] := by
  cases r with
  | nil => rfl
  | cons c t => rw [List.takeWhile_cons_of_neg (by rw [h c t rfl]; simp)]

theorem dropWhile_stops {p : Char → Bool} {r : Str} (h : Stops p r) : r.dropWhile p = r := by
  cases r with
  | nil => rfl
  | cons c t => rw [List.dropWhile_cons_of_neg (by rw [h c t rfl]; simp)]

theorem mem_takeWhile {p : Char → Bool} {s : Str} {c : Char} (h : c ∈ s.takeWhile p) : p c = true := by
  induction s with
  | nil => simp at h
  | cons a s ih =>
    cases ha : p a with
    | true =>
      rw [List.takeWhile_cons_of_pos ha] at h
      rcases List.mem_cons.1 h with rfl | h
      · exact ha
      · exact ih h
    | false => rw [List.takeWhile_cons_of_neg (by rw [ha]; simp)] at h; simp at h

theorem dropWhile_le (p : Char → Bool) (s : Str) : (s.dropWhile p).length ≤ s.length :=
  (List.dropWhile_suffix p).length_le

/-! ## mantissa -/

/-- the text of a mantissa with these digits -/
def MText (digit : Char → Bool) (m i f : Str) : Prop :=
  (∀ c ∈ i ++ f, digit c = true) ∧ i ++ f ≠ [] ∧ ((m = i ∧ f = []) ∨ m = i ++ '.' :: f)

theorem mantissa_sound {digit : Char → Bool} {s i f r : Str} (h : mantissa digit s = some (i, f, r)) :
    ∃ m, s = m ++ r ∧ MText digit m i f := by
  unfold mantissa at h
  simp only at h
  have e := List.takeWhile_append_dropWhile (p := digit) (l := s)
  split at h
  · rename_i t ht
    split at h
    · cases h
    · rename_i hn
      simp only [Option.some.injEq, Prod.mk.injEq] at h
      obtain ⟨rfl, rfl, rfl⟩ := h
      refine ⟨s.takeWhile digit ++ '.' :: t.takeWhile digit, ?_, fun c hc => ?_, fun h0 => hn (List.append_eq_nil_iff.1 h0), .inr rfl⟩
      · rw [List.append_assoc, List.cons_append, List.takeWhile_append_dropWhile, ← ht, e]
      · rcases List.mem_append.1 hc with hc | hc <;> exact mem_takeWhile hc
  · split at h
    · cases h
    · rename_i hn
      simp only [Option.some.injEq, Prod.mk.injEq] at h
      obtain ⟨rfl, rfl, rfl⟩ := h
      exact ⟨s.takeWhile digit, e.symm, fun c hc => by rw [List.append_nil] at hc; exact mem_takeWhile hc, by simpa using hn, .inl ⟨rfl, rfl⟩⟩

/-- what follows is not read -/
theorem mantissa_exact {digit : Char → Bool} (hp : digit '.' = false) {m i f r : Str} (h : MText digit m i f) (h1 : Stops digit r)
    (h2 : ∀ t, r ≠ '.' :: t) : mantissa digit (m ++ r) = some (i, f, r) := by
  obtain ⟨hd, hn, ⟨rfl, rfl⟩ | rfl⟩ := h
  · have hd' : ∀ c ∈ m, digit c = true := fun c hc => hd c (by simpa using hc)
    unfold mantissa
    simp only [takeWhile_all hd', dropWhile_all hd', takeWhile_stops h1, dropWhile_stops h1, List.append_nil]
    have hm : m ≠ [] := by simpa using hn
    cases r with
    | nil => exact if_neg hm
    | cons c t =>
      have hc : c ≠ '.' := fun e => h2 t (by rw [e])
      split
      · rename_i e; exact absurd e hm
      · rfl
  · have hi : ∀ c ∈ i, digit c = true := fun c hc => hd c (by simp [hc])
    have hf : ∀ c ∈ f, digit c = true := fun c hc => hd c (by simp [hc])
    have hs : Stops digit ('.' :: (f ++ r)) := by
      intro c t h; cases h; exact hp
    unfold mantissa
    simp only [List.append_assoc, List.cons_append, takeWhile_all hi, dropWhile_all hi, takeWhile_stops hs, dropWhile_stops hs,
      List.append_nil, takeWhile_all hf, dropWhile_all hf, takeWhile_stops h1, dropWhile_stops h1]
    rw [if_neg (fun h0 => hn (by rw [h0.1, h0.2]; rfl))]

/-- at least the mantissa is read -/
theorem mantissa_munch {digit : Char → Bool} (hp : digit '.' = false) {m i f : Str} (h : MText digit m i f) (r : Str) :
    ∃ i' f' r', mantissa digit (m ++ r) = some (i', f', r') ∧ r'.length ≤ r.length := by
  obtain ⟨hd, hn, ⟨rfl, rfl⟩ | rfl⟩ := h
  · have hd' : ∀ c ∈ m, digit c = true := fun c hc => hd c (by simpa using hc)
    have hm : m ≠ [] := by simpa using hn
    unfold mantissa
    simp only [takeWhile_all hd', dropWhile_all hd']
    have hl := dropWhile_le digit r
    split
    · rename_i t ht
      rw [if_neg (by simp [hm])]
      refine ⟨_, _, _, rfl, ?_⟩
      rw [ht] at hl
      have := dropWhile_le digit t
      simp only [List.length_cons] at hl; omega
    · rw [if_neg (by simp [hm])]
      exact ⟨_, _, _, rfl, hl⟩
  · have hi : ∀ c ∈ i, digit c = true := fun c hc => hd c (by simp [hc])
    have hf : ∀ c ∈ f, digit c = true := fun c hc => hd c (by simp [hc])
    have hs : Stops digit ('.' :: (f ++ r)) := by
      intro c t h; cases h; exact hp
    unfold mantissa
    simp only [List.append_assoc, List.cons_append, takeWhile_all hi, dropWhile_all hi, takeWhile_stops hs, dropWhile_stops hs,
      List.append_nil, takeWhile_all hf, dropWhile_all hf]
    rw [if_neg (fun h0 => hn (by
      have := h0.2
      rw [List.append_eq_nil_iff] at this
      rw [h0.1, this.1]; rfl))]
    exact ⟨_, _, _, rfl, dropWhile_le digit r⟩

theorem mantissa_spec {digit val D base} (B : Base digit val D base) (m : Str) (n k : Nat) :
    Mantissa D base m n k ↔ ∃ i f, MText digit m i f ∧ n = (i ++ f).foldl (fun n c => base * n + val c) 0 ∧ k = f.length := by
  constructor
  · intro h
    cases h with
    | whole _ _ hn hd =>
      rw [digits_iff B] at hd
      exact ⟨m, [], ⟨by simpa using hd.1, by simpa using hn, .inl ⟨rfl, rfl⟩⟩, by simpa using hd.2, rfl⟩
    | point i f _ hn hd =>
      rw [digits_iff B] at hd
      exact ⟨i, f, ⟨hd.1, hn, .inr rfl⟩, hd.2, rfl⟩
  · rintro ⟨i, f, ⟨hd, hn, ⟨rfl, rfl⟩ | rfl⟩, rfl, rfl⟩
    · rw [List.append_nil] at *
      exact .whole _ _ hn ((digits_iff B _ _).2 ⟨hd, rfl⟩)
    · exact .point _ _ _ hn ((digits_iff B _ _).2 ⟨hd, rfl⟩)

/-! ## sign and exponent -/

theorem sign_minus (t : Str) : sign ('-' :: t) = (true, t) := rfl
theorem sign_plus (t : Str) : sign ('+' :: t) = (false, t) := rfl

theorem sign_other {t : Str} (h1 : ∀ u, t ≠ '-' :: u) (h2 : ∀ u, t ≠ '+' :: u) : sign t = (false, t) := by
  unfold sign
  split
  · exact absurd rfl (h1 _)
  · exact absurd rfl (h2 _)
  · rfl

theorem sign_sound (t : Str) : ∃ s, t = s ++ (sign t).2 ∧ Sign s (if (sign t).1 then -1 else 1) := by
  unfold sign
  split
  · exact ⟨['-'], rfl, .minus⟩
  · exact ⟨['+'], rfl, .plus⟩
  · exact ⟨[], rfl, .none⟩

theorem sign_exact {s : Str} {g : Int} (h : Sign s g) {t : Str} (h1 : ∀ u, t ≠ '-' :: u) (h2 : ∀ u, t ≠ '+' :: u) :
    (sign (s ++ t)).2 = t ∧ g = if (sign (s ++ t)).1 then -1 else 1 := by
  cases h with
  | none => rw [List.nil_append, sign_other h1 h2]; exact ⟨rfl, rfl⟩
  | plus => exact ⟨rfl, rfl⟩
  | minus => exact ⟨rfl, rfl⟩

theorem exponent_le (letter : Char → Bool) (s : Str) : (exponent letter s).2.length ≤ s.length := by
  unfold exponent
  split
  · exact le_rfl
  · rename_i c t
    split
    · simp only
      split
      · exact le_rfl
      · have h1 := dropWhile_le isDigit (sign t).2
        obtain ⟨s, hs, -⟩ := sign_sound t
        have h2 := congrArg List.length hs
        simp only [List.length_append] at h2
        simp only [List.length_cons]
        omega
    · exact le_rfl

theorem exponent_sound {letter : Char → Bool} {letters : List Char} (hl : ∀ c, letter c = true ↔ c ∈ letters) (s : Str) :
    ∃ x, s = x ++ (exponent letter s).2 ∧ Exponent letters x (exponent letter s).1 := by
  unfold exponent
  split
  · exact ⟨[], rfl, .none⟩
  · rename_i c t
    split
    · rename_i hc
      simp only
      split
      · exact ⟨[], rfl, .none⟩
      · rename_i hn
        obtain ⟨g, hs, hg⟩ := sign_sound t
        refine ⟨c :: (g ++ (sign t).2.takeWhile isDigit), ?_, ?_⟩
        · rw [List.cons_append, List.append_assoc, List.takeWhile_append_dropWhile, ← hs]
        · have hd : Digits Digit 10 ((sign t).2.takeWhile isDigit) (digitsVal ((sign t).2.takeWhile isDigit)) :=
            (digits_iff base10 _ _).2 ⟨fun c hc => mem_takeWhile hc, rfl⟩
          have := Exponent.some c g _ _ _ ((hl c).1 hc) hg hn hd
          cases h : (sign t).1
          · rw [h] at this; simpa using this
          · rw [h] at this; simpa using this
    · exact ⟨[], rfl, .none⟩

theorem not_sign_of_digits {d : Str} (hn : d ≠ []) (hd : ∀ c ∈ d, isDigit c = true) (r : Str) :
    (∀ u, d ++ r ≠ '-' :: u) ∧ ∀ u, d ++ r ≠ '+' :: u := by
  cases d with
  | nil => exact absurd rfl hn
  | cons c d =>
    have := hd c (by simp)
    constructor <;>
    · intro u h
      rw [List.cons_append] at h
      injection h with h _
      rw [h] at this
      revert this; decide

theorem exponent_munch {letter : Char → Bool} {letters : List Char} (hl : ∀ c, letter c = true ↔ c ∈ letters) {x : Str} {e : Int}
    (h : Exponent letters x e) (r : Str) :
    ∃ e' r', exponent letter (x ++ r) = (e', r') ∧ r'.length ≤ r.length ∧ (r = [] → e' = e) := by
  cases h with
  | none =>
    refine ⟨_, _, rfl, exponent_le letter r, ?_⟩
    rintro rfl; rfl
  | some c s d g n hc hs hn hd =>
    obtain ⟨hd1, hd2⟩ := (digits_iff base10 _ _).1 hd
    obtain ⟨h1, h2⟩ := not_sign_of_digits hn hd1 r
    obtain ⟨e1, e2⟩ := sign_exact hs h1 h2
    have ht : (d ++ r).takeWhile isDigit ≠ [] := by rw [takeWhile_all hd1]; simp [hn]
    have key : exponent letter (c :: (s ++ d) ++ r) = (if (sign (s ++ (d ++ r))).1 then -(digitsVal ((d ++ r).takeWhile isDigit) : Int)
        else (digitsVal ((d ++ r).takeWhile isDigit) : Int), (d ++ r).dropWhile isDigit) := by
      rw [List.cons_append, List.append_assoc]
      simp only [exponent]
      rw [if_pos ((hl c).2 hc), e1, if_neg ht]
    refine ⟨_, _, key, ?_, ?_⟩
    · rw [dropWhile_all hd1]; exact dropWhile_le _ _
    · rintro rfl
      rw [e2, takeWhile_all hd1]
      have : (digitsVal (d ++ List.takeWhile isDigit []) : Int) = n := by
        rw [hd2]; simp [digitsVal]
      rw [this]
      split <;> simp

theorem isE_iff (c : Char) : isE c = true ↔ c ∈ ['e', 'E'] := by simp [isE]
theorem isP_iff (c : Char) : isP c = true ↔ c ∈ ['p', 'P'] := by simp [isP]

/-- an exponent does not continue the mantissa -/
theorem exponent_stops {digit : Char → Bool} {letters : List Char} (h : ∀ c ∈ letters, digit c = false ∧ c ≠ '.') {x : Str} {e : Int}
    (hx : Exponent letters x e) (hn : x ≠ []) (r : Str) : Stops digit (x ++ r) ∧ ∀ t, x ++ r ≠ '.' :: t := by
  cases hx with
  | none => exact absurd rfl hn
  | some c s d g n hc =>
    obtain ⟨h1, h2⟩ := h c hc
    constructor
    · intro a t e; rw [List.cons_append] at e; injection e with e _; rw [← e]; exact h1
    · intro t e; rw [List.cons_append] at e; injection e with e _; exact h2 e

/-! ## decimal and hexadecimal numbers -/

theorem decimal_value (n k : Nat) (e : Int) : ((n : ℚ) * (10 : ℚ) ^ e / 10 ^ k) = n * (10 : ℚ) ^ (e - k) := by
  rw [zpow_sub₀ (by norm_num), zpow_natCast, mul_div_assoc]

theorem hexadecimal_value (n k : Nat) (e : Int) : ((n : ℚ) * (2 : ℚ) ^ e / 16 ^ k) = n * (2 : ℚ) ^ (e - 4 * k) := by
  rw [zpow_sub₀ (by norm_num), mul_div_assoc]
  congr 2
  rw [zpow_mul, zpow_natCast]; norm_num

theorem decimal_sound {s r : Str} {v : Value} (h : decimal s = some (v, r)) : ∃ p, s = p ++ r ∧ Unsigned p v := by
  unfold decimal at h
  rw [Option.map_eq_some_iff] at h
  obtain ⟨⟨i, f, t⟩, hm, h⟩ := h
  obtain ⟨m, rfl, hM⟩ := mantissa_sound hm
  obtain ⟨x, hx, hX⟩ := exponent_sound isE_iff t
  simp only [Prod.mk.injEq] at h
  obtain ⟨rfl, rfl⟩ := h
  refine ⟨m ++ x, by rw [List.append_assoc, ← hx], ?_⟩
  have := Unsigned.decimal m x _ _ _ ((mantissa_spec base10 _ _ _).2 ⟨i, f, hM, rfl, rfl⟩) hX
  rw [decimal_value] at this
  exact this

theorem hexadecimal_sound {s r : Str} {v : Value} (h : hexadecimal s = some (v, r)) : ∃ p, s = p ++ r ∧ Unsigned p v := by
  unfold hexadecimal at h
  split at h
  · rename_i c t
    split at h
    · rename_i hc
      rw [Option.map_eq_some_iff] at h
      obtain ⟨⟨i, f, t⟩, hm, h⟩ := h
      obtain ⟨m, rfl, hM⟩ := mantissa_sound hm
      obtain ⟨x, hx, hX⟩ := exponent_sound isP_iff t
      simp only [Prod.mk.injEq] at h
      obtain ⟨rfl, rfl⟩ := h
      refine ⟨'0' :: c :: (m ++ x), by rw [List.cons_append, List.cons_append, List.append_assoc, ← hx], ?_⟩
      have := Unsigned.hexadecimal c m x _ _ _ (by simpa using hc) ((mantissa_spec base16 _ _ _).2 ⟨i, f, hM, rfl, rfl⟩) hX
      rw [hexadecimal_value] at this
      exact this
    · cases h
  · cases h

theorem number_munch {digit val D base} (B : Base digit val D base) (hp : digit '.' = false) {letter : Char → Bool} {letters : List Char}
    (hl : ∀ c, letter c = true ↔ c ∈ letters) (hs : ∀ c ∈ letters, digit c = false ∧ c ≠ '.') {m x : Str} {n k : Nat} {e : Int}
    (hm : Mantissa D base m n k) (hx : Exponent letters x e) (r : Str) :
    ∃ i f t, mantissa digit (m ++ x ++ r) = some (i, f, t) ∧ (exponent letter t).2.length ≤ r.length ∧
      (r = [] → n = (i ++ f).foldl (fun n c => base * n + val c) 0 ∧ k = f.length ∧ (exponent letter t).1 = e) := by
  obtain ⟨i, f, hM, rfl, rfl⟩ := (mantissa_spec B _ _ _).1 hm
  by_cases hn : x = []
  · subst hn
    rw [List.append_nil]
    obtain ⟨i', f', r', h1, h2⟩ := mantissa_munch hp hM r
    refine ⟨i', f', r', h1, (exponent_le letter r').trans h2, ?_⟩
    rintro rfl
    have he : r' = [] := List.length_eq_zero_iff.1 (by simpa using h2)
    have h3 := mantissa_exact hp hM (r := []) (by intro c t h; cases h) (by simp)
    rw [h3] at h1
    simp only [Option.some.injEq, Prod.mk.injEq] at h1
    obtain ⟨rfl, rfl, rfl⟩ := h1
    refine ⟨rfl, rfl, ?_⟩
    cases hx; rfl
  · obtain ⟨h1, h2⟩ := exponent_stops hs hx hn r
    rw [List.append_assoc]
    obtain ⟨e', r', h3, h4, h5⟩ := exponent_munch hl hx r
    exact ⟨i, f, _, mantissa_exact hp hM h1 h2, by rw [h3]; exact h4, fun hr => ⟨rfl, rfl, by rw [h3]; exact h5 hr⟩⟩

theorem decimal_munch {m x : Str} {n k : Nat} {e : Int} (hm : Mantissa Digit 10 m n k) (hx : Exponent ['e', 'E'] x e) (r : Str) :
    ∃ v' r', decimal (m ++ x ++ r) = some (v', r') ∧ r'.length ≤ r.length ∧ (r = [] → v' = .number (n * (10 : ℚ) ^ e / 10 ^ k)) := by
  obtain ⟨i, f, t, h1, h2, h3⟩ := number_munch base10 (by decide) isE_iff (by decide) hm hx r
  refine ⟨_, _, by unfold decimal; rw [h1]; rfl, h2, fun hr => ?_⟩
  obtain ⟨rfl, rfl, rfl⟩ := h3 hr
  rw [decimal_value]; rfl

theorem hexadecimal_munch {c : Char} {m x : Str} {n k : Nat} {e : Int} (hc : c ∈ ['x', 'X']) (hm : Mantissa HexDigit 16 m n k)
    (hx : Exponent ['p', 'P'] x e) (r : Str) :
    ∃ v' r', hexadecimal ('0' :: c :: (m ++ x) ++ r) = some (v', r') ∧ r'.length ≤ r.length ∧
      (r = [] → v' = .number (n * (2 : ℚ) ^ e / 16 ^ k)) := by
  obtain ⟨i, f, t, h1, h2, h3⟩ := number_munch base16 (by decide) isP_iff (by decide) hm hx r
  have hc' : (c == 'x' || c == 'X') = true := by simpa using hc
  refine ⟨_, _, by rw [List.cons_append, List.cons_append]; unfold hexadecimal; simp only [hc', if_true, h1]; rfl, h2, fun hr => ?_⟩
  obtain ⟨rfl, rfl, rfl⟩ := h3 hr
  rw [hexadecimal_value]; rfl

/-! ## words -/

theorem isNChar_iff (c : Char) : isNChar c = true ↔ (c.isAlphanum = true ∨ c = '_') := by
  have e1 : c.isAlphanum = true ↔ (65 ≤ c.toNat ∧ c.toNat ≤ 90) ∨ (97 ≤ c.toNat ∧ c.toNat ≤ 122) ∨ (48 ≤ c.toNat ∧ c.toNat ≤ 57) := by
    simp only [Char.isAlphanum, Char.isAlpha, Char.isUpper, Char.isLower, Char.isDigit, Bool.or_eq_true, Bool.and_eq_true, decide_eq_true_eq]
    rw [or_assoc]
    exact Iff.rfl
  have e2 : (('a' ≤ c ∧ c ≤ 'z') ↔ (97 ≤ c.toNat ∧ c.toNat ≤ 122)) ∧ (('A' ≤ c ∧ c ≤ 'Z') ↔ (65 ≤ c.toNat ∧ c.toNat ≤ 90)) := ⟨Iff.rfl, Iff.rfl⟩
  rw [e1]
  simp only [isNChar, Bool.or_eq_true, Bool.and_eq_true, decide_eq_true_eq, beq_iff_eq, isHex_iff, e2.1, e2.2]
  constructor
  · rintro (((h | h) | h) | h)
    · left; omega
    · left; omega
    · left; omega
    · exact .inr h
  · rintro ((h | h | h) | h)
    · exact .inl (.inr h)
    · exact .inl (.inl (.inr h))
    · exact .inl (.inl (.inl (.inl h)))
    · exact .inr h

theorem lower_length {s t : Str} (h : lower s = t) : s.length = t.length := by rw [← h]; simp [lower]

theorem take_drop_word {s w : Str} {n : Nat} (hn : w.length = n) (h : lower (s.take n) = w) : s = s.take n ++ s.drop n := (List.take_append_drop n s).symm

theorem word_sound {s r : Str} {v : Value} (h : word s = some (v, r)) : ∃ p, s = p ++ r ∧ Unsigned p v := by
  unfold word at h
  split at h
  · rename_i h8
    simp only [Option.some.injEq, Prod.mk.injEq] at h
    obtain ⟨rfl, rfl⟩ := h
    exact ⟨s.take 8, (List.take_append_drop 8 s).symm, .infinite _ (.inr h8)⟩
  · split at h
    · rename_i h3
      simp only [Option.some.injEq, Prod.mk.injEq] at h
      obtain ⟨rfl, rfl⟩ := h
      exact ⟨s.take 3, (List.take_append_drop 3 s).symm, .infinite _ (.inl h3)⟩
    · split at h
      · rename_i h3
        have hs := (List.take_append_drop 3 s).symm
        have plain : v = .nan → r = s.drop 3 → ∃ p, s = p ++ r ∧ Unsigned p v := by
          rintro rfl rfl
          exact ⟨s.take 3, hs, .nan _ h3⟩
        split at h
        · rename_i t ht
          split at h
          · rename_i u hu
            simp only [Option.some.injEq, Prod.mk.injEq] at h
            obtain ⟨rfl, rfl⟩ := h
            refine ⟨s.take 3 ++ '(' :: t.takeWhile isNChar ++ [')'], ?_, .nanWith _ _ h3 fun c hc => (isNChar_iff c).1 (mem_takeWhile hc)⟩
            have := List.takeWhile_append_dropWhile (p := isNChar) (l := t)
            rw [hu] at this
            rw [ht, ← this] at hs
            simpa using hs
          · simp only [Option.some.injEq, Prod.mk.injEq] at h
            exact plain h.1.symm (by rw [← h.2])
        · simp only [Option.some.injEq, Prod.mk.injEq] at h
          exact plain h.1.symm (by rw [← h.2])
      · cases h

theorem take_prefix {p r : Str} {n : Nat} (h : p.length = n) : (p ++ r).take n = p ∧ (p ++ r).drop n = r := by
  subst h; simp

/-- a text that starts with a letter other than `x` and the digits' is no number -/
theorem word_not_number {s : Str} {c : Char} {t : Str} (h : s = c :: t) (h0 : isDigit c = false) (h1 : c ≠ '.') :
    hexadecimal s = none ∧ decimal s = none := by
  subst h
  constructor
  · unfold hexadecimal
    split
    · rename_i x u e
      rw [(List.cons.inj e).1] at h0
      exact absurd h0 (by decide)
    · rfl
  · have hs : Stops isDigit (c :: t) := by intro a u e; rw [← (List.cons.inj e).1]; exact h0
    unfold decimal mantissa
    simp only [takeWhile_stops hs, dropWhile_stops hs]
    split
    · rename_i u e; exact absurd (List.cons.inj e).1 h1
    · rfl

theorem letter_cases {c d : Char} (h : c.toLower = d) : c = d ∨ (65 ≤ c.toNat ∧ c.toNat ≤ 90) := by
  unfold Char.toLower at h
  split at h
  · rename_i hc; right; exact hc
  · left; exact h

theorem letter_not_number {c : Char} (h : c.toLower = 'i' ∨ c.toLower = 'n') : isDigit c = false ∧ c ≠ '.' := by
  have key : isDigit c = true ∨ c = '.' → False := by
    intro hc
    have hn : c.toNat ≤ 57 := by
      rcases hc with hc | rfl
      · exact ((isDigit_iff c).1 hc).2
      · decide
    rcases h with h | h <;> rcases letter_cases h with rfl | h'
    · revert hn; decide
    · omega
    · revert hn; decide
    · omega
  constructor
  · cases hd : isDigit c
    · rfl
    · exact absurd (.inl hd) key
  · exact fun hc => key (.inr hc)

theorem lower_head {s : Str} {d : Char} {w : Str} (h : lower s = d :: w) : ∃ c t, s = c :: t ∧ c.toLower = d := by
  cases s with
  | nil => simp [lower] at h
  | cons c t => exact ⟨c, t, rfl, (List.cons.inj h).1⟩

theorem unsigned_word {s p : Str} {d : Char} {w : Str} (hd : d = 'i' ∨ d = 'n') (h : lower p = d :: w) (r : Str) (hs : s = p ++ r) :
    unsigned s = word s := by
  obtain ⟨c, t, rfl, hc⟩ := lower_head h
  obtain ⟨h1, h2⟩ := letter_not_number (c := c) (by rw [hc]; exact hd)
  obtain ⟨h3, h4⟩ := word_not_number (s := s) (c := c) (t := t ++ r) (by rw [hs]; rfl) h1 h2
  unfold unsigned
  rw [h3, h4]

theorem infinite_munch {s : Str} (h : lower s = "inf".toList ∨ lower s = "infinity".toList) (r : Str) :
    ∃ v' r', word (s ++ r) = some (v', r') ∧ r'.length ≤ r.length ∧ (r = [] → v' = .infinite false) := by
  rcases h with h | h
  · have hl : s.length = 3 := lower_length h
    obtain ⟨h1, h2⟩ := take_prefix (r := r) hl
    unfold word
    by_cases h8 : lower ((s ++ r).take 8) = "infinity".toList
    · rw [if_pos h8]
      exact ⟨_, _, rfl, by simp [hl]; omega, fun _ => rfl⟩
    · rw [if_neg h8, h1, if_pos h, h2]
      exact ⟨_, _, rfl, le_rfl, fun _ => rfl⟩
  · have hl : s.length = 8 := lower_length h
    obtain ⟨h1, h2⟩ := take_prefix (r := r) hl
    unfold word
    rw [h1, if_pos h, h2]
    exact ⟨_, _, rfl, le_rfl, fun _ => rfl⟩

theorem not_infinite {s r : Str} (h : lower s = "nan".toList) :
    lower ((s ++ r).take 8) ≠ "infinity".toList ∧ lower s ≠ "inf".toList := by
  refine ⟨fun h' => ?_, by rw [h]; decide⟩
  obtain ⟨c, t, rfl, hc⟩ := lower_head (d := 'n') (w := "an".toList) h
  simp only [List.cons_append, List.take_succ_cons, lower, List.map_cons] at h'
  have : c.toLower = 'i' := (List.cons.inj h').1
  rw [hc] at this
  exact absurd this (by decide)

theorem nan_munch {s : Str} (h : lower s = "nan".toList) (r : Str) :
    ∃ v' r', word (s ++ r) = some (v', r') ∧ r'.length ≤ r.length ∧ (r = [] → v' = .nan) := by
  have hl : s.length = 3 := lower_length h
  obtain ⟨h1, h2⟩ := take_prefix (r := r) hl
  obtain ⟨h3, h4⟩ := not_infinite (r := r) h
  unfold word
  rw [if_neg h3, h1, if_neg h4, if_pos h, h2]
  split
  · rename_i t
    split
    · rename_i u hu
      refine ⟨_, _, rfl, ?_, fun _ => rfl⟩
      have := dropWhile_le isNChar t
      rw [hu] at this
      simp only [List.length_cons] at this ⊢
      omega
    · exact ⟨_, _, rfl, le_rfl, fun _ => rfl⟩
  · exact ⟨_, _, rfl, le_rfl, fun _ => rfl⟩

theorem nanWith_munch {s n : Str} (h : lower s = "nan".toList) (hn : ∀ c ∈ n, c.isAlphanum = true ∨ c = '_') (r : Str) :
    word (s ++ '(' :: n ++ [')'] ++ r) = some (.nan, r) := by
  have hl : s.length = 3 := lower_length h
  have e : s ++ '(' :: n ++ [')'] ++ r = s ++ ('(' :: (n ++ ')' :: r)) := by simp
  rw [e]
  obtain ⟨h1, h2⟩ := take_prefix (r := '(' :: (n ++ ')' :: r)) hl
  obtain ⟨h3, h4⟩ := not_infinite (r := '(' :: (n ++ ')' :: r)) h
  unfold word
  rw [if_neg h3, h1, if_neg h4, if_pos h, h2]
  have hd : (n ++ ')' :: r).dropWhile isNChar = ')' :: r := by
    rw [dropWhile_all fun c hc => (isNChar_iff c).2 (hn c hc)]
    exact dropWhile_stops (by intro a u e; rw [← (List.cons.inj e).1]; decide)
  simp only [hd]

/-! ## numbers and words -/

theorem unsigned_sound {s r : Str} {v : Value} (h : unsigned s = some (v, r)) : ∃ p, s = p ++ r ∧ Unsigned p v := by
  unfold unsigned at h
  split at h
  · rename_i x hx; rw [h] at hx; exact hexadecimal_sound hx
  · split at h
    · rename_i x hx; rw [h] at hx; exact decimal_sound hx
    · exact word_sound h

theorem hexadecimal_le {s r : Str} {v : Value} (h : hexadecimal s = some (v, r)) : r.length + 2 ≤ s.length := by
  unfold hexadecimal at h
  split at h
  · rename_i c t
    split at h
    · rw [Option.map_eq_some_iff] at h
      obtain ⟨⟨i, f, t'⟩, hm, h⟩ := h
      obtain ⟨m, rfl, hM⟩ := mantissa_sound hm
      simp only [Prod.mk.injEq] at h
      obtain ⟨rfl, rfl⟩ := h
      have := exponent_le isP t'
      simp only [List.length_cons, List.length_append]
      omega
    · cases h
  · cases h

/-- a decimal number that a hexadecimal one overtakes is the single digit zero -/
theorem mantissa_zero {m x r t : Str} {c : Char} {n k : Nat} {e : Int} (hm : Mantissa Digit 10 m n k) (hx : Exponent ['e', 'E'] x e)
    (hc : c = 'x' ∨ c = 'X') (h : m ++ x ++ r = '0' :: c :: t) : (m ++ x).length ≤ 1 := by
  obtain ⟨i, f, ⟨hd, hn, hM⟩, -, -⟩ := (mantissa_spec base10 _ _ _).1 hm
  have hcd : isDigit c = false ∧ c ≠ '.' ∧ c ∉ ['e', 'E'] := by rcases hc with rfl | rfl <;> decide
  by_contra hlen
  -- the second character of the number is c
  have h1 : (m ++ x)[1]? = some c := by
    have := congrArg (·[1]?) h
    simp only [List.getElem?_cons_succ, List.getElem?_cons_zero] at this
    rw [List.getElem?_append_left (by omega)] at this
    exact this
  have hmem : ∀ a ∈ m, isDigit a = true ∨ a = '.' := by
    intro a ha
    rcases hM with ⟨rfl, rfl⟩ | rfl
    · exact .inl (hd a (by simpa using ha))
    · rcases List.mem_append.1 ha with ha | ha
      · exact .inl (hd a (by simp [ha]))
      · rcases List.mem_cons.1 ha with ha | ha
        · exact .inr ha
        · exact .inl (hd a (by simp [ha]))
  have hm0 : 1 ≤ m.length := by
    rcases hM with ⟨rfl, rfl⟩ | rfl
    · exact List.length_pos_iff.2 (by simpa using hn)
    · simp; omega
  by_cases hm1 : 1 < m.length
  · rw [List.getElem?_append_left hm1] at h1
    have := hmem c (List.mem_of_getElem? h1)
    rcases this with h | h
    · rw [hcd.1] at h; cases h
    · exact hcd.2.1 h
  · have hm2 : m.length = 1 := by omega
    rw [List.getElem?_append_right (by omega), hm2] at h1
    cases hx with
    | none => simp at h1
    | some c' s d g n hc' =>
      simp only [Nat.sub_self, List.getElem?_cons_zero, Option.some.injEq] at h1
      rw [h1] at hc'
      exact hcd.2.2 hc'

theorem unsigned_munch {p : Str} {v : Value} (h : Unsigned p v) (r : Str) :
    ∃ v' r', unsigned (p ++ r) = some (v', r') ∧ r'.length ≤ r.length ∧ (r = [] → v' = v) := by
  cases h with
  | decimal m x n k e hm hx =>
    cases hh : hexadecimal (m ++ x ++ r) with
    | some y =>
      obtain ⟨v', r'⟩ := y
      refine ⟨v', r', by unfold unsigned; rw [hh], ?_⟩
      have h2 := hexadecimal_le hh
      have hz : (m ++ x).length ≤ 1 := by
        unfold hexadecimal at hh
        split at hh
        · rename_i c t he
          split at hh
          · rename_i hc
            exact mantissa_zero hm hx (by simpa using hc) he
          · cases hh
        · cases hh
      rw [List.length_append] at h2
      refine ⟨by omega, fun hr => ?_⟩
      rw [hr] at h2; simp only [List.length_nil] at h2; omega
    | none =>
      obtain ⟨v', r', h1, h2, h3⟩ := decimal_munch hm hx r
      exact ⟨v', r', by unfold unsigned; rw [hh, h1], h2, h3⟩
  | hexadecimal c m x n k e hc hm hx =>
    obtain ⟨v', r', h1, h2, h3⟩ := hexadecimal_munch hc hm hx r
    exact ⟨v', r', by unfold unsigned; rw [h1], h2, h3⟩
  | infinite s hs =>
    obtain ⟨v', r', h1, h2, h3⟩ := infinite_munch hs r
    have : ∃ w, lower p = 'i' :: w := by rcases hs with h | h <;> exact ⟨_, h⟩
    obtain ⟨w, hw⟩ := this
    exact ⟨v', r', by rw [unsigned_word (.inl rfl) hw r rfl]; exact h1, h2, h3⟩
  | nan s hs =>
    obtain ⟨v', r', h1, h2, h3⟩ := nan_munch hs r
    exact ⟨v', r', by rw [unsigned_word (.inr rfl) (w := "an".toList) hs r rfl]; exact h1, h2, h3⟩
  | nanWith s n hs hn =>
    refine ⟨_, _, ?_, le_rfl, fun _ => rfl⟩
    rw [unsigned_word (.inr rfl) (w := "an".toList) hs ('(' :: n ++ [')'] ++ r) (by simp)]
    exact nanWith_munch hs hn r

theorem unsigned_no_sign {p : Str} {v : Value} (h : Unsigned p v) :
    ∃ c t, p = c :: t ∧ c ≠ '-' ∧ c ≠ '+' ∧ isSpace c = false := by
  have letter : ∀ {s : Str} {d : Char} {w : Str}, d = 'i' ∨ d = 'n' → lower s = d :: w → ∃ c t, s = c :: t ∧ c ≠ '-' ∧ c ≠ '+' ∧ isSpace c = false := by
    intro s d w hd h
    obtain ⟨c, t, rfl, hc⟩ := lower_head h
    refine ⟨c, t, rfl, ?_, ?_, ?_⟩
    · rintro rfl; rcases hd with rfl | rfl <;> exact absurd hc (by decide)
    · rintro rfl; rcases hd with rfl | rfl <;> exact absurd hc (by decide)
    · by_contra hs
      simp only [isSpace, Bool.not_eq_false, Bool.or_eq_true, beq_iff_eq] at hs
      rcases hs with ((((rfl | rfl) | rfl) | rfl) | rfl) | rfl <;> rcases hd with rfl | rfl <;> exact absurd hc (by decide)
  have digit : ∀ c, isDigit c = true → c ≠ '-' ∧ c ≠ '+' ∧ isSpace c = false := by
    intro c hc
    refine ⟨by rintro rfl; exact absurd hc (by decide), by rintro rfl; exact absurd hc (by decide), ?_⟩
    by_contra hs
    simp only [isSpace, Bool.not_eq_false, Bool.or_eq_true, beq_iff_eq] at hs
    rcases hs with ((((rfl | rfl) | rfl) | rfl) | rfl) | rfl <;> exact absurd hc (by decide)
  cases h with
  | decimal m x n k e hm hx =>
    obtain ⟨i, f, ⟨hd, hn, hM⟩, -, -⟩ := (mantissa_spec base10 _ _ _).1 hm
    cases i with
    | nil =>
      rcases hM with ⟨rfl, rfl⟩ | rfl
      · exact absurd rfl hn
      · exact ⟨'.', _, rfl, by decide, by decide, by decide⟩
    | cons c i =>
      obtain ⟨h1, h2, h3⟩ := digit c (hd c (by simp))
      rcases hM with ⟨rfl, rfl⟩ | rfl
      · exact ⟨c, _, rfl, h1, h2, h3⟩
      · exact ⟨c, _, rfl, h1, h2, h3⟩
  | hexadecimal c m x => exact ⟨'0', _, rfl, by decide, by decide, by decide⟩
  | infinite s hs =>
    rcases hs with h | h
    · exact letter (.inl rfl) (w := "nf".toList) h
    · exact letter (.inl rfl) (w := "nfinity".toList) h
  | nan s hs => exact letter (.inr rfl) (w := "an".toList) hs
  | nanWith s n hs =>
    obtain ⟨c, t, rfl, h⟩ := letter (.inr rfl) (w := "an".toList) hs
    exact ⟨c, _, rfl, h⟩

/-! ## `strtod` -/

theorem isSpace_iff (c : Char) : isSpace c = true ↔ Blank c := by
  simp only [isSpace, Blank, Bool.or_eq_true, beq_iff_eq, List.mem_cons, List.not_mem_nil, or_false]
  tauto

theorem strtod_sound {s r : Str} {v : Value} (h : strtod s = some (v, r)) :
    ∃ b p, s = b ++ p ++ r ∧ (∀ c ∈ b, Blank c) ∧ Numeral p v := by
  unfold strtod at h
  simp only [Option.map_eq_some_iff] at h
  obtain ⟨⟨u, r'⟩, hu, h⟩ := h
  simp only [Prod.mk.injEq] at h
  obtain ⟨rfl, rfl⟩ := h
  obtain ⟨g, hg, hs⟩ := sign_sound (s.dropWhile isSpace)
  obtain ⟨p, hp, hU⟩ := unsigned_sound hu
  refine ⟨s.takeWhile isSpace, g ++ p, ?_, fun c hc => (isSpace_iff c).1 (mem_takeWhile hc), ?_⟩
  · rw [List.append_assoc, List.append_assoc, ← hp, ← hg, List.takeWhile_append_dropWhile]
  · cases hb : (sign (s.dropWhile isSpace)).1 with
    | false =>
      rw [hb] at hs
      have : Value.negate false u = u := by cases u <;> rfl
      rw [this]
      exact .plain _ _ _ hs hU
    | true =>
      rw [hb] at hs
      cases hs
      cases u with
      | number q => exact .minus _ _ hU
      | infinite b =>
        have : b = false := by cases b; rfl; cases hU
        subst this
        exact .minusInfinite _ hU
      | nan => exact .minusNan _ hU

/-- a number is a sign and an unsigned number -/
theorem numeral_iff (p : Str) (v : Value) : Numeral p v ↔ ∃ g t u b, p = g ++ t ∧ Unsigned t u ∧ v = u.negate b ∧
    Sign g (if b then -1 else 1) := by
  constructor
  · intro h
    cases h with
    | plain s t v hs hu => exact ⟨s, t, v, false, rfl, hu, by cases v <;> rfl, hs⟩
    | minus t q hu => exact ⟨['-'], t, _, true, rfl, hu, rfl, .minus⟩
    | minusInfinite t hu => exact ⟨['-'], t, _, true, rfl, hu, rfl, .minus⟩
    | minusNan t hu => exact ⟨['-'], t, _, true, rfl, hu, rfl, .minus⟩
  · rintro ⟨g, t, u, b, rfl, hu, rfl, hs⟩
    cases b with
    | false =>
      have : Value.negate false u = u := by cases u <;> rfl
      rw [this]; exact .plain _ _ _ hs hu
    | true =>
      cases hs
      cases u with
      | number q => exact .minus _ _ hu
      | infinite b =>
        have : b = false := by cases b; rfl; cases hu
        subst this
        exact .minusInfinite _ hu
      | nan => exact .minusNan _ hu

theorem skip_blanks {b p : Str} {v : Value} (hb : ∀ c ∈ b, Blank c) (h : Numeral p v) {r : Str} :
    (b ++ p ++ r).dropWhile isSpace = p ++ r := by
  rw [List.append_assoc, dropWhile_all fun c hc => (isSpace_iff c).2 (hb c hc)]
  obtain ⟨g, t, u, n, rfl, hu, -, hg⟩ := (numeral_iff p v).1 h
  obtain ⟨c, t', rfl, h1, h2, h3⟩ := unsigned_no_sign hu
  apply dropWhile_stops
  intro a w e
  generalize (if n = true then (-1 : Int) else 1) = k at hg
  cases hg with
  | none => rw [← (List.cons.inj e).1]; exact h3
  | plus => rw [← (List.cons.inj e).1]; decide
  | minus => rw [← (List.cons.inj e).1]; decide

theorem strtod_munch {b p : Str} {v : Value} (hb : ∀ c ∈ b, Blank c) (h : Numeral p v) (r : Str) :
    ∃ v' r', strtod (b ++ p ++ r) = some (v', r') ∧ r'.length ≤ r.length ∧ (r = [] → v' = v) := by
  obtain ⟨g, t, u, neg, rfl, hu, rfl, hg⟩ := (numeral_iff p v).1 h
  obtain ⟨c, t', rfl, h1, h2, h3⟩ := unsigned_no_sign hu
  have hd : (b ++ (g ++ c :: t') ++ r).dropWhile isSpace = g ++ (c :: t' ++ r) := by
    rw [List.append_assoc, dropWhile_all fun c hc => (isSpace_iff c).2 (hb c hc), List.append_assoc]
    apply dropWhile_stops
    intro a w e
    generalize (if neg = true then (-1 : Int) else 1) = k at hg
    cases hg with
    | none => rw [← (List.cons.inj e).1]; exact h3
    | plus => rw [← (List.cons.inj e).1]; decide
    | minus => rw [← (List.cons.inj e).1]; decide
  obtain ⟨e1, e2⟩ := sign_exact hg (t := c :: t' ++ r) (fun w e => h1 (List.cons.inj e).1) (fun w e => h2 (List.cons.inj e).1)
  have e3 : (sign (g ++ (c :: t' ++ r))).1 = neg := by
    revert e2
    cases (sign (g ++ (c :: t' ++ r))).1 <;> cases neg <;> simp
  obtain ⟨v', r', h4, h5, h6⟩ := unsigned_munch hu r
  refine ⟨v'.negate neg, r', ?_, h5, fun hr => by rw [h6 hr]⟩
  unfold strtod
  simp only [hd, e1, e3, h4, Option.map_some]

end ISO.Numerals
