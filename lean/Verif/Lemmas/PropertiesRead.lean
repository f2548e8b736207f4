import Verif.Lemmas.Properties
import Mathlib.Data.Nat.Digits.Lemmas
import Mathlib.Tactic.Linarith

namespace ISO.Properties
open ISO.Spec

theorem sameKey_iff (k k' : Str) : SameKey k k' ↔ lower k = lower k' := Iff.rfl

theorem Char.toLower_idem (c : Char) : c.toLower.toLower = c.toLower := by
  unfold Char.toLower
  split_ifs with h1 h2 <;> try rfl
  exfalso
  simp only [ge_iff_le, UInt32.le_iff_toNat_le] at h1 h2
  have e := UInt32.toNat_add c.val ((('a'.val - 'A'.val)))
  have e2 : ('a'.val - 'A'.val).toNat = 32 := by decide
  have e3 : ('A'.val).toNat = 65 := by decide
  have e4 : ('Z'.val).toNat = 90 := by decide
  simp only [UInt32.toNat_add] at h2
  omega

theorem lower_idem (k : Str) : lower (lower k) = lower k := by
  simp [lower, Char.toLower_idem]

theorem defines_key_unique {l k v k' v' : Str} (h : Defines l k v) (h' : Defines l k' v') :
    k = k' ∧ v = v' := by
  obtain ⟨-, b, a, rfl, hb, hk, -, hv, -⟩ := h
  obtain ⟨-, b', a', he, hb', hk', -, hv', -⟩ := h'
  obtain ⟨rfl, rfl⟩ := split_eq_unique he hb hb'
  exact ⟨trimmed_unique hk hk', trimmed_unique hv hv'⟩

theorem firstDef_cons_skip {l : Str} {ls : List Str} {key v : Str}
    (h : ∀ k' v', Defines l k' v' → ¬ SameKey k' key) :
    FirstDef (l :: ls) key v ↔ FirstDef ls key v := by
  constructor
  · rintro ⟨pre, l0, post, k, he, hd, hk, hpre⟩
    cases pre with
    | nil =>
      simp only [List.nil_append, List.cons.injEq] at he
      obtain ⟨rfl, rfl⟩ := he
      exact absurd hk (h _ _ hd)
    | cons x pre =>
      simp only [List.cons_append, List.cons.injEq] at he
      exact ⟨pre, l0, post, k, he.2, hd, hk, fun l' hl' => hpre l' (by simp [hl'])⟩
  · rintro ⟨pre, l0, post, k, rfl, hd, hk, hpre⟩
    refine ⟨l :: pre, l0, post, k, rfl, hd, hk, ?_⟩
    intro l' hl'
    rcases List.mem_cons.1 hl' with rfl | hl'
    · exact h
    · exact hpre l' hl'

theorem firstDef_cons_here {l : Str} {ls : List Str} {key v k v0 : Str}
    (hd : Defines l k v0) (hk : SameKey k key) :
    FirstDef (l :: ls) key v ↔ v = v0 := by
  constructor
  · rintro ⟨pre, l0, post, k', he, hd', hk', hpre⟩
    cases pre with
    | nil =>
      simp only [List.nil_append, List.cons.injEq] at he
      obtain ⟨rfl, rfl⟩ := he
      exact (defines_key_unique hd' hd).2
    | cons x pre =>
      simp only [List.cons_append, List.cons.injEq] at he
      obtain ⟨rfl, rfl⟩ := he
      exact absurd hk (hpre _ (by simp) _ _ hd)
  · rintro rfl
    exact ⟨[], l, ls, k, rfl, hd, hk, by simp⟩

theorem firstDef_nil {key v : Str} : ¬ FirstDef [] key v := by
  rintro ⟨pre, l, post, k, he, -⟩
  simp at he

theorem not_defines_of_skip {l : Str} (h : parseLine l = .skip) (k v : Str) : ¬ Defines l k v := by
  intro hd
  exact hd.1 ((parseLine_skip_iff l).1 h)

theorem defines_parse {l k v : Str} (h : Defines l k v) : parseLine l = .define (lower k) v :=
  (parseLine_define_iff l (lower k) v).2 ⟨k, h, rfl⟩

/-- what reading lines does to a sorted map -/
theorem readLines_spec {ls : List Str} {n : Nat} {m m' : Store} (hm : Sorted m)
    (h : readLines n ls m = .ok m') :
    Sorted m' ∧ ∀ key v, find (lower key) m' = some v ↔
      find (lower key) m = some v ∨ (find (lower key) m = none ∧ FirstDef ls key v) := by
  induction ls generalizing n m with
  | nil =>
    simp only [readLines, Except.ok.injEq] at h; subst h
    refine ⟨hm, fun key v => ?_⟩
    simp [firstDef_nil]
  | cons l ls ih =>
    simp only [readLines] at h
    cases hp : parseLine l with
    | skip =>
      rw [hp] at h
      obtain ⟨h1, h2⟩ := ih hm h
      refine ⟨h1, fun key v => ?_⟩
      rw [h2, firstDef_cons_skip (fun k' v' hd => absurd hd (not_defines_of_skip hp k' v'))]
    | define k v0 =>
      rw [hp] at h
      obtain ⟨k0, hd, rfl⟩ := (parseLine_define_iff l k v0).1 hp
      obtain ⟨h1, h2⟩ := ih (insertNew_sorted hm _ _) h
      refine ⟨h1, fun key v => ?_⟩
      rw [h2, find_insertNew hm]
      by_cases hk : SameKey k0 key
      · have hk' : lower key = lower k0 := hk.symm
        rw [if_pos hk', firstDef_cons_here hd hk, ← hk']
        cases find (lower key) m with
        | none => simp [eq_comm]
        | some x => simp
      · have hk' : ¬ lower key = lower k0 := fun h => hk h.symm
        rw [if_neg hk', firstDef_cons_skip]
        intro k' v' hd'
        rw [← (defines_key_unique hd hd').1]; exact hk
    | noEquals => rw [hp] at h; cases h
    | noKey => rw [hp] at h; cases h
    | noValue => rw [hp] at h; cases h

theorem firstDef_append {a b : List Str} {key v : Str} :
    FirstDef (a ++ b) key v ↔ FirstDef a key v ∨ ((¬ ∃ v', FirstDef a key v') ∧ FirstDef b key v) := by
  induction a with
  | nil => simp [firstDef_nil]
  | cons l a ih =>
    by_cases h : ∃ k v', Defines l k v' ∧ SameKey k key
    · obtain ⟨k, v', hd, hk⟩ := h
      simp only [List.cons_append, firstDef_cons_here hd hk]
      simp
    · have h' : ∀ k' v', Defines l k' v' → ¬ SameKey k' key := fun k' v' hd hk => h ⟨k', v', hd, hk⟩
      simp only [List.cons_append, firstDef_cons_skip h', ih]

theorem readLines_append {a b : List Str} {n : Nat} {m : Store} :
    readLines n (a ++ b) m = (readLines n a m).bind (readLines (n + a.length) b) := by
  induction a generalizing n m with
  | nil => rfl
  | cons l a ih =>
    simp only [List.cons_append, readLines]
    cases parseLine l with
    | skip => simp only [ih, List.length_cons]; rw [show n + 1 + a.length = n + (a.length + 1) by omega]
    | define k v => simp only [ih, List.length_cons]; rw [show n + 1 + a.length = n + (a.length + 1) by omega]
    | noEquals => rfl
    | noKey => rfl
    | noValue => rfl

theorem readLines_ok_iff {ls : List Str} {n : Nat} {m : Store} :
    (∃ m', readLines n ls m = .ok m') ↔ ∀ l ∈ ls, ¬ Malformed l := by
  induction ls generalizing n m with
  | nil => simp [readLines]
  | cons l ls ih =>
    simp only [readLines, List.forall_mem_cons]
    cases hp : parseLine l with
    | skip => simp only [ih, ← parseLine_bad_iff l, hp]; simp
    | define k v => simp only [ih, ← parseLine_bad_iff l, hp]; simp
    | noEquals => simp only [← parseLine_bad_iff l, hp]; simp
    | noKey => simp only [← parseLine_bad_iff l, hp]; simp
    | noValue => simp only [← parseLine_bad_iff l, hp]; simp

theorem parseLine_congr {l l' : Str} (h : strTrim l = strTrim l') : parseLine l = parseLine l' := by
  unfold parseLine; rw [h]

theorem readLines_congr {ls ls' : List Str} (h : List.Forall₂ (fun a b => strTrim a = strTrim b) ls ls')
    (n : Nat) (m : Store) : readLines n ls m = readLines n ls' m := by
  induction h generalizing n m with
  | nil => rfl
  | cons h1 _ ih =>
    simp only [readLines, parseLine_congr h1]
    cases parseLine _ <;> simp only [ih]

theorem toCRLF_append (a b : Str) : toCRLF (a ++ b) = toCRLF a ++ toCRLF b := by
  simp [toCRLF]

theorem toCRLF_noNL {a : Str} (h : '\n' ∉ a) : toCRLF a = a := by
  induction a with
  | nil => rfl
  | cons c a ih =>
    simp only [List.mem_cons, not_or] at h
    have := ih h.2
    simp only [toCRLF, List.flatMap_cons] at this ⊢
    rw [if_neg (Ne.symm h.1), this]; rfl

theorem toCRLF_lines {ls : List Str} (h : ∀ l ∈ ls, '\n' ∉ l) :
    toCRLF ((ls.map (· ++ ['\n'])).flatten) = (((ls.map (· ++ ['\r'])).map (· ++ ['\n']))).flatten := by
  induction ls with
  | nil => rfl
  | cons l ls ih =>
    simp only [List.map_cons, List.flatten_cons, toCRLF_append]
    rw [ih (fun l hl => h l (by simp [hl])), toCRLF_noNL (h l (by simp))]
    simp [toCRLF]

theorem forall2_CR (ls : List Str) :
    List.Forall₂ (fun a b => strTrim a = strTrim b) (ls.map (· ++ ['\r'])) ls := by
  induction ls with
  | nil => exact List.Forall₂.nil
  | cons l ls ih =>
    refine List.Forall₂.cons ?_ ih
    exact strTrim_append_CR (by intro c hc; simp at hc; subst hc; exact Or.inr (Or.inr rfl))

theorem readLines_toCRLF (text : Str) (n : Nat) (m : Store) :
    readLines n (getlines (toCRLF text)) m = readLines n (getlines text) m := by
  obtain ⟨h1, h2 | ⟨init, last, h3, h4, h5⟩⟩ := getlines_isLines text
  · have hx : getlines (toCRLF text) = (getlines text).map (· ++ ['\r']) := by
      apply isLines_eq
      refine ⟨?_, Or.inl ?_⟩
      · intro l hl
        obtain ⟨l', hl', rfl⟩ := List.mem_map.1 hl
        simp [h1 l' hl']
      · conv_lhs => rw [h2]
        exact toCRLF_lines h1
    rw [hx]
    exact readLines_congr (forall2_CR _) n m
  · have hi : ∀ l ∈ init, '\n' ∉ l := fun l hl => h1 l (by rw [h3]; simp [hl])
    have hl : '\n' ∉ last := h1 last (by rw [h3]; simp)
    have hx : getlines (toCRLF text) = init.map (· ++ ['\r']) ++ [last] := by
      apply isLines_eq
      refine ⟨?_, Or.inr ⟨_, last, rfl, h4, ?_⟩⟩
      · intro l hl
        rcases List.mem_append.1 hl with hl | hl
        · obtain ⟨l', hl', rfl⟩ := List.mem_map.1 hl
          simp [hi l' hl']
        · simp at hl; subst hl; assumption
      · rw [h5, toCRLF_append, toCRLF_lines hi, toCRLF_noNL hl]
    rw [hx, h3]
    exact readLines_congr (List.rel_append (forall2_CR init) (List.Forall₂.cons rfl List.Forall₂.nil)) n m

/-! ## writing -/

theorem trimmed_self {s : Str} (h1 : ∀ c, s.head? = some c → ¬ Blank c)
    (h2 : ∀ c, s.getLast? = some c → ¬ BlankOrCR c) : Trimmed s s :=
  ⟨[], [], by simp, by simp, by simp, h1, h2⟩

theorem defines_written {k v : Str} (hk : GoodKey k) (hv : GoodValue v) :
    Defines (k ++ [' ', '=', ' '] ++ v) k v := by
  obtain ⟨k1, k2, k3, k4, k5⟩ := hk
  obtain ⟨v1, v2, v3, v4⟩ := hv
  refine ⟨?_, k ++ [' '], ' ' :: v, by simp, by simp [k3], ?_, k1, ?_, v1⟩
  · rintro (h | ⟨l, r, hl, he⟩)
    · exact not_blank_eq (h '=' (by simp))
    · cases k with
      | nil => exact k1 rfl
      | cons c k =>
        have := k4 c rfl
        cases l with
        | nil => simp at he; exact this.2 he.1
        | cons x l => simp at he; exact this.1 (he.1 ▸ hl x (by simp))
  · exact ⟨[], [' '], by simp, by simp, by simp [BlankOrCR], fun c hc => (k4 c hc).1, k5⟩
  · exact ⟨[' '], [], by simp, by simp [Blank], by simp, v3, v4⟩

theorem getlines_fileOf {pairs : List (Str × Str)} (h : ∀ p ∈ pairs, GoodKey p.1 ∧ GoodValue p.2) :
    getlines (fileOf pairs) = pairs.map fun p => p.1 ++ [' ', '=', ' '] ++ p.2 := by
  apply isLines_eq
  refine ⟨?_, Or.inl ?_⟩
  · intro l hl
    obtain ⟨p, hp, rfl⟩ := List.mem_map.1 hl
    have := h p hp
    simp [this.1.2.1, this.2.2.1]
  · simp only [fileOf, List.map_map, List.flatMap]
    rfl

theorem firstDef_written {pairs : List (Str × Str)} (h : ∀ p ∈ pairs, GoodKey p.1 ∧ GoodValue p.2)
    (key v : Str) :
    FirstDef (pairs.map fun p => p.1 ++ [' ', '=', ' '] ++ p.2) key v ↔ FirstPair pairs key v := by
  induction pairs with
  | nil =>
    simp only [List.map_nil, firstDef_nil, false_iff]
    rintro ⟨pre, k, post, he, -⟩
    simp at he
  | cons p pairs ih =>
    have hp := h p (by simp)
    have hd := defines_written hp.1 hp.2
    have ih := ih (fun q hq => h q (by simp [hq]))
    rw [List.map_cons]
    by_cases hk : SameKey p.1 key
    · rw [firstDef_cons_here hd hk]
      constructor
      · rintro rfl; exact ⟨[], p.1, pairs, rfl, hk, by simp⟩
      · rintro ⟨pre, k, post, he, hk', hpre⟩
        cases pre with
        | nil => simp at he; rw [he.1]
        | cons q pre => simp at he; exact absurd (he.1 ▸ hk) (hpre q (by simp))
    · rw [firstDef_cons_skip (fun k' v' hd' => by rw [← (defines_key_unique hd hd').1]; exact hk), ih]
      constructor
      · rintro ⟨pre, k, post, rfl, hk', hpre⟩
        refine ⟨p :: pre, k, post, rfl, hk', ?_⟩
        intro q hq
        rcases List.mem_cons.1 hq with rfl | hq
        · exact hk
        · exact hpre q hq
      · rintro ⟨pre, k, post, he, hk', hpre⟩
        cases pre with
        | nil => simp at he; rw [he.1] at hk; exact absurd hk' hk
        | cons q pre =>
          simp only [List.cons_append, List.cons.injEq] at he
          exact ⟨pre, k, post, he.2, hk', fun q hq => hpre q (by simp [hq])⟩

theorem insertNew_last {m : Store} {k v : Str} (h : ∀ p ∈ m, p.1 < k) :
    insertNew k v m = m ++ [(k, v)] := by
  induction m with
  | nil => rfl
  | cons p m ih =>
    have hp := h p (by simp)
    simp only [insertNew, List.cons_append]
    rw [if_neg (lt_asymm hp), if_neg (ne_of_gt hp), ih (fun q hq => h q (by simp [hq]))]

/-- reading a written sorted map appends it -/
theorem readLines_written {rest acc : Store} {n : Nat}
    (hs : Sorted (acc ++ rest)) (hg : ∀ p ∈ rest, GoodKey p.1 ∧ GoodValue p.2)
    (hl : ∀ p ∈ rest, lower p.1 = p.1) :
    readLines n (rest.map fun p => p.1 ++ [' ', '=', ' '] ++ p.2) acc = .ok (acc ++ rest) := by
  induction rest generalizing acc n with
  | nil => simp [readLines]
  | cons p rest ih =>
    have hp := hg p (by simp)
    simp only [List.map_cons, readLines, defines_parse (defines_written hp.1 hp.2)]
    rw [hl p (by simp), insertNew_last, ih]
    · simp
    · simpa using hs
    · exact fun q hq => hg q (by simp [hq])
    · exact fun q hq => hl q (by simp [hq])
    · intro q hq
      exact (List.pairwise_append.1 hs).2.2 q hq p (by simp)

theorem mem_find {m : Store} (hm : Sorted m) {p : Str × Str} (h : p ∈ m) : find p.1 m = some p.2 := by
  induction m with
  | nil => simp at h
  | cons q m ih =>
    simp only [Sorted, List.pairwise_cons] at hm
    simp only [find]
    rcases List.mem_cons.1 h with rfl | h
    · simp
    · rw [if_neg (ne_of_gt (hm.1 p h)), ih hm.2 h]

theorem find_mem {m : Store} {k v : Str} (h : find k m = some v) : (k, v) ∈ m := by
  induction m with
  | nil => simp [find] at h
  | cons q m ih =>
    simp only [find] at h
    split_ifs at h with hk
    · simp only [Option.some.injEq] at h; subst h; subst hk; simp
    · simp [ih h]

theorem lower_toNat (c : Char) : c.toLower = c ∨
    (65 ≤ c.toNat ∧ c.toNat ≤ 90 ∧ c.toLower.toNat = c.toNat + 32) := by
  by_cases h : 65 ≤ c.toNat ∧ c.toNat ≤ 90
  · right
    refine ⟨h.1, h.2, ?_⟩
    unfold Char.toLower
    have hc : c.val ≥ 'A'.val ∧ c.val ≤ 'Z'.val := by
      simp only [ge_iff_le, UInt32.le_iff_toNat_le]; exact h
    rw [dif_pos hc]
    change (c.val + _).toNat = c.val.toNat + 32
    rw [UInt32.toNat_add]
    have e2 : ('a'.val - 'A'.val).toNat = 32 := by decide
    have : c.val.toNat ≤ 90 := h.2
    omega
  · left
    unfold Char.toLower
    have hc : ¬ (c.val ≥ 'A'.val ∧ c.val ≤ 'Z'.val) := by
      simp only [ge_iff_le, UInt32.le_iff_toNat_le]; exact h
    rw [dif_neg hc]

/-- lower-casing never makes or destroys a non-letter -/
theorem toLower_eq_iff {c d : Char} (hd : d.toNat < 65) : c.toLower = d ↔ c = d := by
  rcases lower_toNat c with h | ⟨h1, h2, h3⟩
  · rw [h]
  · constructor
    · rintro rfl; omega
    · rintro rfl; omega

theorem blank_lower (c : Char) : Blank c.toLower ↔ Blank c := by
  unfold Blank
  rw [toLower_eq_iff (by decide), toLower_eq_iff (by decide)]
theorem blankOrCR_lower (c : Char) : BlankOrCR c.toLower ↔ BlankOrCR c := by
  unfold BlankOrCR
  rw [toLower_eq_iff (by decide), toLower_eq_iff (by decide), toLower_eq_iff (by decide)]

theorem mem_lower_iff {s : Str} {d : Char} (hd : d.toNat < 65) : d ∈ lower s ↔ d ∈ s := by
  constructor
  · intro h
    obtain ⟨c, hc, he⟩ := List.mem_map.1 h
    rw [toLower_eq_iff hd] at he
    exact he ▸ hc
  · intro h
    exact List.mem_map.2 ⟨d, h, (toLower_eq_iff hd).2 rfl⟩

theorem goodKey_lower {k : Str} (h : GoodKey k) : GoodKey (lower k) := by
  obtain ⟨k1, k2, k3, k4, k5⟩ := h
  refine ⟨by simpa [lower] using k1, by rwa [mem_lower_iff (by decide)],
    by rwa [mem_lower_iff (by decide)], ?_, ?_⟩
  · intro c hc
    rw [lower, List.head?_map, Option.map_eq_some_iff] at hc
    obtain ⟨d, hd, rfl⟩ := hc
    rw [blank_lower, ne_eq, toLower_eq_iff (by decide)]
    exact k4 d hd
  · intro c hc
    rw [lower, List.getLast?_map, Option.map_eq_some_iff] at hc
    obtain ⟨d, hd, rfl⟩ := hc
    rw [blankOrCR_lower]
    exact k5 d hd

theorem goodKey_of_defines {l k v : Str} (hl : '\n' ∉ l) (h : Defines l k v) :
    GoodKey k ∧ GoodValue v := by
  obtain ⟨hi, b, a, rfl, hb, ⟨lk, rk, rfl, hlk, hrk, hk1, hk2⟩, hk0, ⟨lv, rv, rfl, hlv, hrv, hv1, hv2⟩, hv0⟩ := h
  simp only [List.mem_append, List.mem_cons, not_or] at hl hb
  refine ⟨⟨hk0, hl.1.1.2, hb.1.2, fun c hc => ⟨hk1 c hc, ?_⟩, hk2⟩, hv0, hl.2.2.1.2, hv1, hv2⟩
  rintro rfl
  apply hi
  right
  cases k with
  | nil => simp at hc
  | cons x k =>
    simp at hc; subst hc
    exact ⟨lk, k ++ rk ++ '=' :: (lv ++ v ++ rv), hlk, by simp⟩

/-! ## numbers -/

theorem isDigit_iff (c : Char) : isDigit c = true ↔ Digit c := by
  unfold isDigit Digit
  simp only [Bool.and_eq_true, decide_eq_true_eq]
  rfl

theorem char_eq_of_toNat {c d : Char} (h : c.toNat = d.toNat) : c = d :=
  Char.ext (UInt32.toNat_inj.1 h)

theorem isSpace_iff (c : Char) : isSpace c = true ↔ Space c := by
  unfold isSpace Space
  simp only [Bool.or_eq_true, beq_iff_eq]
  constructor
  · rintro (((((rfl | rfl) | rfl) | rfl) | rfl) | rfl) <;> decide
  · rintro (h | ⟨h1, h2⟩)
    · left; left; left; left; left; exact char_eq_of_toNat h
    · have : c.toNat = 9 ∨ c.toNat = 10 ∨ c.toNat = 11 ∨ c.toNat = 12 ∨ c.toNat = 13 := by omega
      rcases this with h | h | h | h | h
      · left; left; left; left; right; exact char_eq_of_toNat h
      · left; left; left; right; exact char_eq_of_toNat h
      · left; right; exact char_eq_of_toNat h
      · right; exact char_eq_of_toNat h
      · left; left; right; exact char_eq_of_toNat h

theorem digitsVal_eq (s : Str) :
    digitsVal s = Nat.ofDigits 10 ((s.map fun c => c.toNat - 48).reverse) := by
  unfold digitsVal
  rw [Nat.ofDigits_eq_foldr, List.foldr_reverse, List.foldl_map]
  congr 1
  funext n c
  simp only [digitVal, Nat.cast_id]
  change 10 * n + (c.toNat - 48) = _
  omega

theorem takeWhile_all {p : Char → Bool} {d r : Str} (hd : ∀ c ∈ d, p c = true)
    (hr : ∀ c, r.head? = some c → p c = false) : (d ++ r).takeWhile p = d := by
  induction d with
  | nil =>
    cases r with
    | nil => rfl
    | cons c r => simp [hr c rfl]
  | cons c d ih =>
    simp only [List.cons_append, List.takeWhile_cons, hd c (by simp), if_true]
    rw [ih (fun c hc => hd c (by simp [hc]))]

theorem dropWhile_all {p : Char → Bool} {d r : Str} (hd : ∀ c ∈ d, p c = true)
    (hr : ∀ c, r.head? = some c → p c = false) : (d ++ r).dropWhile p = r := by
  induction d with
  | nil =>
    cases r with
    | nil => rfl
    | cons c r => simp [hr c rfl]
  | cons c d ih =>
    simp only [List.cons_append, List.dropWhile_cons, hd c (by simp), if_true]
    rw [ih (fun c hc => hd c (by simp [hc]))]

theorem not_isDigit_of {c : Char} (h : ¬ Digit c) : isDigit c = false := by
  rw [← isDigit_iff] at h; simpa using h

/-- the scanner finds exactly the decomposition of the specification -/
theorem signAndDigits_spec (s : Str) (n : Int) :
    StartsWithInt s n ↔
      (signAndDigits (s.dropWhile isSpace)).2 ≠ [] ∧
      n = (if (signAndDigits (s.dropWhile isSpace)).1 then -(digitsVal (signAndDigits (s.dropWhile isSpace)).2 : Int)
        else (digitsVal (signAndDigits (s.dropWhile isSpace)).2 : Int)) := by
  constructor
  · rintro ⟨ws, sign, digits, rest, rfl, hws, hsign, hne, hdig, hrest, rfl⟩
    have hd : ∀ c ∈ digits, isDigit c = true := fun c hc => (isDigit_iff c).2 (hdig c hc)
    have hr : ∀ c, rest.head? = some c → isDigit c = false := fun c hc => not_isDigit_of (hrest c hc)
    obtain ⟨d0, dt, rfl⟩ : ∃ d0 dt, digits = d0 :: dt := by
      cases digits with
      | nil => exact absurd rfl hne
      | cons a b => exact ⟨a, b, rfl⟩
    have hd0 := hdig d0 (by simp)
    have hdrop : (ws ++ sign ++ (d0 :: dt) ++ rest).dropWhile isSpace = sign ++ ((d0 :: dt) ++ rest) := by
      rw [List.append_assoc, List.append_assoc]
      apply dropWhile_all
      · intro c hc; exact (isSpace_iff c).2 (hws c hc)
      · intro c hc
        have : ¬ Space c := by
          rcases hsign with rfl | rfl | rfl
          · simp at hc; subst hc
            unfold Digit at hd0; unfold Space; omega
          · simp at hc; subst hc; unfold Space; decide
          · simp at hc; subst hc; unfold Space; decide
        rw [← isSpace_iff] at this; simpa using this
    rw [hdrop]
    have htw : ((d0 :: dt) ++ rest).takeWhile isDigit = d0 :: dt := takeWhile_all hd hr
    rcases hsign with rfl | rfl | rfl
    · have h1 : d0 ≠ '-' := by rintro rfl; exact absurd hd0 (by unfold Digit; decide)
      have h2 : d0 ≠ '+' := by rintro rfl; exact absurd hd0 (by unfold Digit; decide)
      have : signAndDigits ([] ++ ((d0 :: dt) ++ rest)) = (false, d0 :: dt) := by
        rw [List.nil_append]
        conv_rhs => rw [← htw]
        rw [List.cons_append]
        unfold signAndDigits
        split
        · rename_i heq; simp at heq; exact absurd heq.1 h1
        · rename_i heq; simp at heq; exact absurd heq.1 h2
        · rfl
      rw [this]; simp [digitsVal_eq]
    · have : signAndDigits (['+'] ++ ((d0 :: dt) ++ rest)) = (false, d0 :: dt) := by
        conv_rhs => rw [← htw]
        rfl
      rw [this]; simp [digitsVal_eq]
    · have : signAndDigits (['-'] ++ ((d0 :: dt) ++ rest)) = (true, d0 :: dt) := by
        conv_rhs => rw [← htw]
        rfl
      rw [this]; simp [digitsVal_eq]
  · rintro ⟨hne, rfl⟩
    obtain ⟨ws, hs, hws, -⟩ := dropWhile_split isSpace s
    generalize hu : s.dropWhile isSpace = u at *
    have key : ∀ t : Str, ∃ rest, t = t.takeWhile isDigit ++ rest ∧ (∀ c ∈ t.takeWhile isDigit, Digit c) ∧
        (∀ c, rest.head? = some c → ¬ Digit c) := by
      intro t
      refine ⟨t.dropWhile isDigit, List.takeWhile_append_dropWhile.symm, ?_, ?_⟩
      · intro c hc
        exact (isDigit_iff c).1 (List.all_eq_true.1 (List.all_takeWhile (p := isDigit) (l := t)) c hc)
      · intro c hc
        have := List.head?_dropWhile_not isDigit t
        rw [hc] at this
        rw [← isDigit_iff]; simpa using this
    have hws' : ∀ c ∈ ws, Space c := fun c hc => (isSpace_iff c).1 (hws c hc)
    unfold signAndDigits at hne ⊢
    split at hne
    · rename_i t
      obtain ⟨rest, h1, h2, h3⟩ := key t
      refine ⟨ws, ['-'], t.takeWhile isDigit, rest, ?_, hws', by simp, hne, h2, h3, ?_⟩
      · rw [hs]; conv_lhs => rw [h1]
        simp
      · simp [digitsVal_eq]
    · rename_i t
      obtain ⟨rest, h1, h2, h3⟩ := key t
      refine ⟨ws, ['+'], t.takeWhile isDigit, rest, ?_, hws', by simp, hne, h2, h3, ?_⟩
      · rw [hs]; conv_lhs => rw [h1]
        simp
      · simp [digitsVal_eq]
    · obtain ⟨rest, h1, h2, h3⟩ := key u
      refine ⟨ws, [], u.takeWhile isDigit, rest, ?_, hws', by simp, hne, h2, h3, ?_⟩
      · rw [hs]; conv_lhs => rw [h1]
        simp
      · simp [digitsVal_eq]

theorem csv_ne_nil {q : Bool} {t : Str} {fs : List Str} (h : Spec.Csv q t fs) : fs ≠ [] := by
  induction h <;> simp_all

theorem csv_cons {q : Bool} {t : Str} {fs : List Str} (h : Spec.Csv q t fs) : ∃ f rest, fs = f :: rest :=
  List.exists_cons_of_ne_nil (csv_ne_nil h)

/-- the tokenizer reads comma-separated values -/
theorem scan_iff (q : Bool) (tok t : Str) (fs : List Str) :
    scan q tok t = .ok fs ↔ ∃ f rest, fs = (tok ++ f) :: rest ∧ Spec.Csv q t (f :: rest) := by
  fun_induction scan q tok t generalizing fs with
  | case1 q tok =>
    constructor
    · intro h; cases h; exact ⟨[], [], by simp, .done q⟩
    · rintro ⟨f, rest, rfl, h⟩; cases h; simp
  | case2 q tok =>
    constructor
    · intro h; cases h
    · rintro ⟨f, rest, -, h⟩
      cases h
      all_goals simp_all
  | case3 q tok t ih =>
    rw [ih]
    constructor
    · rintro ⟨f, rest, rfl, h⟩; exact ⟨'\n' :: f, rest, by simp, .newline h⟩
    · rintro ⟨f, rest, rfl, h⟩
      cases h with
      | char h1 h2 h3 h => exact absurd rfl h3
      | newline h => exact ⟨_, _, by simp, h⟩
      | escaped h1 h => simp at h1
  | case4 q tok d t hd hd' ih =>
    rw [ih]
    constructor
    · rintro ⟨f, rest, rfl, h⟩; exact ⟨d :: f, rest, by simp, .escaped (by tauto) h⟩
    · rintro ⟨f, rest, rfl, h⟩
      cases h with
      | char h1 h2 h3 h => exact absurd rfl h3
      | newline h => exact absurd rfl hd
      | escaped h1 h => exact ⟨_, _, by simp, h⟩
  | case5 q tok d t hd hd' =>
    constructor
    · intro h; cases h
    · rintro ⟨f, rest, -, h⟩
      cases h with
      | char h1 h2 h3 h => exact absurd rfl h3
      | newline h => exact absurd rfl hd
      | escaped h1 h => exact absurd h1 (by tauto)
  | case6 tok t hc ih =>
    rw [ih]
    constructor
    · rintro ⟨f, rest, rfl, h⟩; exact ⟨',' :: f, rest, by simp, .quotedComma h⟩
    · rintro ⟨f, rest, rfl, h⟩
      cases h with
      | char h1 h2 h3 h => exact absurd rfl h1
      | quotedComma h => exact ⟨_, _, by simp, h⟩
  | case7 q tok t hq ts hts hc ih =>
    obtain rfl : q = false := Bool.eq_false_of_not_eq_true hq
    constructor
    · intro h
      cases h
      obtain ⟨f, rest, e, h⟩ := (ih ts).mp hts
      exact ⟨[], ts, by simp, .comma (by rw [e, List.nil_append]; exact h)⟩
    · rintro ⟨f, rest, rfl, h⟩
      cases h with
      | char h1 h2 h3 h => exact absurd rfl h1
      | comma h =>
        obtain ⟨f', rest', rfl⟩ := csv_cons h
        have := (ih (f' :: rest')).mpr ⟨f', rest', rfl, h⟩
        rw [hts] at this
        cases this
        simp
  | case8 q tok t hq e hts hc ih =>
    obtain rfl : q = false := Bool.eq_false_of_not_eq_true hq
    constructor
    · intro h; cases h
    · rintro ⟨f, rest, rfl, h⟩
      cases h with
      | char h1 h2 h3 h => exact absurd rfl h1
      | comma h =>
        obtain ⟨f', rest', rfl⟩ := csv_cons h
        have := (ih (f' :: rest')).mpr ⟨f', rest', rfl, h⟩
        rw [hts] at this
        cases this
  | case9 q tok t hc hcomma ih =>
    rw [ih]
    constructor
    · rintro ⟨f, rest, rfl, h⟩; exact ⟨f, rest, rfl, .quote h⟩
    · rintro ⟨f, rest, rfl, h⟩
      cases h with
      | char h1 h2 h3 h => exact absurd rfl h2
      | quote h => exact ⟨_, _, rfl, h⟩
  | case10 q tok c t hc hcomma hquote ih =>
    rw [ih]
    constructor
    · rintro ⟨f, rest, rfl, h⟩; exact ⟨c :: f, rest, by simp, .char hcomma hquote hc h⟩
    · rintro ⟨f, rest, rfl, h⟩
      cases h with
      | char h1 h2 h3 h => exact ⟨_, _, by simp, h⟩
      | comma h => exact absurd rfl hcomma
      | quotedComma h => exact absurd rfl hcomma
      | quote h => exact absurd rfl hquote
      | newline h => exact absurd rfl hc
      | escaped h1 h => exact absurd rfl hc

theorem tokens_iff {t : Str} (ht : t ≠ []) (fs : List Str) : tokens t = .ok fs ↔ Spec.Csv false t fs := by
  rw [tokens, if_neg ht, scan_iff]
  constructor
  · rintro ⟨f, rest, rfl, h⟩; exact h
  · intro h
    obtain ⟨f, rest, rfl⟩ := csv_cons h
    exact ⟨f, rest, rfl, h⟩

/-- a bad escape after a character or an escape -/
theorem badEscape_char {c : Char} {t : Str} (hc : c ≠ '\\') : Spec.BadEscape (c :: t) ↔ Spec.BadEscape t := by
  constructor
  · rintro ⟨before, after, h, hb, ha⟩
    cases before with
    | nil => simp only [List.nil_append, List.cons.injEq] at h; exact absurd h.1 hc
    | cons b before =>
      simp only [List.cons_append, List.cons.injEq] at h
      obtain ⟨rfl, rfl⟩ := h
      cases hb with
      | char _ hb => exact ⟨before, after, rfl, hb, ha⟩
      | escape _ hb => exact absurd rfl hc
  · rintro ⟨before, after, rfl, hb, ha⟩
    exact ⟨c :: before, after, rfl, .char hc hb, ha⟩

theorem badEscape_escape {c : Char} {t : Str} (hc : c = 'n' ∨ c = ',' ∨ c = '"' ∨ c = '\\') :
    Spec.BadEscape ('\\' :: c :: t) ↔ Spec.BadEscape t := by
  constructor
  · rintro ⟨before, after, h, hb, ha⟩
    cases hb with
    | nil =>
      simp only [List.nil_append, List.cons.injEq, true_and] at h
      have := ha c t h.symm
      tauto
    | char h1 hb =>
      simp only [List.cons_append, List.cons.injEq] at h
      exact absurd h.1.symm h1
    | @escape t' d _ hb =>
      simp only [List.cons_append, List.cons.injEq, true_and] at h
      obtain ⟨rfl, rfl⟩ := h
      exact ⟨t', after, rfl, hb, ha⟩
  · rintro ⟨before, after, rfl, hb, ha⟩
    exact ⟨'\\' :: c :: before, after, rfl, .escape hc hb, ha⟩

theorem scan_error (q : Bool) (tok t : Str) : (∃ e, scan q tok t = .error e) ↔ Spec.BadEscape t := by
  fun_induction scan q tok t with
  | case1 q tok =>
    constructor
    · rintro ⟨e, h⟩; cases h
    · rintro ⟨before, after, h, -⟩; simp at h
  | case2 q tok =>
    exact ⟨fun _ => ⟨[], [], rfl, .nil, by simp⟩, fun _ => ⟨_, rfl⟩⟩
  | case3 q tok t ih => rw [ih, badEscape_escape (by simp)]
  | case4 q tok d t hd hd' ih => rw [ih, badEscape_escape (by tauto)]
  | case5 q tok d t hd hd' =>
    refine ⟨fun _ => ⟨[], d :: t, rfl, .nil, ?_⟩, fun _ => ⟨_, rfl⟩⟩
    rintro c t' h
    simp only [List.cons.injEq] at h
    obtain ⟨rfl, rfl⟩ := h
    tauto
  | case6 tok t hc ih => rw [ih, badEscape_char hc]
  | case7 q tok t hq ts hts hc ih =>
    rw [badEscape_char hc, ← ih, hts]
    simp
  | case8 q tok t hq e hts hc ih =>
    rw [badEscape_char hc, ← ih, hts]
  | case9 q tok t hc hcomma ih => rw [ih, badEscape_char hc]
  | case10 q tok c t hc hcomma hquote ih => rw [ih, badEscape_char hc]

theorem tokens_error (t : Str) : (∃ e, tokens t = .error e) ↔ Spec.BadEscape t := by
  by_cases ht : t = []
  · subst ht
    constructor
    · rintro ⟨e, h⟩; cases h
    · rintro ⟨before, after, h, -⟩; simp at h
  · rw [tokens, if_neg ht, scan_error]

/-- a prefix without special characters -/
theorem csv_plain {x t f : Str} {fs : List Str} {q : Bool} (hx : ',' ∉ x ∧ '"' ∉ x ∧ '\\' ∉ x) (h : Spec.Csv q t (f :: fs)) :
    Spec.Csv q (x ++ t) ((x ++ f) :: fs) := by
  induction x with
  | nil => exact h
  | cons c x ih =>
    simp only [List.mem_cons, not_or] at hx
    exact .char (Ne.symm hx.1.1) (Ne.symm hx.2.1.1) (Ne.symm hx.2.2.1) (ih ⟨hx.1.2, hx.2.1.2, hx.2.2.2⟩)

/-- fields without special characters -/
theorem csv_join {ts : List Str} (hne : ts ≠ []) (h : ∀ t ∈ ts, ',' ∉ t ∧ '"' ∉ t ∧ '\\' ∉ t) : Spec.Csv false (joinComma ts) ts := by
  induction ts with
  | nil => exact absurd rfl hne
  | cons t ts ih =>
    cases ts with
    | nil => simpa [joinComma] using csv_plain (h t (by simp)) (.done false)
    | cons u us =>
      have := csv_plain (h t (by simp)) (Spec.Csv.comma (ih (by simp) fun x hx => h x (by simp [hx])))
      simpa [joinComma] using this

/-- within quotes -/
theorem csv_quoted (x : Str) {t f : Str} {fs : List Str} (h : Spec.Csv true t (f :: fs)) :
    Spec.Csv true ((x.flatMap fun c => if c = '"' ∨ c = '\\' then ['\\', c] else [c]) ++ t) ((x ++ f) :: fs) := by
  induction x with
  | nil => exact h
  | cons c x ih =>
    rw [List.flatMap_cons]
    by_cases hc : c = '"' ∨ c = '\\'
    · rw [if_pos hc]
      exact .escaped (Or.inr hc) ih
    · rw [if_neg hc]
      rw [not_or] at hc
      by_cases hcomma : c = ','
      · subst hcomma; exact .quotedComma ih
      · exact .char hcomma hc.1 hc.2 ih

/-- fields in quotes -/
theorem csv_quote {ts : List Str} (hne : ts ≠ []) : Spec.Csv false (joinComma (ts.map Spec.quoteField)) ts := by
  induction ts with
  | nil => exact absurd rfl hne
  | cons t ts ih =>
    cases ts with
    | nil =>
      have := Spec.Csv.quote (quoted := false) (csv_quoted t (Spec.Csv.quote (quoted := true) (.done false)))
      simpa [joinComma, Spec.quoteField] using this
    | cons u us =>
      have := Spec.Csv.quote (quoted := false) (csv_quoted t (Spec.Csv.quote (quoted := true) (.comma (ih (by simp)))))
      simpa [joinComma, Spec.quoteField, List.append_assoc] using this

/-- the two ways of reading numbers agree if there is no bad escape -/
theorem scanNumbers_ok {α : Type} (stod : Str → Except ConvError α) (q : Bool) (tok t : Str) (ts : List Str)
    (h : scan q tok t = .ok ts) :
    scanNumbers stod q tok t = match stodAll stod ts with | .ok xs => .ok xs | .error e => .error (.inl e) := by
  fun_induction scan q tok t generalizing ts with
  | case1 q tok =>
    cases h
    unfold scanNumbers stodAll stodAll
    cases stod tok <;> rfl
  | case2 q tok => cases h
  | case3 q tok t ih => unfold scanNumbers; rw [if_pos rfl]; simp only [if_true]; exact ih ts h
  | case4 q tok d t hd hd' ih => unfold scanNumbers; rw [if_pos rfl]; simp only; rw [if_neg hd, if_pos hd']; exact ih ts h
  | case5 q tok d t hd hd' => cases h
  | case6 tok t hc ih => unfold scanNumbers; rw [if_neg hc, if_pos rfl, if_pos rfl]; exact ih ts h
  | case7 q tok t hq us hus hc ih =>
    cases h
    unfold scanNumbers stodAll
    rw [if_neg hc, if_pos rfl, if_neg hq]
    cases stod tok with
    | error e => rfl
    | ok x =>
      simp only
      rw [ih us hus]
      cases stodAll stod us <;> rfl
  | case8 q tok t hq e hts hc ih => cases h
  | case9 q tok t hc hcomma ih => unfold scanNumbers; rw [if_neg hc, if_neg hcomma, if_pos rfl]; exact ih ts h
  | case10 q tok c t hc hcomma hquote ih => unfold scanNumbers; rw [if_neg hc, if_neg hcomma, if_neg hquote]; exact ih ts h

/-- and a list of numbers is returned only if there is none -/
theorem scanNumbers_error {α : Type} (stod : Str → Except ConvError α) (q : Bool) (tok t : Str) (e : EscapeError)
    (h : scan q tok t = .error e) : ∃ e', scanNumbers stod q tok t = .error e' := by
  fun_induction scan q tok t with
  | case1 q tok => cases h
  | case2 q tok => unfold scanNumbers; rw [if_pos rfl]; exact ⟨_, rfl⟩
  | case3 q tok t ih => unfold scanNumbers; rw [if_pos rfl]; simp only [if_true]; exact ih h
  | case4 q tok d t hd hd' ih => unfold scanNumbers; rw [if_pos rfl]; simp only; rw [if_neg hd, if_pos hd']; exact ih h
  | case5 q tok d t hd hd' => unfold scanNumbers; rw [if_pos rfl]; simp only; rw [if_neg hd, if_neg hd']; exact ⟨_, rfl⟩
  | case6 tok t hc ih => unfold scanNumbers; rw [if_neg hc, if_pos rfl, if_pos rfl]; exact ih h
  | case7 q tok t hq us hus hc ih => cases h
  | case8 q tok t hq e' hts hc ih =>
    unfold scanNumbers
    rw [if_neg hc, if_pos rfl, if_neg hq]
    cases stod tok with
    | error e => exact ⟨_, rfl⟩
    | ok x =>
      obtain ⟨e2, h2⟩ := ih hts
      simp only [h2]
      exact ⟨_, rfl⟩
  | case9 q tok t hc hcomma ih => unfold scanNumbers; rw [if_neg hc, if_neg hcomma, if_pos rfl]; exact ih h
  | case10 q tok c t hc hcomma hquote ih => unfold scanNumbers; rw [if_neg hc, if_neg hcomma, if_neg hquote]; exact ih h

theorem mem_joinComma {ts : List Str} {c : Char} (h : c ∈ joinComma ts) : c = ',' ∨ ∃ t ∈ ts, c ∈ t := by
  induction ts with
  | nil => simp [joinComma] at h
  | cons t ts ih =>
    cases ts with
    | nil => exact Or.inr ⟨t, by simp, h⟩
    | cons u us =>
      rw [joinComma, List.mem_append, List.mem_cons] at h
      · rcases h with h | h | h
        · exact Or.inr ⟨t, by simp, h⟩
        · exact Or.inl h
        · rcases ih h with h | ⟨x, hx, hc⟩
          · exact Or.inl h
          · exact Or.inr ⟨x, by simp [hx], hc⟩
      · simp

theorem stodAll_ok_iff {α : Type} (stod : Str → Except ConvError α) (ts : List Str) (xs : List α) :
    stodAll stod ts = .ok xs ↔ List.Forall₂ (fun t x => stod t = .ok x) ts xs := by
  induction ts generalizing xs with
  | nil =>
    simp only [stodAll, Except.ok.injEq]
    constructor
    · rintro rfl; exact .nil
    · intro h; cases h; rfl
  | cons t ts ih =>
    simp only [stodAll]
    cases ht : stod t with
    | error e =>
      simp only [reduceCtorEq, false_iff]
      intro h; cases h with | cons h1 _ => rw [ht] at h1; cases h1
    | ok x =>
      cases hs : stodAll stod ts with
      | error e =>
        simp only [reduceCtorEq, false_iff]
        intro h
        cases h with
        | cons h1 h2 => rw [(ih _).2 h2] at hs; cases hs
      | ok ys =>
        simp only [Except.ok.injEq]
        constructor
        · rintro rfl; exact .cons ht ((ih ys).1 hs)
        · intro h
          cases h with
          | cons h1 h2 =>
            rw [ht] at h1; cases h1
            have := (ih _).2 h2
            rw [hs] at this; cases this; rfl

end ISO.Properties
