import Verif.Lemmas.PropertiesRead

/-!
# C01-C05: the property store
-/

namespace ISO.Props
open ISO.Spec ISO.Properties

/-- A `Properties` object as its user gets it: built from nothing, one file or two files (with these
texts), then changed by these `putProperty` calls.  (A constructor that throws leaves no object.) -/
inductive Constructed : List Str → Store → Prop
  | empty : Constructed [] Properties.empty
  | file {t : Str} {m : Store} : ofFile (some t) = .ok m → Constructed [t] m
  | files {b d : Str} {m : Store} : ofFiles (some b) (some d) = .ok m → Constructed [b, d] m

/-- see `Constructed` -/
def Reachable (texts : List Str) (puts : List (Str × Str)) (m : Store) : Prop :=
  ∃ m0, Constructed texts m0 ∧ m = puts.foldl (fun m p => putProperty p.1 p.2 m) m0

/-! ### helper lemmas -/

theorem constructed_spec {texts : List Str} {m : Store} (h : Constructed texts m) {ls : List Str}
    (hl : AllLines texts ls) :
    Sorted m ∧ ∀ key v, getProperty key m = some v ↔ FirstDef ls key v := by
  have h0 : Sorted Properties.empty := List.Pairwise.nil
  obtain ⟨lss, h2, rfl⟩ := hl
  cases h with
  | empty =>
    cases h2
    refine ⟨h0, fun key v => ?_⟩
    simp [firstDef_nil, getProperty, Properties.empty, find]
  | file hf =>
    cases h2 with
    | cons h3 h4 =>
      cases h4
      simp only [ofFile, readFile, isLines_eq h3] at hf
      obtain ⟨h5, h6⟩ := readLines_spec h0 hf
      refine ⟨h5, fun key v => ?_⟩
      simp only [getProperty, h6, Properties.empty, find]; simp
  | files hf =>
    cases h2 with
    | cons h3 h4 =>
      cases h4 with
      | cons h5 h6 =>
        cases h6
        rename_i lb ld
        simp only [ofFiles, readFile, isLines_eq h3, isLines_eq h5] at hf
        cases hb : readLines 0 lb Properties.empty with
        | error e => rw [hb] at hf; cases hf
        | ok m1 =>
          rw [hb] at hf
          obtain ⟨h7, h8⟩ := readLines_spec h0 hb
          obtain ⟨h9, h10⟩ := readLines_spec h7 hf
          refine ⟨h9, fun key v => ?_⟩
          simp only [Properties.empty, find, reduceCtorEq, false_or, true_and] at h8
          simp only [getProperty, h10, List.flatten_cons, List.flatten_nil, List.append_nil, firstDef_append, h8]
          refine or_congr Iff.rfl (and_congr ?_ Iff.rfl)
          rw [Option.eq_none_iff_forall_not_mem]
          simp only [Option.mem_def, h8, not_exists]

theorem puts_sorted {puts : List (Str × Str)} {m : Store} (hm : Sorted m) :
    Sorted (puts.foldl (fun m p => putProperty p.1 p.2 m) m) := by
  induction puts generalizing m with
  | nil => exact hm
  | cons p puts ih => exact ih (insertOver_sorted hm _ _)

theorem puts_spec (puts : List (Str × Str)) (m : Store) (key v : Str) :
    getProperty key (puts.foldl (fun m p => putProperty p.1 p.2 m) m) = some v ↔
      LastPut puts key v ∨ (NoPut puts key ∧ getProperty key m = some v) := by
  induction puts using List.reverseRecOn generalizing v with
  | nil =>
    simp only [List.foldl_nil, NoPut, LastPut]; simp
  | append_singleton puts p ih =>
    rw [List.foldl_append]
    simp only [List.foldl_cons, List.foldl_nil, putProperty, getProperty, find_insertOver]
    by_cases hk : SameKey p.1 key
    · rw [if_pos (show lower key = lower p.1 from hk.symm)]
      have hn : ¬ NoPut (puts ++ [p]) key := fun h => h p (by simp) hk
      simp only [hn, false_and, or_false, Option.some.injEq]
      constructor
      · rintro rfl; exact ⟨puts, p.1, [], rfl, hk, by simp⟩
      · rintro ⟨pre, k, post, he, hk', hpost⟩
        rcases List.eq_nil_or_concat post with rfl | ⟨post', q, rfl⟩
        · have := List.append_inj' he (by simp)
          simp at this; rw [this.2]
        · rw [List.concat_eq_append, ← List.cons_append, ← List.append_assoc] at he
          have := (List.append_inj' he (by simp)).2
          simp at this; subst this
          exact absurd hk (hpost p (by simp))
    · rw [if_neg (fun h => hk h.symm)]
      simp only [getProperty, putProperty] at ih
      rw [ih]
      refine or_congr ?_ (and_congr ?_ Iff.rfl)
      · constructor
        · rintro ⟨pre, k, post, rfl, hk', hpost⟩
          refine ⟨pre, k, post ++ [p], by simp, hk', ?_⟩
          intro q hq
          rcases List.mem_append.1 hq with hq | hq
          · exact hpost q hq
          · simp at hq; subst hq; exact hk
        · rintro ⟨pre, k, post, he, hk', hpost⟩
          rcases List.eq_nil_or_concat post with rfl | ⟨post', q, rfl⟩
          · have := (List.append_inj' he (by simp)).2
            simp at this; rw [this] at hk; exact absurd hk' hk
          · rw [List.concat_eq_append, ← List.cons_append, ← List.append_assoc] at he
            have := (List.append_inj' he (by simp)).1
            exact ⟨pre, k, post', this, hk', fun q hq => hpost q (by simp [hq])⟩
      · constructor
        · intro h q hq
          rcases List.mem_append.1 hq with hq | hq
          · exact h q hq
          · simp at hq; subst hq; exact hk
        · exact fun h q hq => h q (by simp [hq])

/-! ### C01 -/

/-- C01: two keys that differ only in letter case get the same answer from every look-up. -/
theorem C01_case_insensitive (m : Store) {k k' : Str} (h : SameKey k k') :
    getProperty k m = getProperty k' m ∧ contains k m = contains k' m ∧
    getPropertyAsBool k m = getPropertyAsBool k' m ∧ getPropertyAsInt k m = getPropertyAsInt k' m ∧
    (∀ (α : Type) (stod : Str → Except ConvError α),
      getPropertyAsDouble stod k m = getPropertyAsDouble stod k' m ∧
      getPropertyAsDoubleVector stod k m = getPropertyAsDoubleVector stod k' m) := by
  have h1 : getProperty k m = getProperty k' m := by
    unfold getProperty; rw [(sameKey_iff k k').1 h]
  refine ⟨h1, ?_, ?_, ?_, fun α stod => ⟨?_, ?_⟩⟩
  · change (getProperty k m).isSome = (getProperty k' m).isSome; rw [h1]
  all_goals simp only [getPropertyAsBool, getPropertyAsInt, getPropertyAsDouble, getPropertyAsDoubleVector, h1]

/-- C01: a put under one spelling is seen under every other spelling, and under no other key. -/
theorem C01_put_visible (m : Store) (k k' v : Str) :
    (SameKey k k' → getProperty k' (putProperty k v m) = some v ∧ contains k' (putProperty k v m) = true) ∧
    (¬ SameKey k k' → getProperty k' (putProperty k v m) = getProperty k' m ∧
      contains k' (putProperty k v m) = contains k' m) := by
  simp only [getProperty, contains, putProperty, find_insertOver]
  constructor
  · intro h; rw [if_pos (((sameKey_iff k k').1 h).symm)]; simp
  · intro h; rw [if_neg (fun e => h e.symm)]; simp

example : SameKey "wallU".toList "WALLu".toList ∧ ¬ SameKey "wallU".toList "wallA".toList := by
  unfold SameKey; decide +kernel

/-! ### C02 -/

/-- C02: what a look-up returns after any construction and any puts. -/
theorem C02_lookup {texts : List Str} {puts : List (Str × Str)} {m : Store}
    (h : Reachable texts puts m) {ls : List Str} (hl : AllLines texts ls) (key v : Str) :
    getProperty key m = some v ↔
      LastPut puts key v ∨ (NoPut puts key ∧ FirstDef ls key v) := by
  obtain ⟨m0, h0, rfl⟩ := h
  rw [puts_spec, (constructed_spec h0 hl).2]

/-- C02: a key present in the building file is never taken from the defaults file, one absent from it
always is. -/
theorem C02_building_beats_defaults {b d : Str} {m : Store} (h : ofFiles (some b) (some d) = .ok m)
    {lb ld : List Str} (hb : IsLines b lb) (hd : IsLines d ld) (key v : Str) :
    (FirstDef lb key v → getProperty key m = some v) ∧
    ((¬ ∃ v', FirstDef lb key v') → (getProperty key m = some v ↔ FirstDef ld key v)) := by
  have hl : AllLines [b, d] (lb ++ ld) := ⟨[lb, ld], .cons hb (.cons hd .nil), by simp⟩
  have := (constructed_spec (.files h) hl).2 key v
  rw [this, firstDef_append]
  exact ⟨fun h => Or.inl h, fun hn => ⟨fun h' => h'.elim (fun h => absurd ⟨v, h⟩ hn) (fun h => h.2),
    fun h' => Or.inr ⟨hn, h'⟩⟩⟩

/-- C02: `contains` and the key iteration agree with look-up; keys are listed once each, lower-case, in
ascending order, and `size` counts them. -/
theorem C02_keys {texts : List Str} {puts : List (Str × Str)} {m : Store}
    (h : Reachable texts puts m) :
    (keys m).Pairwise (· < ·) ∧ (keys m).Nodup ∧ size m = (keys m).length ∧
    (∀ k, contains k m = true ↔ ∃ v, getProperty k m = some v) ∧
    (∀ k, (∃ k' ∈ keys m, SameKey k' k) ↔ contains k m = true) := by
  obtain ⟨m0, h0, rfl⟩ := h
  have hal : AllLines texts ((texts.map getlines).flatten) := by
    refine ⟨texts.map getlines, ?_, rfl⟩
    induction texts with
    | nil => exact .nil
    | cons t ts ih => exact .cons (getlines_isLines t) (by
        clear ih h0
        induction ts with
        | nil => exact .nil
        | cons t ts ih => exact .cons (getlines_isLines t) ih)
  have hs := puts_sorted (puts := puts) (constructed_spec h0 hal).1
  have hlow : ∀ p ∈ puts.foldl (fun m p => putProperty p.1 p.2 m) m0, lower p.1 = p.1 := by
    have base : ∀ (n : Nat) (ls : List Str) (a a' : Store), (∀ p ∈ a, lower p.1 = p.1) →
        readLines n ls a = .ok a' → ∀ p ∈ a', lower p.1 = p.1 := by
      intro n ls
      induction ls generalizing n with
      | nil => intro a a' ha h; simp only [readLines, Except.ok.injEq] at h; subst h; exact ha
      | cons l ls ih =>
        intro a a' ha h
        simp only [readLines] at h
        cases hp : parseLine l with
        | skip => rw [hp] at h; exact ih _ _ _ ha h
        | define k v =>
          rw [hp] at h
          refine ih _ _ _ ?_ h
          intro p hpm
          rcases mem_insertNew hpm with hpm | hpm
          · exact ha p hpm
          · obtain ⟨k0, -, rfl⟩ := (parseLine_define_iff l k v).1 hp
            rw [hpm, lower_idem]
        | noEquals => rw [hp] at h; cases h
        | noKey => rw [hp] at h; cases h
        | noValue => rw [hp] at h; cases h
    have hm0 : ∀ p ∈ m0, lower p.1 = p.1 := by
      cases h0 with
      | empty => simp [Properties.empty]
      | file hf => exact base _ _ _ _ (by simp [Properties.empty]) hf
      | files hf =>
        rename_i b d
        simp only [ofFiles, readFile] at hf
        cases hb : readLines 0 (getlines b) Properties.empty with
        | error e => rw [hb] at hf; cases hf
        | ok m1 =>
          rw [hb] at hf
          exact base _ _ _ _ (base _ _ _ _ (by simp [Properties.empty]) hb) hf
    clear hs hal h0
    induction puts generalizing m0 with
    | nil => exact hm0
    | cons q puts ih =>
      apply ih
      intro p hp
      rcases mem_insertOver hp with hp | hp
      · exact hm0 p hp
      · rw [hp, lower_idem]
  have hpw : (keys (puts.foldl (fun m p => putProperty p.1 p.2 m) m0)).Pairwise (· < ·) :=
    List.pairwise_map.2 hs
  refine ⟨hpw, hpw.imp (fun h => ne_of_lt h), by simp [size, keys], ?_, ?_⟩
  · intro k
    simp only [contains, getProperty, Option.isSome_iff_exists]
  · intro k
    simp only [contains, Option.isSome_iff_exists, keys, List.mem_map]
    constructor
    · rintro ⟨k', ⟨p, hp, rfl⟩, hk⟩
      refine ⟨p.2, ?_⟩
      rw [← (sameKey_iff _ _).1 hk, hlow p hp]
      exact mem_find hs hp
    · rintro ⟨v, hv⟩
      exact ⟨lower k, ⟨_, find_mem hv, rfl⟩, lower_idem k⟩

/-- two files and two puts -/
def exampleStore : Except Error Store :=
  (ofFiles (some "# a\nA = 1\nb=2\n".toList) (some "a = 9\nC = x = y\r\n".toList)).map
    fun m => putProperty "D".toList "4".toList (putProperty "B".toList "3".toList m)

example : exampleStore = .ok [("a".toList, "1".toList), ("b".toList, "3".toList),
    ("c".toList, "x = y".toList), ("d".toList, "4".toList)] := by
  decide +kernel

example : ∃ m, Reachable ["# a\nA = 1\nb=2\n".toList, "a = 9\nC = x = y\r\n".toList]
    [("B".toList, "3".toList), ("D".toList, "4".toList)] m := by
  refine ⟨_, _, .files (b := "# a\nA = 1\nb=2\n".toList) (d := "a = 9\nC = x = y\r\n".toList)
    (m := [("a".toList, "1".toList), ("b".toList, "2".toList), ("c".toList, "x = y".toList)]) ?_, rfl⟩
  decide +kernel

/-! ### C03 -/

/-- C03: a file loads iff none of its lines is malformed. -/
theorem C03_loads_iff {text : Str} {ls : List Str} (hl : IsLines text ls) :
    (∃ m, ofFile (some text) = .ok m) ↔ ∀ l ∈ ls, ¬ Malformed l := by
  simp only [ofFile, readFile, isLines_eq hl, readLines_ok_iff]

/-- C03: the exception names the first malformed line (lines are counted from 1) and says what is wrong
with it. -/
theorem C03_first_error {text : Str} {pre post : List Str} {bad : Str}
    (hl : IsLines text (pre ++ bad :: post)) (hpre : ∀ l ∈ pre, ¬ Malformed l) (hbad : Malformed bad) :
    ('=' ∉ bad → ofFile (some text) = .error (.invalidFormat (pre.length + 1))) ∧
    (∀ b a, bad = b ++ '=' :: a → '=' ∉ b → (∀ c ∈ b, BlankOrCR c) →
      ofFile (some text) = .error (.missingKey (pre.length + 1))) ∧
    (∀ b a, bad = b ++ '=' :: a → '=' ∉ b → (¬ ∀ c ∈ b, BlankOrCR c) →
      ofFile (some text) = .error (.missingValue (pre.length + 1))) := by
  simp only [ofFile, readFile, isLines_eq hl, readLines_append]
  obtain ⟨m1, hm1⟩ := (readLines_ok_iff (n := 0) (m := Properties.empty)).2 hpre
  rw [hm1]
  simp only [Except.bind, readLines, Nat.zero_add]
  refine ⟨?_, ?_, ?_⟩
  · intro he
    have : parseLine bad = .noEquals := by
      unfold parseLine
      simp only [mt (ignored_iff _).1 hbad.1, if_false, mt (mem_strTrim_eq _).1 he]
    rw [this]
  · rintro b a rfl hb hk
    rw [parseLine_of_split hb hbad.1, if_pos (strTrim_eq_nil_iff.2 hk)]
  · rintro b a rfl hb hk
    have hk' : strTrim b ≠ [] := fun h => hk (strTrim_eq_nil_iff.1 h)
    have hv : strTrim a = [] := by
      by_contra hv
      exact hbad.2 ⟨strTrim b, strTrim a, hbad.1, b, a, rfl, hb, strTrim_trimmed b, hk', strTrim_trimmed a, hv⟩
    rw [parseLine_of_split hb hbad.1, if_neg hk', if_pos hv]

/-- C03: ignored lines can be added or removed anywhere without changing the store. -/
theorem C03_ignored_lines {text text' : Str} {pre post : List Str} {l : Str}
    (hl : IsLines text (pre ++ l :: post)) (hl' : IsLines text' (pre ++ post)) (hi : Ignored l) (m : Store) :
    ofFile (some text) = .ok m ↔ ofFile (some text') = .ok m := by
  have hn : ∀ (ls : List Str) (n n' : Nat) (a : Store),
      readLines n ls a = .ok m ↔ readLines n' ls a = .ok m := by
    intro ls
    induction ls with
    | nil => intro n n' a; rfl
    | cons x ls ih =>
      intro n n' a
      simp only [readLines]
      cases parseLine x with
      | skip => exact ih _ _ _
      | define k v => exact ih _ _ _
      | noEquals => simp
      | noKey => simp
      | noValue => simp
  simp only [ofFile, readFile, isLines_eq hl, isLines_eq hl', readLines_append]
  cases readLines 0 pre Properties.empty with
  | error e => rfl
  | ok a =>
    simp only [Except.bind, readLines, (parseLine_skip_iff l).2 hi]
    exact hn _ _ _ _

/-- C03: on a line that is not ignored the key is the text before the first '=' and the value is all
the rest (so it may contain '='), both trimmed; keys are stored lower-case. -/
theorem C03_definition (key value : Str) (m : Store) {line : Str}
    (hl : '\n' ∉ line) (hd : Defines line key value) :
    ofFile (some (line ++ ['\n'])) = .ok m ↔ m = [(key.map Char.toLower, value)] := by
  have : getlines (line ++ ['\n']) = [line] := isLines_eq ⟨by simpa using hl, Or.inl (by simp)⟩
  simp only [ofFile, readFile, this, readLines, defines_parse hd, Properties.empty, insertNew,
    Except.ok.injEq]
  exact eq_comm

/-- C03: CRLF line ends load exactly like LF line ends (same store, same error, same line number), for
every text. -/
theorem C03_crlf (text : Str) : ofFile (some (toCRLF text)) = ofFile (some text) := by
  simp only [ofFile, readFile, readLines_toCRLF]

/-- C03: the same for both files of a two-file load. -/
theorem C03_crlf_two (b d : Str) :
    ofFiles (some (toCRLF b)) (some (toCRLF d)) = ofFiles (some b) (some d) := by
  simp only [ofFiles, readFile, readLines_toCRLF]

example : Defines "  Wall.U =  a=b \r".toList "Wall.U".toList "a=b".toList := by
  refine ⟨?_, "  Wall.U ".toList, "  a=b \r".toList, by decide +kernel, by decide +kernel, ?_,
    by decide +kernel, ?_, by decide +kernel⟩
  · rw [← parseLine_skip_iff]; decide +kernel
  · exact ⟨"  ".toList, " ".toList, by decide +kernel, by simp [Blank], by simp [BlankOrCR],
      by simp [Blank], by simp [BlankOrCR]⟩
  · exact ⟨"  ".toList, " \r".toList, by decide +kernel, by simp [Blank], by simp [BlankOrCR],
      by simp [Blank], by simp [BlankOrCR]⟩

example : Ignored "\t # wallU = 3".toList ∧ Ignored " \t\r".toList ∧ Malformed "no equals sign".toList ∧
    Malformed " = 3".toList ∧ Malformed "wallU = \r".toList := by
  simp only [← parseLine_skip_iff, ← parseLine_bad_iff]; decide +kernel

/-- a file with a bad third line -/
example : ofFile (some "# c\na = 1\nwallU\nb = 2".toList) = .error (.invalidFormat 3) := by
  decide +kernel

/-! ### C04 -/

/-- C04: writing pairs and loading the file gives back the first pair of every key and nothing else. -/
theorem C04_round_trip {pairs : List (Str × Str)} (h : ∀ p ∈ pairs, GoodKey p.1 ∧ GoodValue p.2) :
    ∃ m, ofFile (some (fileOf pairs)) = .ok m ∧
      ∀ key v, getProperty key m = some v ↔ FirstPair pairs key v := by
  obtain ⟨m, hm⟩ := (readLines_ok_iff (n := 0) (m := Properties.empty)
    (ls := pairs.map fun p => p.1 ++ [' ', '=', ' '] ++ p.2)).2 (by
      intro l hl
      obtain ⟨p, hp, rfl⟩ := List.mem_map.1 hl
      rintro ⟨-, hn⟩
      exact hn ⟨_, _, defines_written (h p hp).1 (h p hp).2⟩)
  have hf : ofFile (some (fileOf pairs)) = .ok m := by
    simp only [ofFile, readFile, getlines_fileOf h, hm]
  refine ⟨m, hf, fun key v => ?_⟩
  have hl : AllLines [fileOf pairs] (pairs.map fun p => p.1 ++ [' ', '=', ' '] ++ p.2) :=
    ⟨[getlines (fileOf pairs)], .cons (getlines_isLines _) .nil, by simp [getlines_fileOf h]⟩
  rw [(constructed_spec (.file hf) hl).2, firstDef_written h]

/-- C04: whatever was loaded from files can be written out and loaded again: the object is the same. -/
theorem C04_save_load {texts : List Str} {m : Store} (h : Constructed texts m) :
    ofFile (some (fileOf m)) = .ok m := by
  have base : ∀ (n : Nat) (t : Str) (a a' : Store), Sorted a →
      (∀ p ∈ a, (GoodKey p.1 ∧ GoodValue p.2) ∧ lower p.1 = p.1) →
      readLines n (getlines t) a = .ok a' →
      Sorted a' ∧ ∀ p ∈ a', (GoodKey p.1 ∧ GoodValue p.2) ∧ lower p.1 = p.1 := by
    intro n t
    have ht := (getlines_isLines t).1
    generalize getlines t = ls at ht
    clear h
    induction ls generalizing n with
    | nil => intro a a' hs ha h; simp only [readLines, Except.ok.injEq] at h; subst h; exact ⟨hs, ha⟩
    | cons l ls ih =>
      intro a a' hs ha h
      have ih := ih (n + 1) (fun x hx => ht x (by simp [hx]))
      simp only [readLines] at h
      cases hp : parseLine l with
      | skip => rw [hp] at h; exact ih _ _ hs ha h
      | define k v =>
        rw [hp] at h
        refine ih _ _ (insertNew_sorted hs k v) ?_ h
        obtain ⟨k0, hd, rfl⟩ := (parseLine_define_iff l k v).1 hp
        have hg := goodKey_of_defines (ht l (by simp)) hd
        intro p hpm
        have hval : find p.1 (insertNew (lower k0) v a) = some p.2 := mem_find (insertNew_sorted hs _ _) hpm
        rw [find_insertNew hs] at hval
        split_ifs at hval with hk
        · cases hfa : find (lower k0) a with
          | none =>
            rw [hfa] at hval
            simp only [Option.none_or, Option.some.injEq] at hval
            rw [hk, ← hval]
            exact ⟨⟨goodKey_lower hg.1, hg.2⟩, lower_idem k0⟩
          | some x =>
            rw [hfa] at hval
            simp only [Option.some_or, Option.some.injEq] at hval
            have := ha _ (find_mem hfa)
            rw [hk, ← hval]; exact this
        · exact ha _ (find_mem hval)
      | noEquals => rw [hp] at h; cases h
      | noKey => rw [hp] at h; cases h
      | noValue => rw [hp] at h; cases h
  have h0 : Sorted Properties.empty := List.Pairwise.nil
  have hm : Sorted m ∧ ∀ p ∈ m, (GoodKey p.1 ∧ GoodValue p.2) ∧ lower p.1 = p.1 := by
    cases h with
    | empty => exact ⟨h0, by simp [Properties.empty]⟩
    | file hf => exact base _ _ _ _ h0 (by simp [Properties.empty]) hf
    | files hf =>
      rename_i b d
      simp only [ofFiles, readFile] at hf
      cases hb : readLines 0 (getlines b) Properties.empty with
      | error e => rw [hb] at hf; cases hf
      | ok m1 =>
        rw [hb] at hf
        obtain ⟨h1, h2⟩ := base _ _ _ _ h0 (by simp [Properties.empty]) hb
        exact base _ _ _ _ h1 h2 hf
  have hg : ∀ p ∈ m, GoodKey p.1 ∧ GoodValue p.2 := fun p hp => (hm.2 p hp).1
  simp only [ofFile, readFile, getlines_fileOf hg]
  have := readLines_written (n := 0) (acc := Properties.empty) (rest := m) hm.1 hg (fun p hp => (hm.2 p hp).2)
  exact this

example : GoodKey "Wall.U north".toList ∧ GoodValue "a = b # c".toList := by
  refine ⟨⟨by decide +kernel, by decide +kernel, by decide +kernel, ?_, ?_⟩, by decide +kernel, by decide +kernel, ?_, ?_⟩ <;>
  simp [Blank, BlankOrCR]

example : ofFile (some (fileOf [("B".toList, "1".toList), ("a".toList, "x=y".toList), ("b".toList, "2".toList)]))
    = .ok [("a".toList, "x=y".toList), ("b".toList, "1".toList)] := by decide +kernel

/-! ### C05 -/

/-- C05: booleans are read exactly from the two words `true` and `false`. -/
theorem C05_bool (key : Str) (m : Store) :
    (∀ b : Bool, getPropertyAsBool key m = some b ↔
      getProperty key m = some (if b then ['t', 'r', 'u', 'e'] else ['f', 'a', 'l', 's', 'e'])) ∧
    (getPropertyAsBool key m = none ↔
      ∀ v, getProperty key m = some v → v ≠ ['t', 'r', 'u', 'e'] ∧ v ≠ ['f', 'a', 'l', 's', 'e']) := by
  have h1 : "true".toList = ['t', 'r', 'u', 'e'] := by decide +kernel
  have h2 : "false".toList = ['f', 'a', 'l', 's', 'e'] := by decide +kernel
  unfold getPropertyAsBool
  rw [h1, h2]
  cases getProperty key m with
  | none => simp
  | some v =>
    by_cases hv1 : v = ['t', 'r', 'u', 'e']
    · subst hv1
      refine ⟨fun b => ?_, by simp⟩
      cases b <;> simp
    · by_cases hv2 : v = ['f', 'a', 'l', 's', 'e']
      · subst hv2
        refine ⟨fun b => ?_, by simp⟩
        cases b <;> simp
      · refine ⟨fun b => ?_, by simp [hv1, hv2]⟩
        cases b <;> simp [hv1, hv2]

/-- C05: integers.  The value is a number exactly if the text starts with one that fits 32 bits; nothing
exactly if the key is missing or the text does not start with a number; otherwise (the number does not
fit) the exception escapes. -/
theorem C05_int (key : Str) (m : Store) :
    (∀ n : Int, getPropertyAsInt key m = .ok (some n) ↔
      ∃ v, getProperty key m = some v ∧ StartsWithInt v n ∧ -2 ^ 31 ≤ n ∧ n < 2 ^ 31) ∧
    (getPropertyAsInt key m = .ok none ↔
      ∀ v, getProperty key m = some v → ¬ ∃ n, StartsWithInt v n) ∧
    (∀ e, getPropertyAsInt key m = .error e ↔ e = .outOfRange ∧
      ∃ v n, getProperty key m = some v ∧ StartsWithInt v n ∧ ¬ (-2 ^ 31 ≤ n ∧ n < 2 ^ 31)) := by
  unfold getPropertyAsInt
  cases getProperty key m with
  | none => simp
  | some v =>
    have hspec := signAndDigits_spec v
    simp only [Option.some.injEq, exists_eq_left', exists_and_left, stoi]
    generalize signAndDigits (List.dropWhile isSpace v) = p at hspec ⊢
    obtain ⟨neg, ds⟩ := p
    simp only at hspec ⊢
    generalize (if neg = true then -(digitsVal ds : Int) else (digitsVal ds : Int)) = x at hspec ⊢
    by_cases hd : ds = []
    · have hno : ∀ n, ¬ StartsWithInt v n := fun n h => ((hspec n).1 h).1 hd
      rw [if_pos hd]
      refine ⟨fun n => ?_, ?_, fun e => ?_⟩
      · simp [hno]
      · simp [hno]
      · simp [hno]
    · have hyes : ∀ n, StartsWithInt v n ↔ n = x := fun n =>
        ⟨fun h => ((hspec n).1 h).2, fun h => (hspec n).2 ⟨hd, h⟩⟩
      have hex : ∃ n, StartsWithInt v n := ⟨x, (hyes x).2 rfl⟩
      rw [if_neg hd]
      by_cases hr : -2147483648 ≤ x ∧ x ≤ 2147483647
      · rw [if_pos hr]
        refine ⟨fun n => ?_, ?_, fun e => ?_⟩
        · simp only [Except.ok.injEq, Option.some.injEq, hyes]
          constructor
          · rintro rfl; exact ⟨rfl, by omega, by omega⟩
          · rintro ⟨rfl, -⟩; rfl
        · simp [hex]
        · simp only [reduceCtorEq, hyes, false_iff, not_and, not_exists]
          rintro - n rfl h
          exact h (by omega) (by omega)
      · rw [if_neg hr]
        refine ⟨fun n => ?_, ?_, fun e => ?_⟩
        · simp only [reduceCtorEq, hyes, false_iff, not_and]
          rintro rfl h1 h2
          exact hr (by omega)
        · simp [hex]
        · simp only [Except.error.injEq, hyes]
          constructor
          · rintro rfl
            exact ⟨rfl, x, rfl, fun h => hr (by omega)⟩
          · rintro ⟨rfl, -⟩; rfl

/-- C05: doubles, for any `std::stod`: a number comes from the stored text, nothing means missing or
unreadable, out of range escapes. -/
theorem C05_double {α : Type} (stod : Str → Except ConvError α) (key : Str) (m : Store) :
    (∀ x, getPropertyAsDouble stod key m = .ok (some x) ↔
      ∃ v, getProperty key m = some v ∧ stod v = .ok x) ∧
    (getPropertyAsDouble stod key m = .ok none ↔
      ∀ v, getProperty key m = some v → stod v = .error .invalidArgument) ∧
    (∀ e, getPropertyAsDouble stod key m = .error e ↔ e = .outOfRange ∧
      ∃ v, getProperty key m = some v ∧ stod v = .error .outOfRange) := by
  unfold getPropertyAsDouble
  cases getProperty key m with
  | none => simp
  | some v =>
    cases hs : stod v with
    | ok x => simp [hs]
    | error e => cases e <;> simp [hs, eq_comm]

/-- C05: vectors, for any `std::stod`: the value is read as comma-separated values with quotes and escapes; the read succeeds
iff every field is readable, with the numbers in order. -/
theorem C05_csv {α : Type} (stod : Str → Except ConvError α) (key : Str) (m : Store) {text : Str} (hne : text ≠ [])
    (hv : getProperty key m = some text) (xs : List α) :
    getPropertyAsDoubleVector stod key m = .ok (some xs) ↔
      ∃ fields, Csv false text fields ∧ List.Forall₂ (fun f x => stod f = .ok x) fields xs := by
  unfold getPropertyAsDoubleVector
  rw [hv]
  simp only
  constructor
  · intro h
    cases ht : tokens text with
    | error e => rw [ht] at h; cases h
    | ok ts =>
      rw [ht] at h
      refine ⟨ts, (tokens_iff hne ts).mp ht, ?_⟩
      rw [← stodAll_ok_iff]
      cases hs : stodAll stod ts with
      | ok ys => simp only [hs, Except.ok.injEq, Option.some.injEq] at h; rw [h]
      | error e => cases e <;> simp [hs] at h
  · rintro ⟨fields, hc, hf⟩
    rw [(tokens_iff hne fields).mpr hc]
    rw [← stodAll_ok_iff] at hf
    simp only [hf]

/-- C05: fields without special characters are separated at the commas. -/
theorem C05_vector {α : Type} (stod : Str → Except ConvError α) (key : Str) (m : Store)
    {fields : List Str} (hne : joinComma fields ≠ [])
    (hf : ∀ f ∈ fields, ',' ∉ f ∧ '"' ∉ f ∧ '\\' ∉ f)
    (hv : getProperty key m = some (joinComma fields)) (xs : List α) :
    getPropertyAsDoubleVector stod key m = .ok (some xs) ↔
      List.Forall₂ (fun f x => stod f = .ok x) fields xs := by
  have hne' : fields ≠ [] := by rintro rfl; exact hne rfl
  rw [C05_csv stod key m hne hv]
  refine ⟨?_, fun h => ⟨fields, csv_join hne' hf, h⟩⟩
  rintro ⟨fs, hc, h⟩
  have h1 := (tokens_iff hne fs).mpr hc
  rw [(tokens_iff hne fields).mpr (csv_join hne' hf)] at h1
  cases h1
  exact h

/-- C05: fields in quotes, with backslashes before quotes and backslashes, may have any characters. -/
theorem C05_quoted {α : Type} (stod : Str → Except ConvError α) (key : Str) (m : Store) {fields : List Str} (hne : fields ≠ [])
    (hv : getProperty key m = some (joinComma (fields.map quoteField))) (xs : List α) :
    getPropertyAsDoubleVector stod key m = .ok (some xs) ↔ List.Forall₂ (fun f x => stod f = .ok x) fields xs := by
  have hne' : joinComma (fields.map quoteField) ≠ [] := by
    rcases fields with - | ⟨f, - | ⟨g, fs⟩⟩
    · exact absurd rfl hne
    · simp [joinComma, quoteField]
    · simp [joinComma, quoteField]
  rw [C05_csv stod key m hne' hv]
  refine ⟨?_, fun h => ⟨fields, csv_quote hne, h⟩⟩
  rintro ⟨fs, hc, h⟩
  have h1 := (tokens_iff hne' fs).mpr hc
  rw [(tokens_iff hne' fields).mpr (csv_quote hne)] at h1
  cases h1
  exact h

/-- C05: a backslash that is not part of an escape is an exception, whatever the fields. -/
theorem C05_badEscape {α : Type} (stod : Str → Except ConvError α) (key : Str) (m : Store) :
    getPropertyAsDoubleVector stod key m = .error .badEscape ↔ ∃ text, getProperty key m = some text ∧ BadEscape text := by
  unfold getPropertyAsDoubleVector
  cases getProperty key m with
  | none => simp
  | some v =>
    simp only [Option.some.injEq, exists_eq_left']
    rw [← tokens_error]
    cases ht : tokens v with
    | error e => exact ⟨fun _ => ⟨e, rfl⟩, fun _ => rfl⟩
    | ok ts =>
      cases hs : stodAll stod ts with
      | ok xs => simp [hs]
      | error e => cases e <;> simp [hs]

/-- C05: the two overloads for vectors read the same unless there is a bad escape, and then neither gives numbers. -/
theorem C05_overloads {α : Type} (stod : Str → Except ConvError α) (key : Str) (m : Store) :
    ((∀ text, getProperty key m = some text → ¬ BadEscape text) →
      getPropertyAsDoubleStdVector stod key m = getPropertyAsDoubleVector stod key m) ∧
    (∀ text, getProperty key m = some text → BadEscape text →
      (∀ xs, getPropertyAsDoubleStdVector stod key m ≠ .ok (some xs)) ∧ ∀ xs, getPropertyAsDoubleVector stod key m ≠ .ok (some xs)) := by
  constructor
  · intro h
    unfold getPropertyAsDoubleStdVector getPropertyAsDoubleVector
    cases hv : getProperty key m with
    | none => rfl
    | some v =>
      have hb := h v hv
      rw [← tokens_error] at hb
      cases ht : tokens v with
      | error e => exact absurd ⟨e, ht⟩ hb
      | ok ts =>
        simp only
        rw [ht]
        rw [tokens] at ht
        by_cases hn : v = []
        · rw [if_pos hn] at ht
          cases ht
          rw [if_pos hn]
          rfl
        · rw [if_neg hn] at ht
          rw [if_neg hn, scanNumbers_ok stod _ _ _ _ ht]
          simp only
          cases stodAll stod ts with
          | ok xs => rfl
          | error e => cases e <;> rfl
  · intro text hv hb
    constructor
    · intro xs
      unfold getPropertyAsDoubleStdVector
      rw [hv]
      have hn : text ≠ [] := by
        rintro rfl
        obtain ⟨before, after, h, -⟩ := hb
        simp at h
      obtain ⟨e, he⟩ := (tokens_error text).mpr hb
      rw [tokens, if_neg hn] at he
      obtain ⟨e', he'⟩ := scanNumbers_error stod _ _ _ _ he
      simp only [if_neg hn, he']
      rcases e' with (- | -) | - <;> simp
    · intro xs
      rw [(C05_badEscape stod key m).mpr ⟨text, hv, hb⟩]
      simp

example : StartsWithInt " -12abc".toList (-12) := by
  refine ⟨" ".toList, ['-'], "12".toList, "abc".toList, by decide +kernel, ?_, by simp, by decide +kernel, ?_, ?_, by decide +kernel⟩
  · simp [Space]
  · simp [Digit]
  · simp [Digit]

example : getPropertyAsInt "n".toList [("n".toList, " -12abc".toList)] = .ok (some (-12)) ∧
    getPropertyAsInt "n".toList [("n".toList, "2147483648".toList)] = .error .outOfRange ∧
    getPropertyAsInt "n".toList [("n".toList, "x1".toList)] = .ok none := by decide +kernel

/-- a reading of one-digit numbers, for the vector example -/
def stodDigit (s : Str) : Except ConvError Nat :=
  match s with
  | [c] => if isDigit c then .ok (digitVal c) else .error .invalidArgument
  | _ => .error .invalidArgument

example : getPropertyAsDoubleVector stodDigit "V".toList [("v".toList, "1,2,3".toList)] =
    .ok (some [1, 2, 3]) := by decide +kernel

/-- quotes and escapes -/
example : Csv false "1,\"2,\"x,\\\\".toList ["1".toList, "2,x".toList, "\\".toList] ∧ ¬ BadEscape "1,\"2,\"x,\\\\".toList ∧ BadEscape "x,\\q".toList := by
  have h : tokens "1,\"2,\"x,\\\\".toList = .ok ["1".toList, "2,x".toList, "\\".toList] := by decide +kernel
  refine ⟨(tokens_iff (by decide) _).mp h, ?_, ?_⟩
  · rw [← tokens_error, h]
    simp
  · rw [← tokens_error]
    exact ⟨.badEscape, by decide +kernel⟩

/-- with a bad escape the overloads differ: one returns false, the other one throws -/
example : getPropertyAsDoubleStdVector stodDigit "v".toList [("v".toList, "x,\\q".toList)] = .ok none ∧
    getPropertyAsDoubleVector stodDigit "v".toList [("v".toList, "x,\\q".toList)] = .error .badEscape := by decide +kernel

end ISO.Props
