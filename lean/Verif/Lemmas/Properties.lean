import Verif.Model.Properties
import Verif.Spec.Properties
import Mathlib.Tactic.Tauto

namespace ISO.Properties
open ISO.Spec

theorem isTrail_iff (c : Char) : isTrail c = true ↔ BlankOrCR c := by
  simp [isTrail, BlankOrCR, or_assoc]
theorem isLead_iff (c : Char) : isLead c = true ↔ Blank c := by
  simp [isLead, Blank]

theorem dropWhile_split {α} (p : α → Bool) (s : List α) :
    ∃ l, s = l ++ s.dropWhile p ∧ (∀ c ∈ l, p c = true) ∧
      (∀ c, (s.dropWhile p).head? = some c → p c = false) := by
  refine ⟨s.takeWhile p, (List.takeWhile_append_dropWhile).symm, ?_, ?_⟩
  · intro c hc; exact List.all_takeWhile (p := p) (l := s) |> (List.all_eq_true.1 · c hc)
  · intro c hc
    have := List.head?_dropWhile_not p s
    rw [hc] at this; simpa using this

theorem strTrim_trimmed (s : Str) : Trimmed s (strTrim s) := by
  obtain ⟨l1, h1, h1a, h1b⟩ := dropWhile_split isTrail s.reverse
  obtain ⟨l2, h2, h2a, h2b⟩ := dropWhile_split isLead (s.reverse.dropWhile isTrail).reverse
  have hs : s = (s.reverse.dropWhile isTrail).reverse ++ l1.reverse := by
    rw [← List.reverse_append, ← h1, List.reverse_reverse]
  refine ⟨l2, l1.reverse, ?_, ?_, ?_, ?_, ?_⟩
  · unfold strTrim; rw [← h2]; exact hs
  · intro c hc; exact (isLead_iff c).1 (h2a c hc)
  · intro c hc; exact (isTrail_iff c).1 (h1a c (List.mem_reverse.1 hc))
  · intro c hc
    have := h2b c hc
    rw [← isLead_iff, this]; simp
  · intro c hc
    have hne : strTrim s ≠ [] := by rintro h; rw [h] at hc; simp at hc
    have h3 : (s.reverse.dropWhile isTrail).reverse.getLast? = some c := by
      rw [h2, List.getLast?_append]
      change ((strTrim s).getLast?.or _) = _
      rw [hc]; rfl
    rw [List.getLast?_reverse] at h3
    have := h1b c h3
    rw [← isTrail_iff, this]; simp

theorem head?_append_ne {α} {a b : List α} (h : a ≠ []) : (a ++ b).head? = a.head? := by
  cases a with | nil => exact absurd rfl h | cons => rfl

/-- two ways of cutting leading `P`s agree -/
theorem cut_unique {P : Char → Prop} {l t l' t' : Str} (h : l ++ t = l' ++ t')
    (hl : ∀ c ∈ l, P c) (hl' : ∀ c ∈ l', P c)
    (ht : ∀ c, t.head? = some c → ¬ P c) (ht' : ∀ c, t'.head? = some c → ¬ P c) : t = t' := by
  induction l generalizing l' with
  | nil =>
    cases l' with
    | nil => simpa using h
    | cons x l' =>
      exfalso
      rw [List.nil_append] at h; subst h
      exact ht x rfl (hl' x (by simp))
  | cons y l ih =>
    cases l' with
    | nil =>
      exfalso
      rw [List.nil_append] at h; subst h
      exact ht' y rfl (hl y (by simp))
    | cons x l' =>
      simp only [List.cons_append, List.cons.injEq] at h
      exact ih h.2 (fun c hc => hl c (by simp [hc])) (fun c hc => hl' c (by simp [hc]))

theorem trimmed_nil_iff {s : Str} : Trimmed s [] ↔ ∀ c ∈ s, BlankOrCR c := by
  constructor
  · rintro ⟨l, r, rfl, hl, hr, -, -⟩ c hc
    simp only [List.append_nil, List.mem_append] at hc
    rcases hc with hc | hc
    · rcases hl c hc with h | h
      · exact Or.inl h
      · exact Or.inr (Or.inl h)
    · exact hr c hc
  · intro h
    exact ⟨[], s, by simp, by simp, h, by simp, by simp⟩

theorem trimmed_unique {s t t' : Str} (h : Trimmed s t) (h' : Trimmed s t') : t = t' := by
  have key : ∀ {s t t' : Str}, Trimmed s t → Trimmed s t' → t = [] → t' = [] := by
    intro s t t' h h' ht
    subst ht
    by_contra hne
    rw [trimmed_nil_iff] at h
    obtain ⟨l, r, rfl, -, -, -, hlast⟩ := h'
    refine hlast _ (List.getLast?_eq_getLast_of_ne_nil hne) (h _ ?_)
    simp [List.getLast_mem hne]
  by_cases ht : t = []
  · rw [ht, key h h' ht]
  by_cases ht' : t' = []
  · exact absurd (key h' h ht') ht
  obtain ⟨l, r, hs, hl, hr, hh, hg⟩ := h
  obtain ⟨l', r', hs', hl', hr', hh', hg'⟩ := h'
  have h1 : t ++ r = t' ++ r' := by
    refine cut_unique (P := Blank) (l := l) (l' := l') ?_ hl hl' ?_ ?_
    · rw [← List.append_assoc, ← List.append_assoc, ← hs, ← hs']
    · intro c; rw [head?_append_ne ht]; exact hh c
    · intro c; rw [head?_append_ne ht']; exact hh' c
  have h2 : r.reverse ++ t.reverse = r'.reverse ++ t'.reverse := by
    rw [← List.reverse_append, ← List.reverse_append, h1]
  have h3 := cut_unique (P := BlankOrCR) h2 (by simpa using hr) (by simpa using hr')
    (by intro c; rw [List.head?_reverse]; exact hg c) (by intro c; rw [List.head?_reverse]; exact hg' c)
  simpa using h3

theorem strTrim_eq_iff {s t : Str} : strTrim s = t ↔ Trimmed s t :=
  ⟨fun h => h ▸ strTrim_trimmed s, fun h => trimmed_unique (strTrim_trimmed s) h⟩

theorem strTrim_eq_nil_iff {s : Str} : strTrim s = [] ↔ ∀ c ∈ s, BlankOrCR c := by
  rw [strTrim_eq_iff, trimmed_nil_iff]

theorem Blank.toCR {c : Char} (h : Blank c) : BlankOrCR c := by
  rcases h with h | h
  · exact Or.inl h
  · exact Or.inr (Or.inl h)

theorem strTrim_append_CR {s r : Str} (hr : ∀ c ∈ r, BlankOrCR c) : strTrim (s ++ r) = strTrim s := by
  obtain ⟨l, r', hs, hl, hr', hh, hg⟩ := strTrim_trimmed s
  rw [strTrim_eq_iff]
  refine ⟨l, r' ++ r, ?_, hl, ?_, hh, hg⟩
  · conv_lhs => rw [hs]
    simp
  · intro c hc
    rcases List.mem_append.1 hc with h | h
    · exact hr' c h
    · exact hr c h

theorem strTrim_prepend {s l : Str} (hl : ∀ c ∈ l, Blank c) : strTrim (l ++ s) = strTrim s := by
  by_cases h0 : strTrim s = []
  · rw [h0, strTrim_eq_nil_iff]
    rw [strTrim_eq_nil_iff] at h0
    intro c hc
    rcases List.mem_append.1 hc with h | h
    · exact Blank.toCR (hl c h)
    · exact h0 c h
  obtain ⟨l', r, hs, hl', hr, hh, hg⟩ := strTrim_trimmed s
  rw [strTrim_eq_iff]
  refine ⟨l ++ l', r, ?_, ?_, hr, hh, hg⟩
  · conv_lhs => rw [hs]
    simp
  · intro c hc
    rcases List.mem_append.1 hc with h | h
    · exact hl c h
    · exact hl' c h

theorem not_blank_eq : ¬ BlankOrCR '=' := by simp [BlankOrCR]
theorem not_blank_hash : ¬ Blank '#' := by simp [Blank]
theorem not_blankCR_hash : ¬ BlankOrCR '#' := by simp [BlankOrCR]

theorem ignored_iff (line : Str) :
    (strTrim line = [] ∨ (strTrim line).head? = some '#') ↔ Ignored line := by
  unfold Ignored
  rw [strTrim_eq_nil_iff]
  refine or_congr Iff.rfl ?_
  obtain ⟨l, r, hs, hl, hr, hh, hg⟩ := strTrim_trimmed line
  constructor
  · intro h
    cases ht : strTrim line with
    | nil => rw [ht] at h; simp at h
    | cons c t =>
      rw [ht] at h hs; simp only [List.head?_cons, Option.some.injEq] at h; subst h
      exact ⟨l, t ++ r, hl, by rw [hs]; simp⟩
  · rintro ⟨l', r', hl', rfl⟩
    rw [strTrim_prepend hl']
    obtain ⟨l2, r2, hs2, hl2, hr2, hh2, hg2⟩ := strTrim_trimmed ('#' :: r')
    cases l2 with
    | nil =>
      cases ht : strTrim ('#' :: r') with
      | nil =>
        rw [strTrim_eq_nil_iff] at ht
        exact absurd (ht '#' (by simp)) not_blankCR_hash
      | cons c t =>
        rw [ht] at hs2; simp at hs2; simp [← hs2.1]
    | cons c l2 =>
      simp at hs2
      exact absurd (hs2.1 ▸ hl2 c (by simp)) not_blank_hash

/-- cut at the first '=' -/
theorem takeWhile_ne_eq {b a : Str} (hb : '=' ∉ b) :
    (b ++ '=' :: a).takeWhile (· ≠ '=') = b ∧ (b ++ '=' :: a).dropWhile (· ≠ '=') = '=' :: a := by
  induction b with
  | nil => simp
  | cons c b ih =>
    simp only [List.mem_cons, not_or] at hb
    have hc : (decide (c ≠ '=')) = true := by simpa using fun h => hb.1 h.symm
    have := ih hb.2
    simp only [List.cons_append, List.takeWhile_cons, List.dropWhile_cons, hc, if_true, this.1, this.2, and_self]

theorem mem_eq_split {s : Str} (h : '=' ∈ s) : ∃ b a, s = b ++ '=' :: a ∧ '=' ∉ b := by
  induction s with
  | nil => simp at h
  | cons c s ih =>
    by_cases hc : c = '='
    · exact ⟨[], s, by simp [hc], by simp⟩
    · have : '=' ∈ s := by simpa [Ne.symm hc] using h
      obtain ⟨b, a, hs, hb⟩ := ih this
      exact ⟨c :: b, a, by simp [hs], by simp [Ne.symm hc, hb]⟩

theorem split_eq_unique {b a b' a' : Str} (h : b ++ '=' :: a = b' ++ '=' :: a') (hb : '=' ∉ b)
    (hb' : '=' ∉ b') : b = b' ∧ a = a' := by
  have h1 := takeWhile_ne_eq (a := a) hb
  have h2 := takeWhile_ne_eq (a := a') hb'
  rw [h] at h1
  constructor
  · rw [← h1.1, h2.1]
  · have := h1.2.symm.trans h2.2
    simpa using this

/-- the trimmed line splits like the untrimmed one -/
theorem trim_split {b a : Str} (hb : '=' ∉ b) :
    ∃ b' a', strTrim (b ++ '=' :: a) = b' ++ '=' :: a' ∧ '=' ∉ b' ∧ strTrim b' = strTrim b ∧
      strTrim a' = strTrim a := by
  -- leading blanks of b, trailing blanks of a
  obtain ⟨lb, hb1, hb2, hb3⟩ := dropWhile_split isLead b
  obtain ⟨la, ha1, ha2, ha3⟩ := dropWhile_split isTrail a.reverse
  set b' := b.dropWhile isLead
  set a' := (a.reverse.dropWhile isTrail).reverse
  have ha : a = a' ++ la.reverse := by
    rw [← List.reverse_append, ← ha1, List.reverse_reverse]
  refine ⟨b', a', ?_, ?_, ?_, ?_⟩
  · rw [strTrim_eq_iff]
    refine ⟨lb, la.reverse, ?_, ?_, ?_, ?_, ?_⟩
    · conv_lhs => rw [hb1, ha]
      simp
    · intro c hc; exact (isLead_iff c).1 (hb2 c hc)
    · intro c hc; exact (isTrail_iff c).1 (ha2 c (List.mem_reverse.1 hc))
    · intro c hc
      cases hb' : b' with
      | nil =>
        rw [hb'] at hc; simp at hc; subst hc; exact fun h => not_blank_eq (Blank.toCR h)
      | cons x t =>
        rw [hb'] at hc hb3; simp at hc; subst hc
        have := hb3 x rfl
        rw [← isLead_iff, this]; simp
    · intro c hc
      rw [List.getLast?_append] at hc
      have h5 : ('=' :: a').getLast? = some c := by
        cases h6 : ('=' :: a').getLast? with
        | none => simp at h6
        | some d => rw [h6] at hc; simpa using hc
      cases ha' : (a.reverse.dropWhile isTrail) with
      | nil =>
        have : a' = [] := by simp [a', ha']
        rw [this] at h5; simp at h5; subst h5; exact not_blank_eq
      | cons x t =>
        have h7 : a'.getLast? = some x := by simp [a', ha', List.getLast?_reverse]
        have h8 : ('=' :: a').getLast? = some x := by
          rw [show '=' :: a' = ['='] ++ a' from rfl, List.getLast?_append, h7]; rfl
        rw [h8] at h5
        have hxc : x = c := by simpa using h5
        subst hxc
        rw [ha'] at ha3
        have := ha3 x rfl
        rw [← isTrail_iff, this]; simp
  · intro h; apply hb; rw [hb1]; simp [h]
  · have : strTrim b = strTrim (lb ++ b') := by rw [← hb1]
    rw [this, strTrim_prepend (fun c hc => (isLead_iff c).1 (hb2 c hc))]
  · conv_rhs => rw [ha]
    rw [strTrim_append_CR]
    intro c hc; exact (isTrail_iff c).1 (ha2 c (List.mem_reverse.1 hc))

theorem mem_strTrim_eq (line : Str) : '=' ∈ strTrim line ↔ '=' ∈ line := by
  constructor
  · intro h
    obtain ⟨l, r, hs, -⟩ := strTrim_trimmed line
    rw [hs]; simp [h]
  · intro h
    obtain ⟨b, a, rfl, hb⟩ := mem_eq_split h
    obtain ⟨b', a', h1, -⟩ := trim_split (a := a) hb
    rw [h1]; simp

/-- the model's line parser, in closed form -/
theorem parseLine_of_split {b a : Str} (hb : '=' ∉ b) (hi : ¬ Ignored (b ++ '=' :: a)) :
    parseLine (b ++ '=' :: a) =
      if strTrim b = [] then .noKey else if strTrim a = [] then .noValue
      else .define (lower (strTrim b)) (strTrim a) := by
  obtain ⟨b', a', h1, h2, h3, h4⟩ := trim_split (a := a) hb
  have hi' := mt (ignored_iff _).1 hi
  unfold parseLine
  simp only [hi', if_false, (mem_strTrim_eq _).2 (show '=' ∈ b ++ '=' :: a by simp), if_true]
  rw [h1, (takeWhile_ne_eq h2).1, (takeWhile_ne_eq h2).2, List.tail_cons, h3, h4]

theorem parseLine_skip_iff (line : Str) : parseLine line = .skip ↔ Ignored line := by
  by_cases hi : Ignored line
  · simp only [hi, iff_true]
    unfold parseLine
    simp only [(ignored_iff _).2 hi, if_true]
  · simp only [hi, iff_false]
    by_cases he : '=' ∈ line
    · obtain ⟨b, a, rfl, hb⟩ := mem_eq_split he
      rw [parseLine_of_split hb hi]; split_ifs <;> simp
    · unfold parseLine
      simp only [mt (ignored_iff _).1 hi, if_false, mt (mem_strTrim_eq _).1 he]; simp

theorem parseLine_define_iff (line k v : Str) :
    parseLine line = .define k v ↔ ∃ k0, Defines line k0 v ∧ k = lower k0 := by
  by_cases hi : Ignored line
  · rw [(parseLine_skip_iff line).2 hi]
    constructor
    · intro h; cases h
    · rintro ⟨k0, h, -⟩; exact absurd hi h.1
  by_cases he : '=' ∈ line
  · obtain ⟨b, a, rfl, hb⟩ := mem_eq_split he
    rw [parseLine_of_split hb hi]
    constructor
    · intro h
      split_ifs at h with h1 h2
      simp only [LineResult.define.injEq] at h
      exact ⟨strTrim b, ⟨hi, b, a, rfl, hb, strTrim_trimmed b, h1, h.2 ▸ strTrim_trimmed a, h.2 ▸ h2⟩,
        h.1.symm⟩
    · rintro ⟨k0, ⟨-, b', a', h, hb', hk, hk0, hv, hv0⟩, rfl⟩
      obtain ⟨rfl, rfl⟩ := split_eq_unique h hb hb'
      rw [strTrim_eq_iff.2 hk, strTrim_eq_iff.2 hv, if_neg hk0, if_neg hv0]
  · unfold parseLine
    simp only [mt (ignored_iff _).1 hi, if_false, mt (mem_strTrim_eq _).1 he]
    constructor
    · intro h; cases h
    · rintro ⟨k0, ⟨-, b', a', rfl, -⟩, -⟩
      exact absurd (by simp) he

theorem parseLine_bad_iff (line : Str) :
    (parseLine line = .noEquals ∨ parseLine line = .noKey ∨ parseLine line = .noValue) ↔
      Malformed line := by
  unfold Malformed
  constructor
  · intro h
    refine ⟨fun hi => ?_, ?_⟩
    · rw [(parseLine_skip_iff line).2 hi] at h; simp at h
    · rintro ⟨k, v, hd⟩
      have := (parseLine_define_iff line (lower k) v).2 ⟨k, hd, rfl⟩
      rw [this] at h; simp at h
  · rintro ⟨hi, hd⟩
    cases hp : parseLine line with
    | skip => exact absurd ((parseLine_skip_iff line).1 hp) hi
    | define k v =>
      obtain ⟨k0, h, -⟩ := (parseLine_define_iff line k v).1 hp
      exact absurd ⟨k0, v, h⟩ hd
    | noEquals => simp
    | noKey => simp
    | noValue => simp

/-! ## lines -/

theorem getlines_go_isLines (cur s : Str) (hc : '\n' ∉ cur) :
    IsLines (cur.reverse ++ s) (getlines.go cur s) := by
  induction s generalizing cur with
  | nil =>
    cases cur with
    | nil => simp [getlines.go, IsLines]
    | cons x t =>
      simp only [getlines.go, List.append_nil]
      refine ⟨by simpa [and_comm] using hc, Or.inr ⟨[], (x :: t).reverse, by simp, by simp, by simp⟩⟩
  | cons c s ih =>
    rw [show getlines.go cur (c :: s) = if c = '\n' then cur.reverse :: getlines.go [] s
      else getlines.go (c :: cur) s by cases cur <;> rfl]
    split_ifs with h
    · subst h
      obtain ⟨h1, h2⟩ := ih [] (by simp)
      refine ⟨?_, ?_⟩
      · intro l hl
        rcases List.mem_cons.1 hl with rfl | hl
        · simpa using hc
        · exact h1 l hl
      · rcases h2 with h2 | ⟨init, last, h3, h4, h5⟩
        · left
          simp only [List.reverse_nil, List.nil_append] at h2
          simp [← h2]
        · right
          refine ⟨cur.reverse :: init, last, by simp [h3], h4, ?_⟩
          simp only [List.reverse_nil, List.nil_append] at h5
          rw [h5]; simp
    · have := ih (c :: cur) (by simp [Ne.symm h, hc])
      simpa using this

theorem getlines_isLines (s : Str) : IsLines s (getlines s) := by
  exact getlines_go_isLines [] s (by simp)

theorem getlines_go_append (cur l s : Str) (hl : '\n' ∉ l) :
    getlines.go cur (l ++ s) = getlines.go (l.reverse ++ cur) s := by
  induction l generalizing cur with
  | nil => rfl
  | cons c l ih =>
    simp only [List.mem_cons, not_or] at hl
    rw [List.cons_append, show getlines.go cur (c :: (l ++ s)) = if c = '\n' then cur.reverse :: getlines.go [] (l ++ s)
      else getlines.go (c :: cur) (l ++ s) by cases cur <;> rfl, if_neg (Ne.symm hl.1), ih _ hl.2]
    simp

theorem getlines_line (l s : Str) (hl : '\n' ∉ l) :
    getlines (l ++ '\n' :: s) = l :: getlines s := by
  unfold getlines
  rw [getlines_go_append _ _ _ hl]
  rw [show ∀ cur, getlines.go cur ('\n' :: s) = cur.reverse :: getlines.go [] s by
    intro cur; cases cur <;> rfl]
  simp

theorem getlines_last (l : Str) (hl : '\n' ∉ l) (h : l ≠ []) : getlines l = [l] := by
  unfold getlines
  have := getlines_go_append [] l [] hl
  rw [List.append_nil, List.append_nil] at this
  rw [this]
  cases hr : l.reverse with
  | nil => simp at hr; exact absurd hr h
  | cons x t => rw [show getlines.go (x :: t) [] = [(x :: t).reverse] from rfl, ← hr, List.reverse_reverse]

theorem getlines_flatten (ls : List Str) (s : Str) (h : ∀ l ∈ ls, '\n' ∉ l) :
    getlines ((ls.map (· ++ ['\n'])).flatten ++ s) = ls ++ getlines s := by
  induction ls with
  | nil => simp
  | cons l ls ih =>
    have := ih (fun l hl => h l (by simp [hl]))
    simp only [List.map_cons, List.flatten_cons, List.append_assoc, List.cons_append, List.nil_append]
    rw [getlines_line _ _ (h l (by simp)), this]

theorem isLines_eq {text : Str} {ls : List Str} (h : IsLines text ls) : getlines text = ls := by
  obtain ⟨h1, h2 | ⟨init, last, rfl, h4, h5⟩⟩ := h
  · rw [h2]
    have := getlines_flatten ls [] h1
    simpa [getlines, getlines.go] using this
  · rw [h5, getlines_flatten init last (fun l hl => h1 l (by simp [hl])),
      getlines_last last (h1 last (by simp)) h4]

/-! ## the map -/

/-- `std::map` invariant: strictly ascending keys -/
def Sorted (m : Store) : Prop := m.Pairwise (fun a b => a.1 < b.1)

theorem find_none_of_lt {m : Store} {x : Str} (h : ∀ q ∈ m, x < q.1) : find x m = none := by
  induction m with
  | nil => rfl
  | cons q m ih =>
    simp only [find]
    rw [if_neg (ne_of_lt (h q (by simp)))]
    exact ih (fun q hq => h q (by simp [hq]))

theorem find_insertNew {m : Store} (hm : Sorted m) (k v k' : Str) :
    find k' (insertNew k v m) = if k' = k then (find k m).or (some v) else find k' m := by
  induction m with
  | nil => simp only [insertNew, find]; split_ifs <;> rfl
  | cons p m ih =>
    obtain ⟨pk, pv⟩ := p
    simp only [Sorted, List.pairwise_cons] at hm
    have ih := ih hm.2
    have hlt : ∀ q ∈ m, pk < q.1 := hm.1
    have hnone : ∀ x : Str, x < pk → find x m = none :=
      fun x hx => find_none_of_lt (fun q hq => lt_trans hx (hlt q hq))
    simp only [insertNew]
    split_ifs with h1 h2 h3 h4 h5
    · subst h2
      simp only [find, if_true, if_neg (ne_of_lt h1), hnone _ h1]; rfl
    · simp only [find, if_neg h2]
    · subst h3; subst h4
      simp only [find, if_true]; rfl
    · simp only [find]
    · subst h5
      simp only [find, if_neg h3, ih, if_true]
    · simp only [find, ih, if_neg h5]

theorem mem_insertNew {m : Store} {k v : Str} {p : Str × Str} (h : p ∈ insertNew k v m) :
    p ∈ m ∨ p.1 = k := by
  induction m with
  | nil => simp only [insertNew, List.mem_singleton] at h; subst h; simp
  | cons q m ih =>
    simp only [insertNew] at h
    split_ifs at h with h1 h2
    · rcases List.mem_cons.1 h with rfl | h
      · simp
      · exact Or.inl h
    · exact Or.inl h
    · rcases List.mem_cons.1 h with rfl | h
      · simp
      · rcases ih h with h | h
        · exact Or.inl (by simp [h])
        · exact Or.inr h

theorem insertNew_sorted {m : Store} (hm : Sorted m) (k v : Str) : Sorted (insertNew k v m) := by
  induction m with
  | nil => simp [insertNew, Sorted]
  | cons q m ih =>
    have hm' := hm
    simp only [Sorted, List.pairwise_cons] at hm
    simp only [insertNew]
    split_ifs with h1 h2
    · simp only [Sorted, List.pairwise_cons]
      refine ⟨?_, hm.1, hm.2⟩
      intro p hp
      rcases List.mem_cons.1 hp with rfl | hp
      · exact h1
      · exact lt_trans h1 (hm.1 p hp)
    · exact hm'
    · simp only [Sorted, List.pairwise_cons]
      refine ⟨?_, ih hm.2⟩
      intro p hp
      rcases mem_insertNew hp with hp | hp
      · exact hm.1 p hp
      · rw [hp]; exact lt_of_le_of_ne (not_lt.1 h1) (Ne.symm h2)

theorem mem_insertOver {m : Store} {k v : Str} {p : Str × Str} (h : p ∈ insertOver k v m) :
    p ∈ m ∨ p.1 = k := by
  induction m with
  | nil => simp only [insertOver, List.mem_singleton] at h; subst h; simp
  | cons q m ih =>
    simp only [insertOver] at h
    split_ifs at h with h1 h2
    · rcases List.mem_cons.1 h with rfl | h
      · simp
      · exact Or.inl h
    · rcases List.mem_cons.1 h with rfl | h
      · exact Or.inr h2.symm
      · exact Or.inl (by simp [h])
    · rcases List.mem_cons.1 h with rfl | h
      · simp
      · rcases ih h with h | h
        · exact Or.inl (by simp [h])
        · exact Or.inr h

theorem insertOver_sorted {m : Store} (hm : Sorted m) (k v : Str) : Sorted (insertOver k v m) := by
  induction m with
  | nil => simp [insertOver, Sorted]
  | cons q m ih =>
    simp only [Sorted, List.pairwise_cons] at hm
    simp only [insertOver]
    split_ifs with h1 h2
    · simp only [Sorted, List.pairwise_cons]
      refine ⟨?_, hm.1, hm.2⟩
      intro p hp
      rcases List.mem_cons.1 hp with rfl | hp
      · exact h1
      · exact lt_trans h1 (hm.1 p hp)
    · simp only [Sorted, List.pairwise_cons]
      exact ⟨hm.1, hm.2⟩
    · simp only [Sorted, List.pairwise_cons]
      refine ⟨?_, ih hm.2⟩
      intro p hp
      rcases mem_insertOver hp with hp | hp
      · exact hm.1 p hp
      · rw [hp]; exact lt_of_le_of_ne (not_lt.1 h1) (Ne.symm h2)

theorem find_insertOver (m : Store) (k v k' : Str) :
    find k' (insertOver k v m) = if k' = k then some v else find k' m := by
  induction m with
  | nil => simp only [insertOver, find]
  | cons p m ih =>
    simp only [insertOver]
    split_ifs with h1 h2 h3 h4 h5
    · subst h2; simp only [find, if_true]
    · simp only [find, if_neg h2]
    · subst h4; subst h3; simp only [find, if_true]
    · subst h3; simp only [find, if_neg h4]
    · subst h5; simp only [find, if_neg h3, ih, if_true]
    · simp only [find, ih, if_neg h5]

end ISO.Properties
