import Verif.Lemmas.Epw
import Verif.Model.WeatherText

/-! Helper lemmas: splitting lines, and the section reader of `initializeSolar`. -/

namespace ISO.WeatherText
open ISO ISO.Epw ISO.Solar CNum

theorem splitGo_append {d : Char} (k : Bool) {a : Str} (h : d ∉ a) (cur rest : Str) :
    splitGo d k cur (a ++ rest) = splitGo d k (cur ++ a) rest := by
  induction a generalizing cur with
  | nil => simp
  | cons x a ih =>
    have hx : x ≠ d := fun e => h (by simp [e])
    rw [List.cons_append, splitGo, if_neg hx, ih (fun e => h (by simp [e]))]
    simp

theorem splitGo_last {d : Char} (k : Bool) {a : Str} (h : d ∉ a) : splitGo d k [] a = if a.isEmpty then [] else [a] := by
  have := splitGo_append k h [] []
  rw [List.append_nil] at this
  rw [this, splitGo]
  simp

theorem splitGo_piece {d : Char} (k : Bool) {a : Str} (h : d ∉ a) (rest : Str) :
    splitGo d k [] (a ++ d :: rest) = (if k || !a.isEmpty then [a] else []) ++ splitGo d k [] rest := by
  rw [splitGo_append k h, splitGo, if_pos rfl]
  simp

theorem split_keep {d : Char} (fs : List Str) (hne : fs ≠ []) (h : ∀ f ∈ fs, d ∉ f) :
    splitGo d true [] (List.intercalate [d] fs) = if fs.getLast hne = [] then fs.dropLast else fs := by
  induction fs with
  | nil => exact absurd rfl hne
  | cons a fs ih =>
    cases fs with
    | nil =>
      rw [join_one, splitGo_last _ (h a (by simp))]
      cases a <;> simp
    | cons b l =>
      rw [join_cons, splitGo_piece _ (h a (by simp)), ih (by simp) (fun f hf => h f (by simp [hf]))]
      rw [List.getLast_cons (by simp : b :: l ≠ [])]
      rw [if_pos (by simp)]
      split_ifs <;> simp

theorem split_drop {d : Char} (fs : List Str) (hne : fs ≠ []) (h : ∀ f ∈ fs, d ∉ f) :
    splitGo d false [] (List.intercalate [d] fs) = fs.filter (fun f => !f.isEmpty) := by
  induction fs with
  | nil => exact absurd rfl hne
  | cons a fs ih =>
    cases fs with
    | nil =>
      rw [join_one, splitGo_last _ (h a (by simp))]
      cases a <;> simp
    | cons b l =>
      rw [join_cons, splitGo_piece _ (h a (by simp)), ih (by simp) (fun f hf => h f (by simp [hf]))]
      cases a <;> simp

theorem linesGo_append {a : Str} (h : '\n' ∉ a) (cur rest : Str) : linesGo cur (a ++ rest) = linesGo (cur ++ a) rest := by
  induction a generalizing cur with
  | nil => simp
  | cons x a ih =>
    have hx : x ≠ '\n' := fun e => h (by simp [e])
    rw [List.cons_append, linesGo, if_neg hx, ih (fun e => h (by simp [e]))]
    simp

/-- the lines of a text in which every line is ended by a newline -/
theorem linesGo_lines (ls : List Str) (h : ∀ l ∈ ls, '\n' ∉ l) :
    linesGo [] (ls.map (· ++ ['\n'])).flatten = ls ++ [[]] := by
  induction ls with
  | nil => rfl
  | cons a ls ih =>
    rw [List.map_cons, List.flatten_cons, List.append_assoc, linesGo_append (h a (by simp))]
    simp only [List.nil_append, List.singleton_append]
    rw [linesGo, if_pos rfl, ih (fun l hl => h l (by simp [hl]))]
    rfl

theorem join_flatten (c : Char) (a : Str) (l : List Str) :
    a ++ (l.map (c :: ·)).flatten = List.intercalate [c] (a :: l) := by
  induction l generalizing a with
  | nil => simp
  | cons b l ih => rw [join_cons, ← ih]; simp

/-- text `fmt` prints: not empty, no comma, no newline -/
def Plain (s : Str) : Prop := s ≠ [] ∧ ',' ∉ s ∧ '\n' ∉ s

theorem showInt_plain : ∀ i : Fin 12, Plain (showInt i.1) ∧ (showInt i.1).head? ≠ some '#' := by
  unfold Plain; decide

section
variable {α : Type}

/-- the fields of a data line -/
def rowFields {n : Nat} (fmt : α → Str) (v : Fin 12 → Fin n → α) (i : Fin 12) : List Str :=
  showInt i.1 :: List.ofFn fun c => fmt (v i c)

theorem rowLine_eq {n : Nat} (fmt : α → Str) (v : MonthBins α → Fin n → α) (bins : Fin 12 → MonthBins α) (i : Fin 12) :
    rowLine fmt v bins i = List.intercalate [','] (rowFields fmt (fun i => v (bins i)) i) := by
  unfold rowLine rowFields
  rw [← join_flatten, List.map_ofFn]; rfl

theorem valueLine_eq (fmt : α → Str) (v : MonthBins α → α) (bins : Fin 12 → MonthBins α) (i : Fin 12) :
    valueLine fmt v bins i = List.intercalate [','] (rowFields (n := 1) fmt (fun i _ => v (bins i)) i) := by
  unfold valueLine rowFields
  rw [← join_flatten]; simp

theorem rowFields_plain {n : Nat} (fmt : α → Str) (hf : ∀ x, Plain (fmt x)) (v : Fin 12 → Fin n → α) (i : Fin 12) :
    ∀ f ∈ rowFields fmt v i, Plain f := by
  intro f h
  unfold rowFields at h
  rcases List.mem_cons.mp h with e | e
  · rw [e]; exact (showInt_plain i).1
  · rw [List.mem_ofFn] at e
    obtain ⟨c, rfl⟩ := e
    exact hf _

theorem not_mem_join {c d : Char} (hcd : c ≠ d) (fs : List Str) (h : ∀ f ∈ fs, c ∉ f) : c ∉ List.intercalate [d] fs := by
  induction fs with
  | nil => simp
  | cons a fs ih =>
    cases fs with
    | nil => rw [join_one]; exact h a (by simp)
    | cons b l =>
      rw [join_cons]
      intro hm
      rw [List.mem_append, List.mem_cons] at hm
      rcases hm with e | e | e
      · exact h a (by simp) e
      · exact hcd e
      · exact ih (fun f hf => h f (by simp [hf])) e

/-- splitting a data line gives its fields -/
theorem split_row {n : Nat} (fmt : α → Str) (hf : ∀ x, Plain (fmt x)) (v : Fin 12 → Fin n → α) (i : Fin 12) :
    stringSplit (List.intercalate [','] (rowFields fmt v i)) ',' true = rowFields fmt v i := by
  have hp := rowFields_plain fmt hf v i
  have hne : rowFields fmt v i ≠ [] := by simp [rowFields]
  rw [stringSplit, split_keep _ hne (fun f h => (hp f h).2.1), if_neg]
  exact (hp _ (List.getLast_mem hne)).1

theorem head_row {n : Nat} (fmt : α → Str) (v : Fin 12 → Fin n → α) (i : Fin 12) :
    (List.intercalate [','] (rowFields fmt v i)).head? ≠ some '#' := by
  have h := showInt_plain i
  unfold rowFields
  rw [← join_flatten]
  cases e : showInt i.1 with
  | nil => exact absurd e h.1.1
  | cons x t =>
    rw [e] at h
    simpa using h.2

theorem readLine_row {n : Nat} (hn : 0 < n) (fmt : α → Str) (hf : ∀ x, Plain (fmt x)) (v : Fin 12 → Fin n → α) (i : Fin 12)
    (atof : Str → α) (s : Int) (e : Entries α) :
    readLine atof ⟨s, i.1, e⟩ (List.intercalate [','] (rowFields fmt v i)) = ⟨s, i.1 + 1, put atof s i.1 (rowFields fmt v i) e⟩ := by
  have hl : (rowFields fmt v i).length = n + 1 := by simp [rowFields]
  unfold readLine
  rw [if_neg (head_row fmt v i)]
  simp only [split_row fmt hf v i, hl]
  rw [if_neg (by omega), if_neg (by omega), if_pos i.2]

/-- the rows of a section, one after the other -/
theorem readLine_rows {n : Nat} (hn : 0 < n) (fmt : α → Str) (hf : ∀ x, Plain (fmt x)) (v : Fin 12 → Fin n → α)
    (atof : Str → α) (s : Int) (e : Entries α) :
    (List.ofFn fun i => List.intercalate [','] (rowFields fmt v i)).foldl (readLine atof) ⟨s, 0, e⟩ =
      ⟨s, 12, (List.ofFn fun i : Fin 12 => i).foldl (fun e i => put atof s i.1 (rowFields fmt v i) e) e⟩ := by
  have step := fun i e => readLine_row hn fmt hf v i atof s e
  have s0 := step 0; have s1 := step 1; have s2 := step 2; have s3 := step 3
  have s4 := step 4; have s5 := step 5; have s6 := step 6; have s7 := step 7
  have s8 := step 8; have s9 := step 9; have s10 := step 10; have s11 := step 11
  clear step
  simp only [List.ofFn_succ, List.ofFn_zero, List.foldl_cons, List.foldl_nil]
  erw [s0, s1, s2, s3, s4, s5, s6, s7, s8, s9, s10, s11]
  rfl

theorem fold_put {β : Type} (f : Fin 12 → β → β) (get : β → Fin 12 → Prop)
    (keep : ∀ i j b, i ≠ j → get b j → get (f i b) j) (new : ∀ i b, get (f i b) i) (b : β) :
    ∀ j, get ((List.ofFn fun i : Fin 12 => i).foldl (fun e i => f i e) b) j := by
  have gen : ∀ (l : List (Fin 12)) (b : β) j, (j ∈ l ∨ get b j) → get (l.foldl (fun e i => f i e) b) j := by
    intro l
    induction l with
    | nil => intro b j h; simpa using h
    | cons a l ih =>
      intro b j h
      rw [List.foldl_cons]
      refine ih _ _ ?_
      by_cases hj : j = a
      · right; rw [hj]; exact new a b
      · rcases h with h | h
        · left; exact (List.mem_cons.mp h).resolve_left hj
        · right; exact keep a j b (fun e => hj e.symm) h
  intro j
  exact gen _ b j (Or.inl (by rw [List.mem_ofFn]; exact ⟨j, rfl⟩))

theorem fold_keep {β γ : Type} (f : Fin 12 → β → β) (g : β → γ) (h : ∀ i b, g (f i b) = g b) (l : List (Fin 12)) (b : β) :
    g (l.foldl (fun e i => f i e) b) = g b := by
  induction l generalizing b with
  | nil => rfl
  | cons a l ih => rw [List.foldl_cons, ih, h]

theorem putRow_fold {n : Nat} (fmt : α → Str) (v : Fin 12 → Fin n → α) (atof : Str → α) (m : Fin 12 → Fin n → Option α) :
    (List.ofFn fun i : Fin 12 => i).foldl (fun e i => putRow atof i.1 (rowFields fmt v i) e) m =
      fun r c => some (atof (fmt (v r c))) := by
  funext r
  refine fold_put (fun i e => putRow atof i.1 (rowFields fmt v i) e) (fun m r => m r = fun c => some (atof (fmt (v r c)))) ?_ ?_ m r
  · intro i j b hij hb
    funext c
    simp only [putRow]
    rw [if_neg (fun e => hij (Fin.ext e.symm)), hb]
  · intro i b
    funext c
    simp only [putRow, if_true, rowFields, List.getElem?_cons_succ, List.getElem?_ofFn, c.2, dite_true]

theorem putValue_fold (fmt : α → Str) (v : Fin 12 → α) (atof : Str → α) (m : Fin 12 → Option α) :
    (List.ofFn fun i : Fin 12 => i).foldl (fun e i => putValue atof i.1 (rowFields (n := 1) fmt (fun i _ => v i) i) e) m =
      fun r => some (atof (fmt (v r))) := by
  funext r
  refine fold_put (fun i e => putValue atof i.1 (rowFields (n := 1) fmt (fun i _ => v i) i) e) (fun m r => m r = some (atof (fmt (v r)))) ?_ ?_ m r
  · intro i j b hij hb
    simp only [putValue]
    rw [if_neg (fun e => hij (Fin.ext e.symm)), hb]
  · intro i b
    simp [putValue, rowFields]

theorem fold_field {β γ : Type} (f : Fin 12 → β → β) (F : Fin 12 → γ → γ) (mk : γ → β) (h : ∀ i g, f i (mk g) = mk (F i g))
    (l : List (Fin 12)) (g : γ) : l.foldl (fun e i => f i e) (mk g) = mk (l.foldl (fun e i => F i e) g) := by
  induction l generalizing g with
  | nil => rfl
  | cons a l ih => rw [List.foldl_cons, List.foldl_cons, h, ih]

end

variable {α : Type}

theorem readLine_header (atof : Str → α) (r : Reader α) (name : Str) (hc : ',' ∉ name) (hne : name ≠ []) (hh : name.head? ≠ some '#') :
    readLine atof r name = ⟨weatherState name, 0, r.entries⟩ := by
  unfold readLine
  rw [if_neg hh]
  have : stringSplit name ',' true = [name] := by
    rw [stringSplit, splitGo_last _ hc]
    cases name with
    | nil => exact absurd rfl hne
    | cons => rfl
  simp [this]

theorem isoLines_plain (fmt : α → Str) (hf : ∀ x, Plain (fmt x)) (bins : Fin 12 → MonthBins α) :
    ∀ l ∈ isoLines fmt bins, '\n' ∉ l := by
  have hr : ∀ (n : Nat) (v : Fin 12 → Fin n → α) i, '\n' ∉ List.intercalate [','] (rowFields fmt v i) :=
    fun n v i => not_mem_join (by decide) _ (fun f h => (rowFields_plain fmt hf v i f h).2.2)
  intro l h
  simp only [isoLines, List.mem_append, List.mem_ofFn, List.mem_singleton, valueLine_eq, rowLine_eq, or_assoc] at h
  rcases h with h | ⟨i, h⟩ | h | ⟨i, h⟩ | h | ⟨i, h⟩ | h | ⟨i, h⟩ | h | ⟨i, h⟩ | h | ⟨i, h⟩
  all_goals first
    | (subst h; exact hr _ _ _)
    | (subst h; decide)

theorem put_mdbt (atof : Str → α) (row : Nat) (ls : List Str) (e : Entries α) :
    put atof 5 row ls e = { e with mdbt := putValue atof row ls e.mdbt } := by
  simp [put]

theorem section_mdbt (fmt : α → Str) (hf : ∀ x, Plain (fmt x)) (v : Fin 12 → α) (atof : Str → α) (r : Reader α) :
    (List.ofFn fun i => List.intercalate [','] (rowFields (n := 1) fmt (fun i _ => v i) i)).foldl (readLine atof)
      (readLine atof r "mdbt".toList) = ⟨5, 12, { r.entries with mdbt := fun m => some (atof (fmt (v m))) }⟩ := by
  rw [readLine_header atof _ "mdbt".toList (by decide) (by decide) (by decide), show weatherState "mdbt".toList = 5 by decide,
    readLine_rows (by decide) fmt hf, ← putValue_fold fmt v atof r.entries.mdbt]
  simp only [put_mdbt]
  generalize (List.ofFn fun i : Fin 12 => i) = l
  exact congrArg (Reader.mk 5 12) (fold_field (fun i e => { e with mdbt := putValue atof i.1 (rowFields (n := 1) fmt (fun i _ => v i) i) e.mdbt })
    (fun i e => putValue atof i.1 (rowFields (n := 1) fmt (fun i _ => v i) i) e) (fun x => { r.entries with mdbt := x }) (fun i g => by simp only) l r.entries.mdbt)

theorem put_mwind (atof : Str → α) (row : Nat) (ls : List Str) (e : Entries α) :
    put atof 6 row ls e = { e with mwind := putValue atof row ls e.mwind } := by
  simp [put]

theorem section_mwind (fmt : α → Str) (hf : ∀ x, Plain (fmt x)) (v : Fin 12 → α) (atof : Str → α) (r : Reader α) :
    (List.ofFn fun i => List.intercalate [','] (rowFields (n := 1) fmt (fun i _ => v i) i)).foldl (readLine atof)
      (readLine atof r "mwind".toList) = ⟨6, 12, { r.entries with mwind := fun m => some (atof (fmt (v m))) }⟩ := by
  rw [readLine_header atof _ "mwind".toList (by decide) (by decide) (by decide), show weatherState "mwind".toList = 6 by decide,
    readLine_rows (by decide) fmt hf, ← putValue_fold fmt v atof r.entries.mwind]
  simp only [put_mwind]
  generalize (List.ofFn fun i : Fin 12 => i) = l
  exact congrArg (Reader.mk 6 12) (fold_field (fun i e => { e with mwind := putValue atof i.1 (rowFields (n := 1) fmt (fun i _ => v i) i) e.mwind })
    (fun i e => putValue atof i.1 (rowFields (n := 1) fmt (fun i _ => v i) i) e) (fun x => { r.entries with mwind := x }) (fun i g => by simp only) l r.entries.mwind)

theorem put_mEgh (atof : Str → α) (row : Nat) (ls : List Str) (e : Entries α) :
    put atof 4 row ls e = { e with mEgh := putValue atof row ls e.mEgh } := by
  simp [put]

theorem section_mEgh (fmt : α → Str) (hf : ∀ x, Plain (fmt x)) (v : Fin 12 → α) (atof : Str → α) (r : Reader α) :
    (List.ofFn fun i => List.intercalate [','] (rowFields (n := 1) fmt (fun i _ => v i) i)).foldl (readLine atof)
      (readLine atof r "mEgh".toList) = ⟨4, 12, { r.entries with mEgh := fun m => some (atof (fmt (v m))) }⟩ := by
  rw [readLine_header atof _ "mEgh".toList (by decide) (by decide) (by decide), show weatherState "mEgh".toList = 4 by decide,
    readLine_rows (by decide) fmt hf, ← putValue_fold fmt v atof r.entries.mEgh]
  simp only [put_mEgh]
  generalize (List.ofFn fun i : Fin 12 => i) = l
  exact congrArg (Reader.mk 4 12) (fold_field (fun i e => { e with mEgh := putValue atof i.1 (rowFields (n := 1) fmt (fun i _ => v i) i) e.mEgh })
    (fun i e => putValue atof i.1 (rowFields (n := 1) fmt (fun i _ => v i) i) e) (fun x => { r.entries with mEgh := x }) (fun i g => by simp only) l r.entries.mEgh)

theorem put_hdbt (atof : Str → α) (row : Nat) (ls : List Str) (e : Entries α) :
    put atof 2 row ls e = { e with mhdbt := putRow atof row ls e.mhdbt } := by
  simp [put]

theorem section_hdbt (fmt : α → Str) (hf : ∀ x, Plain (fmt x)) (v : Fin 12 → Fin 24 → α) (atof : Str → α) (r : Reader α) :
    (List.ofFn fun i => List.intercalate [','] (rowFields (n := 24) fmt (v) i)).foldl (readLine atof)
      (readLine atof r "hdbt".toList) = ⟨2, 12, { r.entries with mhdbt := fun m c => some (atof (fmt (v m c))) }⟩ := by
  rw [readLine_header atof _ "hdbt".toList (by decide) (by decide) (by decide), show weatherState "hdbt".toList = 2 by decide,
    readLine_rows (by decide) fmt hf, ← putRow_fold fmt v atof r.entries.mhdbt]
  simp only [put_hdbt]
  generalize (List.ofFn fun i : Fin 12 => i) = l
  exact congrArg (Reader.mk 2 12) (fold_field (fun i e => { e with mhdbt := putRow atof i.1 (rowFields (n := 24) fmt (v) i) e.mhdbt })
    (fun i e => putRow atof i.1 (rowFields (n := 24) fmt (v) i) e) (fun x => { r.entries with mhdbt := x }) (fun i g => by simp only) l r.entries.mhdbt)

theorem put_hEgh (atof : Str → α) (row : Nat) (ls : List Str) (e : Entries α) :
    put atof 3 row ls e = { e with mhEgh := putRow atof row ls e.mhEgh } := by
  simp [put]

theorem section_hEgh (fmt : α → Str) (hf : ∀ x, Plain (fmt x)) (v : Fin 12 → Fin 24 → α) (atof : Str → α) (r : Reader α) :
    (List.ofFn fun i => List.intercalate [','] (rowFields (n := 24) fmt (v) i)).foldl (readLine atof)
      (readLine atof r "hEgh".toList) = ⟨3, 12, { r.entries with mhEgh := fun m c => some (atof (fmt (v m c))) }⟩ := by
  rw [readLine_header atof _ "hEgh".toList (by decide) (by decide) (by decide), show weatherState "hEgh".toList = 3 by decide,
    readLine_rows (by decide) fmt hf, ← putRow_fold fmt v atof r.entries.mhEgh]
  simp only [put_hEgh]
  generalize (List.ofFn fun i : Fin 12 => i) = l
  exact congrArg (Reader.mk 3 12) (fold_field (fun i e => { e with mhEgh := putRow atof i.1 (rowFields (n := 24) fmt (v) i) e.mhEgh })
    (fun i e => putRow atof i.1 (rowFields (n := 24) fmt (v) i) e) (fun x => { r.entries with mhEgh := x }) (fun i g => by simp only) l r.entries.mhEgh)

theorem put_solar (atof : Str → α) (row : Nat) (ls : List Str) (e : Entries α) :
    put atof 1 row ls e = { e with msolar := putRow atof row ls e.msolar } := by
  simp [put]

theorem section_solar (fmt : α → Str) (hf : ∀ x, Plain (fmt x)) (v : Fin 12 → Fin 8 → α) (atof : Str → α) (r : Reader α) :
    (List.ofFn fun i => List.intercalate [','] (rowFields (n := 8) fmt (v) i)).foldl (readLine atof)
      (readLine atof r "solar".toList) = ⟨1, 12, { r.entries with msolar := fun m c => some (atof (fmt (v m c))) }⟩ := by
  rw [readLine_header atof _ "solar".toList (by decide) (by decide) (by decide), show weatherState "solar".toList = 1 by decide,
    readLine_rows (by decide) fmt hf, ← putRow_fold fmt v atof r.entries.msolar]
  simp only [put_solar]
  generalize (List.ofFn fun i : Fin 12 => i) = l
  exact congrArg (Reader.mk 1 12) (fold_field (fun i e => { e with msolar := putRow atof i.1 (rowFields (n := 8) fmt (v) i) e.msolar })
    (fun i e => putRow atof i.1 (rowFields (n := 8) fmt (v) i) e) (fun x => { r.entries with msolar := x }) (fun i g => by simp only) l r.entries.msolar)

theorem initializeSolar_iso (fmt : α → Str) (hf : ∀ x, Plain (fmt x)) (bins : Fin 12 → MonthBins α) (atof : Str → α) :
    initializeSolar atof ((isoLines fmt bins).map (· ++ ['\n'])).flatten =
      { msolar := fun m s => some (atof (fmt ((bins m).solar s)))
        mhdbt := fun m h => some (atof (fmt ((bins m).hourlyDryBulb h)))
        mhEgh := fun m h => some (atof (fmt ((bins m).hourlyGlobalHorizontal h)))
        mEgh := fun m => some (atof (fmt (bins m).globalHorizontal))
        mdbt := fun m => some (atof (fmt (bins m).dryBulb))
        mwind := fun m => some (atof (fmt (bins m).windspeed)) } := by
  rw [initializeSolar, linesGo_lines _ (isoLines_plain fmt hf bins)]
  simp only [isoLines, List.foldl_append, List.foldl_cons, List.foldl_nil]
  simp only [funext (valueLine_eq fmt _ bins), funext (rowLine_eq fmt _ bins)]
  have last : ∀ r : Reader α, readLine atof r [] = r := fun r => rfl
  rw [last]
  rw [section_mdbt fmt hf (fun i => (bins i).dryBulb), section_mwind fmt hf (fun i => (bins i).windspeed),
    section_mEgh fmt hf (fun i => (bins i).globalHorizontal), section_hdbt fmt hf (fun i => (bins i).hourlyDryBulb),
    section_hEgh fmt hf (fun i => (bins i).hourlyGlobalHorizontal), section_solar fmt hf (fun i => (bins i).solar)]

end ISO.WeatherText
