import Verif.Model.Epw
import Mathlib.Data.List.Basic

/-! Helper lemmas: splitting text at a separator, reading lines and rows. -/

namespace ISO.Epw
open ISO CNum
variable {α : Type} [CNum α]

/-- the part before the first separator -/
theorem takeWhile_join {c : Char} {a : Str} (h : c ∉ a) (rest : Str) :
    (a ++ c :: rest).takeWhile (· ≠ c) = a ∧ (a ++ c :: rest).dropWhile (· ≠ c) = c :: rest := by
  induction a with
  | nil => simp
  | cons x a ih =>
    have hx : x ≠ c := fun e => h (by simp [e])
    have := ih (fun e => h (by simp [e]))
    simp only [List.cons_append, List.takeWhile_cons, List.dropWhile_cons]
    simp only [hx, ne_eq, not_false_eq_true, decide_true, if_true]
    simp only [ne_eq] at this
    exact ⟨by rw [this.1], this.2⟩

theorem dropWhile_none {c : Char} {a : Str} (h : c ∉ a) : a.dropWhile (· ≠ c) = [] := by
  induction a with
  | nil => rfl
  | cons x a ih =>
    have hx : x ≠ c := fun e => h (by simp [e])
    simp only [List.dropWhile_cons, ne_eq, hx, not_false_eq_true, decide_true, if_true]
    exact ih (fun e => h (by simp [e]))

theorem join_cons (c : Char) (a b : Str) (l : List Str) :
    List.intercalate [c] (a :: b :: l) = a ++ c :: List.intercalate [c] (b :: l) := by
  simp [List.intercalate, List.intersperse]

theorem join_one (c : Char) (a : Str) : List.intercalate [c] [a] = a := by
  simp [List.intercalate, List.intersperse]

/-- every text is the join of its pieces -/
theorem exists_pieces (c : Char) (t : Str) : ∃ ls : List Str, ls ≠ [] ∧ (∀ l ∈ ls, c ∉ l) ∧ t = List.intercalate [c] ls := by
  induction t with
  | nil => exact ⟨[[]], by simp, by simp, by simp⟩
  | cons x t ih =>
    obtain ⟨ls, h1, h2, h3⟩ := ih
    by_cases hx : x = c
    · subst hx
      refine ⟨[] :: ls, by simp, by simpa using h2, ?_⟩
      cases ls with
      | nil => exact absurd rfl h1
      | cons b l => rw [join_cons, ← h3]; rfl
    · cases ls with
      | nil => exact absurd rfl h1
      | cons b l =>
        refine ⟨(x :: b) :: l, by simp, ?_, ?_⟩
        · intro l' hl'
          rcases List.mem_cons.mp hl' with e | e
          · subst e
            simp only [List.mem_cons, not_or]
            exact ⟨fun e => hx e.symm, h2 b (by simp)⟩
          · exact h2 l' (by simp [e])
        · cases l with
          | nil => rw [join_one] at h3 ⊢; rw [h3]
          | cons b' l' => rw [join_cons] at h3 ⊢; rw [h3]; rfl

theorem getlineCommas_none (n : Nat) (s : Str) : getlineCommas n s none = List.replicate n s := by
  induction n with
  | zero => rfl
  | succ n ih => rw [getlineCommas, ih, List.replicate_succ]

/-- the i-th `getline` call gives the i-th field, or the last one -/
theorem getlineCommas_join (fs : List Str) (h : fs ≠ []) (hc : ∀ f ∈ fs, ',' ∉ f) (s : Str) (n i : Nat) (hi : i < n) :
    (getlineCommas n s (some (List.intercalate [','] fs))).getD i [] = fs.getD (min i (fs.length - 1)) [] := by
  induction fs generalizing s n i with
  | nil => exact absurd rfl h
  | cons a fs ih =>
    cases n with
    | zero => omega
    | succ n =>
      have ha : ',' ∉ a := hc a (by simp)
      cases fs with
      | nil =>
        rw [join_one]
        simp only [getlineCommas, dropWhile_none ha, getlineCommas_none]
        cases i with
        | zero => rfl
        | succ i =>
          have : i < n := by omega
          simp [List.getD_eq_getElem?_getD, this]
      | cons b fs =>
        rw [join_cons]
        obtain ⟨h1, h2⟩ := takeWhile_join ha (List.intercalate [','] (b :: fs))
        simp only [getlineCommas, h1, h2]
        cases i with
        | zero => rfl
        | succ i =>
          have := ih (by simp) (fun f hf => hc f (by simp [hf])) a n i (by omega)
          simp only [List.getD_eq_getElem?_getD, List.getElem?_cons_succ] at this ⊢
          rw [this]
          simp only [List.length_cons]
          have e : min (i + 1) (fs.length + 1 + 1 - 1) = min i (fs.length + 1 - 1) + 1 := by omega
          rw [e, List.getElem?_cons_succ]

theorem fields_join (fs : List Str) (h : fs ≠ []) (hc : ∀ f ∈ fs, ',' ∉ f) (n i : Nat) (hi : i < n) :
    (fields n (List.intercalate [','] fs)).getD i [] = fs.getD (min i (fs.length - 1)) [] :=
  getlineCommas_join fs h hc [] n i hi

/-! ### lines of a file -/

theorem getline_join {l : Str} {ls : List Str} (h : '\n' ∉ l) :
    Stream.getline ⟨List.intercalate ['\n'] (l :: ls), false⟩ =
      (l, if ls = [] then ⟨[], true⟩ else ⟨List.intercalate ['\n'] ls, false⟩) := by
  cases ls with
  | nil =>
    rw [join_one]
    simp only [Stream.getline, dropWhile_none h, if_true]
  | cons b ls =>
    rw [join_cons]
    obtain ⟨h1, h2⟩ := takeWhile_join h (List.intercalate ['\n'] (b :: ls))
    simp only [Stream.getline, h1, h2]
    simp

/-- the reading loop on a list of lines -/
def readLines (atof : Str → α) : List Str → Nat → Nat → EpwData α → EpwData α
  | [], _, _, e => e
  | l :: ls, i, row, e =>
    if row < TIMESLICES then
      if i + 1 = 1 then readLines atof ls (i + 1) row (parseHeader atof l e)
      else if 8 < i + 1 then readLines atof ls (i + 1) (row + 1) (parseData atof l row e)
      else readLines atof ls (i + 1) row e
    else e

theorem readLoop_eof (atof : Str → α) (fuel : Nat) (t : Str) (i row : Nat) (e : EpwData α) :
    readLoop atof fuel ⟨t, true⟩ i row e = e := by
  cases fuel <;> rfl

theorem readLoop_lines (atof : Str → α) (ls : List Str) (h : ls ≠ []) (hn : ∀ l ∈ ls, '\n' ∉ l) (fuel : Nat)
    (hf : ls.length ≤ fuel) (i row : Nat) (e : EpwData α) :
    readLoop atof fuel ⟨List.intercalate ['\n'] ls, false⟩ i row e = readLines atof ls i row e := by
  induction ls generalizing fuel i row e with
  | nil => exact absurd rfl h
  | cons l ls ih =>
    cases fuel with
    | zero => simp at hf
    | succ fuel =>
      have g := getline_join (ls := ls) (hn l (by simp))
      have key : ∀ i row e, readLoop atof fuel (if ls = [] then ⟨[], true⟩ else ⟨List.intercalate ['\n'] ls, false⟩) i row e
          = readLines atof ls i row e := by
        intro i row e
        by_cases hl : ls = []
        · rw [if_pos hl, readLoop_eof, hl]; rfl
        · rw [if_neg hl]
          exact ih hl (fun l hl => hn l (by simp [hl])) fuel (by simpa using hf) i row e
      rw [readLoop, readLines, g]
      simp only [Bool.not_false, Bool.true_and, decide_eq_true_eq, key]

theorem length_join (c : Char) (ls : List Str) : ls.length ≤ (List.intercalate [c] ls).length + 1 := by
  induction ls with
  | nil => simp
  | cons a ls ih =>
    cases ls with
    | nil => simp
    | cons b ls =>
      rw [join_cons]
      simp only [List.length_append, List.length_cons] at ih ⊢
      omega

/-- the bound on the number of turns in `loadFile` is never reached -/
theorem readLoop_fuel (atof : Str → α) (text : Str) (fuel : Nat) (hf : text.length + 2 ≤ fuel) (i row : Nat) (e : EpwData α) :
    readLoop atof fuel ⟨text, false⟩ i row e = readLoop atof (text.length + 2) ⟨text, false⟩ i row e := by
  obtain ⟨ls, h1, h2, h3⟩ := exists_pieces '\n' text
  have := length_join '\n' ls
  rw [← h3] at this
  rw [h3] at hf ⊢
  rw [readLoop_lines atof ls h1 h2 _ (by rw [← h3] at hf; omega), readLoop_lines atof ls h1 h2 _ (by rw [← h3]; omega)]

/-- rows written one after the other -/
def writeRows (atof : Str → α) (rows : List Str) (row : Nat) (e : EpwData α) : EpwData α :=
  { e with data := fun c => (e.data c).take row ++
      rows.map (fun l => atof ((fields 22 l).getD (dataFields c) [])) ++ (e.data c).drop (row + rows.length) }

omit [CNum α] in
theorem set_take_drop {col vals : List α} {v : α} {row : Nat} (h : row < col.length) :
    (col.set row v).take (row + 1) ++ vals ++ (col.set row v).drop (row + 1 + vals.length) =
      col.take row ++ (v :: vals) ++ col.drop (row + (v :: vals).length) := by
  have e1 : (col.set row v).take (row + 1) = col.take row ++ [v] := by
    rw [List.take_add_one, List.getElem?_set_self (by simpa using h), List.take_set_of_le (le_refl _)]; rfl
  have e2 : (col.set row v).drop (row + 1 + vals.length) = col.drop (row + (v :: vals).length) := by
    rw [List.drop_set_of_lt (by omega), List.length_cons]; congr 1; omega
  rw [e1, e2]; simp

theorem readLines_rows (atof : Str → α) (ls : List Str) (i row : Nat) (hi : 8 ≤ i) (e : EpwData α)
    (hl : ∀ c, (e.data c).length = TIMESLICES) (hr : row ≤ TIMESLICES) :
    readLines atof ls i row e = writeRows atof (ls.take (TIMESLICES - row)) row e := by
  generalize hN : TIMESLICES = N at *
  induction ls generalizing i row e with
  | nil =>
    simp only [readLines, List.take_nil, writeRows, List.map_nil, List.append_nil, List.length_nil, Nat.add_zero,
      List.take_append_drop]
  | cons l ls ih =>
    rw [readLines, hN]
    by_cases h : row < N
    · rw [if_pos h, if_neg (by omega), if_pos (by omega), ih (i + 1) (row + 1) (by omega) _ _ (by omega)]
      · obtain ⟨k, hk⟩ : ∃ k, N - row = k + 1 := ⟨N - row - 1, by omega⟩
        have hk' : N - (row + 1) = k := by omega
        rw [hk, hk', List.take_succ_cons]
        unfold writeRows parseData
        simp only
        congr 1
        funext c
        have hlen : row < (e.data c).length := by rw [hl]; exact h
        have := set_take_drop (vals := (ls.take k).map (fun l => atof ((fields 22 l).getD (dataFields c) [])))
          (v := atof ((fields 22 l).getD (dataFields c) [])) hlen
        simp only [List.length_map, List.length_cons, List.map_cons] at this ⊢
        exact this
      · intro c; simp only [parseData, List.length_set]; exact hl c
    · have : N - row = 0 := by omega
      rw [if_neg h, this, List.take_zero]
      simp only [writeRows, List.map_nil, List.append_nil, List.length_nil, Nat.add_zero, List.take_append_drop]

theorem resize_length (col : List α) : (resize col).length = TIMESLICES := by
  unfold resize
  generalize TIMESLICES = N
  simp only [List.length_append, List.length_take, List.length_replicate]
  omega

theorem readLines_skip (atof : Str → α) (ls : List Str) (k i : Nat) (hi : 1 ≤ i) (hk : i + k = 8) (e : EpwData α) :
    readLines atof ls i 0 e = readLines atof (ls.drop k) 8 0 e := by
  induction k generalizing ls i with
  | zero => have : i = 8 := by omega
            subst this; rfl
  | succ k ih =>
    cases ls with
    | nil => simp [readLines]
    | cons l ls =>
      have t : 0 < TIMESLICES := by unfold TIMESLICES; norm_num
      rw [readLines, if_pos t, if_neg (by omega), if_neg (by omega), ih ls (i + 1) (by omega) (by omega), List.drop_succ_cons]

/-- what loading a file does -/
theorem loadFile_lines (atof : Str → α) (l : Str) (ls : List Str) (hn : ∀ x ∈ l :: ls, '\n' ∉ x) (e : EpwData α) :
    loadFile atof (some (List.intercalate ['\n'] (l :: ls))) e =
      writeRows atof ((ls.drop 7).take TIMESLICES) 0
        (parseHeader atof l { e with data := fun c => resize (e.data c) }) := by
  have t : 0 < TIMESLICES := by unfold TIMESLICES; norm_num
  unfold loadFile
  simp only
  rw [readLoop_lines atof (l :: ls) (by simp) hn _ (by have := length_join '\n' (l :: ls); omega), readLines, if_pos t,
    if_pos rfl, readLines_skip atof ls 7 1 (by omega) (by omega), readLines_rows atof _ 8 0 (by omega) _ _ (by omega), Nat.sub_zero]
  intro c
  simp only [parseHeader, resize_length]

omit [CNum α] in
/-- columns stored one after the other -/
theorem flatten_column (ls : List (List α)) (n : Nat) (h : ∀ l ∈ ls, l.length = n) (rest : List α) (k : Nat) (hk : k < ls.length) :
    ((ls.flatten ++ rest).drop (k * n)).take n = ls[k] := by
  induction ls generalizing k with
  | nil => simp at hk
  | cons a ls ih =>
    have ha : a.length = n := h a (by simp)
    rw [List.flatten_cons, List.append_assoc]
    cases k with
    | zero => rw [Nat.zero_mul, List.drop_zero, ← ha, List.take_left]; rfl
    | succ k =>
      rw [Nat.succ_mul, Nat.add_comm, ← List.drop_drop, ← ha, List.drop_left, ha]
      exact ih (fun l hl => h l (by simp [hl])) k (by simpa using hk)

omit [CNum α] in
theorem flatten_length (ls : List (List α)) (n : Nat) (h : ∀ l ∈ ls, l.length = n) : ls.flatten.length = ls.length * n := by
  induction ls with
  | nil => simp
  | cons a ls ih =>
    rw [List.flatten_cons, List.length_append, ih (fun l hl => h l (by simp [hl])), h a (by simp), List.length_cons, Nat.succ_mul,
      Nat.add_comm]

end ISO.Epw
