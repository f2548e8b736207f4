import Verif.Spec.Output

/-! # Lemmas about the printed tables -/

namespace ISO.Lemmas
open ISO ISO.Spec ISO.CommandLine

theorem table_line (sep : Char) (l rest : Str) (h : '\n' ∉ l) : readTable sep (l ++ '\n' :: rest) = cells sep l :: readTable sep rest := by
  unfold readTable
  rw [List.splitOn_append_cons_self_of_not_mem h, List.dropLast_cons_of_ne_nil (by simp), List.map_cons]

theorem table_nil (sep : Char) : readTable sep [] = [] := rfl

theorem table_lines (sep : Char) (ls : List Str) (rest : Str) (h : ∀ l ∈ ls, '\n' ∉ l) :
    readTable sep ((ls.map (· ++ ['\n'])).flatten ++ rest) = ls.map (cells sep) ++ readTable sep rest := by
  induction ls with
  | nil => rfl
  | cons l ls ih =>
    rw [List.map_cons, List.flatten_cons, List.append_assoc, List.append_assoc, List.singleton_append,
      table_line sep l _ (h l List.mem_cons_self), ih fun l hl => h l (List.mem_cons_of_mem _ hl)]
    rfl

theorem trim_plain (s : Str) (h : ' ' ∉ s) : trim s = s := by
  have e : ∀ t : Str, ' ' ∉ t → t.dropWhile (· = ' ') = t := by
    intro t ht
    cases t with
    | nil => rfl
    | cons c t =>
      rw [List.dropWhile_cons_of_neg]
      simpa using fun e : c = ' ' => ht (e ▸ List.mem_cons_self)
  unfold trim
  rw [e s h, e _ (by simpa using h), List.reverse_reverse]

theorem trim_blank (s : Str) : trim (' ' :: s) = trim s := by
  unfold trim
  rw [List.dropWhile_cons_of_pos (by simp)]

theorem trim_blank_end (s : Str) (h : ' ' ∉ s) : trim (s ++ [' ']) = s := by
  rcases s with - | ⟨c, s⟩
  · rfl
  · have hc : c ≠ ' ' := fun e => h (e ▸ List.mem_cons_self)
    unfold trim
    rw [List.cons_append, List.dropWhile_cons_of_neg (by simpa using hc), ← List.cons_append, List.reverse_append,
      List.reverse_singleton, List.singleton_append, List.dropWhile_cons_of_pos (by simp)]
    have e := trim_plain (c :: s) h
    unfold trim at e
    rwa [List.dropWhile_cons_of_neg (by simpa using hc)] at e

theorem cells_head (sep : Char) (l rest : Str) (h : sep ∉ l) : cells sep (l ++ sep :: rest) = trim l :: cells sep rest := by
  unfold cells
  rw [List.splitOn_append_cons_self_of_not_mem h, List.map_cons]

theorem cells_one (sep : Char) (l : Str) (h : sep ∉ l) : cells sep l = [trim l] := by
  unfold cells
  rw [List.splitOn_eq_singleton h]; rfl

theorem cells_row (h : Str) (vs : List Str) (hc : ',' ∉ h) (hvs : ∀ v ∈ vs, ',' ∉ v ∧ ' ' ∉ v) :
    cells ',' (h ++ (vs.map (", ".toList ++ ·)).flatten) = trim h :: vs := by
  induction vs generalizing h with
  | nil => rw [List.map_nil, List.flatten_nil, List.append_nil, cells_one _ _ hc]
  | cons v vs ih =>
    obtain ⟨h1, h2⟩ := hvs v List.mem_cons_self
    have e : h ++ ((v :: vs).map (", ".toList ++ ·)).flatten = h ++ ',' :: ((' ' :: v) ++ (vs.map (", ".toList ++ ·)).flatten) := by
      rw [List.map_cons, List.flatten_cons, show ", ".toList = [',', ' '] from by decide]
      rfl
    rw [e, cells_head _ _ _ hc, ih _ (by simpa using h1) fun v hv => hvs v (List.mem_cons_of_mem _ hv), trim_blank, trim_plain _ h2]

theorem digits (n : ℕ) : ∀ c ∈ (Nat.repr n).toList, c ≠ '\n' ∧ c ≠ ',' ∧ c ≠ '|' ∧ c ≠ ' ' := by
  intro c hc
  have : c.isDigit = true := by
    rw [Nat.repr, String.toList_ofList] at hc
    exact Nat.isDigit_of_mem_toDigits (by decide) (by decide) hc
  refine ⟨?_, ?_, ?_, ?_⟩ <;> (rintro rfl; revert this; decide)

theorem digits_free (n : ℕ) : '\n' ∉ (Nat.repr n).toList ∧ ',' ∉ (Nat.repr n).toList ∧ '|' ∉ (Nat.repr n).toList ∧ ' ' ∉ (Nat.repr n).toList :=
  ⟨fun h => (digits n _ h).1 rfl, fun h => (digits n _ h).2.1 rfl, fun h => (digits n _ h).2.2.1 rfl, fun h => (digits n _ h).2.2.2 rfl⟩

variable {α : Type}

theorem plain_free {print : Printer α} (hp : Plain print) (p : ℕ) (v : α) :
    '\n' ∉ print p v ∧ ',' ∉ print p v ∧ '|' ∉ print p v ∧ ' ' ∉ print p v :=
  ⟨fun h => (hp p v _ h).1 rfl, fun h => (hp p v _ h).2.1 rfl, fun h => (hp p v _ h).2.2.1 rfl, fun h => (hp p v _ h).2.2.2 rfl⟩

/-- a line of a table of results, without the newline -/
def rowText (print : Printer α) (p : ℕ) (i : ℕ) (r : Fin 13 → α) : Str :=
  (Nat.repr (i + 1)).toList ++ ((List.ofFn fun k => print p (r k)).map (", ".toList ++ ·)).flatten

theorem rowText_line (print : Printer α) (hp : Plain print) (p i : ℕ) (r : Fin 13 → α) : '\n' ∉ rowText print p i r := by
  unfold rowText
  rw [List.mem_append, List.mem_flatten]
  rintro (h | ⟨l, hl, hc⟩)
  · exact (digits_free _).1 h
  · obtain ⟨v, hv, rfl⟩ := List.mem_map.mp hl
    obtain ⟨k, rfl⟩ := List.mem_ofFn.mp hv
    rw [List.mem_append, show ", ".toList = [',', ' '] from by decide] at hc
    rcases hc with hc | hc
    · simp at hc
    · exact (plain_free hp _ _).1 hc

theorem rowText_cells (print : Printer α) (hp : Plain print) (p i : ℕ) (r : Fin 13 → α) :
    cells ',' (rowText print p i r) = (Nat.repr (i + 1)).toList :: List.ofFn fun k => print p (r k) := by
  unfold rowText
  rw [cells_row _ _ (digits_free _).2.1, trim_plain _ (digits_free _).2.2.2]
  intro v hv
  obtain ⟨k, rfl⟩ := List.mem_ofFn.mp hv
  exact ⟨(plain_free hp _ _).2.1, (plain_free hp _ _).2.2.2⟩

theorem monthlyRow_eq (print : Printer α) (o : Out) (i : ℕ) (r : Fin 13 → α) :
    monthlyRow print o i r = ⟨o.text ++ (rowText print 10 i r ++ ['\n']), 10⟩ := by
  have e : ∀ (l : List (Fin 13)) (o : Out), l ≠ [] →
      l.foldl (fun o j => (Out.setPrecision (o.put ", ".toList) 10).double print (r j)) o =
        ⟨o.text ++ (l.map fun k => ", ".toList ++ print 10 (r k)).flatten, 10⟩ := by
    intro l
    induction l with
    | nil => intro o h; exact absurd rfl h
    | cons k l ih =>
      intro o _
      rw [List.foldl_cons]
      by_cases hl : l = []
      · subst hl
        simp [Out.double, Out.setPrecision, Out.put, List.append_assoc]
      · rw [ih _ hl]
        simp [Out.double, Out.setPrecision, Out.put, List.append_assoc]
  unfold monthlyRow
  simp only []
  rw [e _ _ (by decide)]
  simp only [Out.put, Out.int, rowText, List.ofFn_eq_map, List.map_map, List.append_assoc]
  rfl

theorem hourlyRow_eq (print : Printer α) (o : Out) (i : ℕ) (r : Fin 13 → α) :
    hourlyRow print o i r = ⟨o.text ++ (rowText print o.precision i r ++ ['\n']), o.precision⟩ := by
  have e : ∀ (l : List (Fin 13)) (o : Out),
      l.foldl (fun o j => (o.put ", ".toList).double print (r j)) o =
        ⟨o.text ++ (l.map fun k => ", ".toList ++ print o.precision (r k)).flatten, o.precision⟩ := by
    intro l
    induction l with
    | nil => intro o; simp
    | cons k l ih =>
      intro o
      rw [List.foldl_cons, ih]
      simp [Out.double, Out.put, List.append_assoc]
  unfold hourlyRow
  simp only []
  rw [e]
  simp only [Out.put, Out.int, rowText, List.ofFn_eq_map, List.map_map, List.append_assoc]
  rfl

theorem rows_eq {row : Out → ℕ → (Fin 13 → α) → Out} {line : ℕ → (Fin 13 → α) → Str} (A B : ℕ → Prop) (hBA : ∀ p, B p → A p)
    (hrow : ∀ o i r, A o.precision → (row o i r).text = o.text ++ (line i r ++ ['\n']) ∧ B (row o i r).precision)
    (rs : List (Fin 13 → α)) (n : ℕ) (hn : n ≤ rs.length) (o : Out) (ho : A o.precision) :
    ∃ o', rows row rs n o = some o' ∧
      o'.text = o.text ++ (((rs.take n).zipIdx.map fun r => line r.2 r.1).map (· ++ ['\n'])).flatten ∧
      A o'.precision ∧ (0 < n → B o'.precision) := by
  induction n with
  | zero => exact ⟨o, rfl, by simp, ho, by simp⟩
  | succ n ih =>
    obtain ⟨o', h1, h2, h3, -⟩ := ih (by omega)
    have hlt : n < rs.length := by omega
    obtain ⟨e1, e2⟩ := hrow o' n rs[n] h3
    refine ⟨row o' n rs[n], ?_, ?_, hBA _ e2, fun _ => e2⟩
    · unfold rows at h1 ⊢
      rw [List.range_succ, List.foldlM_append, h1]
      simp [hlt]
    · rw [e1, h2, List.take_succ_eq_append_getElem hlt, List.zipIdx_append]
      simp [List.length_take, Nat.min_eq_left hlt.le, List.append_assoc]

theorem cells_plain_of (l : Str) (h1 : ',' ∉ l) (h2 : trim l = l) : cells ',' l = [l] := by rw [cells_one _ _ h1, h2]

theorem columns_cells (first : Str) (h : ',' ∉ first ∧ ' ' ∉ first) : cells ',' (first ++ columns) = first :: useNames := by
  have e : columns = ',' :: columns.tail := by decide +kernel
  have e' : cells ',' columns.tail = useNames := by decide +kernel
  rw [e, cells_head _ _ _ h.1, trim_plain _ h.2, e']

theorem columns_line : '\n' ∉ columns := by decide +kernel

theorem result_table (print : Printer α) (hp : Plain print) (p : ℕ) (title first : Str) (ht : ',' ∉ title ∧ '\n' ∉ title ∧ trim title = title)
    (hf : ',' ∉ first ∧ ' ' ∉ first ∧ '\n' ∉ first) (rs : List (Fin 13 → α)) :
    readTable ',' (title ++ '\n' :: ((first ++ columns) ++ '\n' ::
      ((rs.zipIdx.map fun r => rowText print p r.2 r.1).map (· ++ ['\n'])).flatten)) =
      resultTable (print p) title first rs := by
  rw [table_line _ _ _ ht.2.1, table_line _ _ _ (by simpa using ⟨hf.2.2, columns_line⟩), columns_cells _ ⟨hf.1, hf.2.1⟩,
    cells_plain_of _ ht.1 ht.2.2]
  have := table_lines ',' (rs.zipIdx.map fun r => rowText print p r.2 r.1) [] (by
    intro l hl
    obtain ⟨r, -, rfl⟩ := List.mem_map.mp hl
    exact rowText_line print hp _ _ _)
  rw [List.append_nil, table_nil, List.append_nil] at this
  rw [this, resultTable, List.map_map]
  congr 2
  refine List.map_congr_left fun r _ => ?_
  exact rowText_cells print hp _ _ _

theorem printMonthly_eq [CNum α] [OfInt α] (print : Printer α) (hp : Plain print) (rs : List (Fin 13 → α)) (hl : rs.length = 12) (o : Out) :
    ∃ t, printMonthly print rs o = some ⟨o.text ++ t, 10⟩ ∧
      readTable ',' t = resultTable (print 10) "Monthly Results:".toList "Month".toList rs := by
  obtain ⟨o', h1, h2, -, h3⟩ := rows_eq (row := monthlyRow print) (line := rowText print 10) (fun _ => True) (· = 10) (fun _ _ => trivial)
    (fun o i r _ => by rw [monthlyRow_eq]; exact ⟨rfl, rfl⟩) rs 12 hl.ge
    (((o.put "Monthly Results:\n".toList).put "Month".toList |>.put columns).put ['\n']) trivial
  refine ⟨_, ?_, result_table print hp 10 _ _ (by decide) (by decide) rs⟩
  unfold printMonthly
  simp only []
  rw [h1]
  obtain ⟨t, p⟩ := o'
  simp only at h2 h3
  rw [h2, h3 (by norm_num), List.take_of_length_le hl.le]
  simp only [Out.put, List.append_assoc, show "Monthly Results:\n".toList = "Monthly Results:".toList ++ ['\n'] from by decide]
  rfl

theorem printHourly_eq [CNum α] [OfInt α] (print : Printer α) (hp : Plain print) (b : Bool) (rs : List (Fin 13 → α))
    (hl : rs.length = if b then 12 else 8760) (o : Out) :
    ∃ t, printHourly print b rs o = some ⟨o.text ++ t, o.precision⟩ ∧
      readTable ',' t = resultTable (print o.precision) (if b then "Hourly results by month:".toList else "Hourly results by hour:".toList)
        (if b then "month".toList else "hour".toList) rs := by
  obtain ⟨o', h1, h2, h3, -⟩ := rows_eq (row := hourlyRow print) (line := rowText print o.precision) (· = o.precision) (· = o.precision)
    (fun _ h => h)
    (fun o' i r h => by rw [hourlyRow_eq, h]; exact ⟨rfl, rfl⟩) rs (if b then 12 else 8760) hl.ge
    (((((o.put "Hourly results by ".toList).put (if b then "month".toList else "hour".toList)).put ":\n".toList).put
      (if b then "month".toList else "hour".toList) |>.put columns).put ['\n']) rfl
  refine ⟨_, ?_, result_table print hp o.precision _ _ (by cases b <;> decide) (by cases b <;> decide) rs⟩
  unfold printHourly
  simp only []
  rw [h1]
  obtain ⟨t, p⟩ := o'
  simp only at h2 h3
  rw [h2, h3, List.take_of_length_le hl.le]
  clear h1 h2 h3 hl
  cases b
  · simp only [Out.put, List.append_assoc, Bool.false_eq_true, if_false,
      show "Hourly results by hour:".toList = "Hourly results by ".toList ++ "hour".toList ++ [':'] from by decide,
      show ":\n".toList = [':'] ++ ['\n'] from by decide]
    rfl
  · simp only [Out.put, List.append_assoc, if_true,
      show "Hourly results by month:".toList = "Hourly results by ".toList ++ "month".toList ++ [':'] from by decide,
      show ":\n".toList = [':'] ++ ['\n'] from by decide]
    rfl

/-! ### the comparison -/

/-- between the cells of a line of a comparison -/
def delimiter (markdown : Bool) : Str := if markdown then " | ".toList else ", ".toList

/-- a line of a comparison, without the newline -/
def compareLine (markdown : Bool) (a b c d : Str) : Str :=
  (if markdown then "| ".toList else []) ++ (a ++ (delimiter markdown ++ (b ++ (delimiter markdown ++ (c ++ (delimiter markdown ++
    (d ++ if markdown then " |".toList else [])))))))

theorem compareRow_eq [CNum α] [OfInt α] (print : Printer α) (md : Bool) (o : Out) (i : ℕ) (x y : α) :
    compareRow print md o i x y = ⟨o.text ++ (compareLine md (Nat.repr i).toList (print o.precision x) (print o.precision y)
      (print o.precision (x - y)) ++ ['\n']), o.precision⟩ := by
  cases md <;> simp [compareRow, compareLine, delimiter, Out.put, Out.int, Out.double, List.append_assoc]

/-- the separator of the cells of a comparison -/
def separator (markdown : Bool) : Char := if markdown then '|' else ','

theorem trim_both (s : Str) (h : ' ' ∉ s) : trim (' ' :: (s ++ [' '])) = s := by rw [trim_blank, trim_blank_end s h]

theorem compareLine_cells (md : Bool) (a b c d : Str) (h : ∀ s ∈ [a, b, c, d], '\n' ∉ s ∧ ',' ∉ s ∧ '|' ∉ s ∧ ' ' ∉ s) :
    '\n' ∉ compareLine md a b c d ∧
    cells (separator md) (compareLine md a b c d) = if md then [[], a, b, c, d, []] else [a, b, c, d] := by
  simp only [List.forall_mem_cons, List.not_mem_nil, false_imp_iff, implies_true, and_true] at h
  obtain ⟨ha, hb, hc, hd⟩ := h
  cases md
  · constructor
    · simp [compareLine, delimiter, ha.1, hb.1, hc.1, hd.1]
    · have := cells_row a [b, c, d] ha.2.1 (by simp [hb, hc, hd])
      rw [trim_plain _ ha.2.2.2] at this
      simpa [compareLine, delimiter, separator] using this
  · constructor
    · simp [compareLine, delimiter, ha.1, hb.1, hc.1, hd.1]
    · have e : compareLine true a b c d = [] ++ '|' :: ((' ' :: (a ++ [' '])) ++ '|' :: ((' ' :: (b ++ [' '])) ++ '|' ::
          ((' ' :: (c ++ [' '])) ++ '|' :: ((' ' :: (d ++ [' '])) ++ '|' :: [])))) := by
        simp [compareLine, delimiter]
      have hm : ∀ s : Str, '|' ∉ s → '|' ∉ ' ' :: (s ++ [' ']) := by intro s hs; simpa using hs
      show cells '|' _ = [[], a, b, c, d, []]
      rw [e, cells_head _ _ _ (by simp), cells_head _ _ _ (hm _ ha.2.2.1), cells_head _ _ _ (hm _ hb.2.2.1),
        cells_head _ _ _ (hm _ hc.2.2.1), cells_head _ _ _ (hm _ hd.2.2.1), trim_both _ ha.2.2.2, trim_both _ hb.2.2.2,
        trim_both _ hc.2.2.2, trim_both _ hd.2.2.2]
      rfl

theorem four_free {print : Printer α} (hp : Plain print) (n p : ℕ) (x y z : α) :
    ∀ s ∈ [(Nat.repr n).toList, print p x, print p y, print p z], '\n' ∉ s ∧ ',' ∉ s ∧ '|' ∉ s ∧ ' ' ∉ s := by
  simp only [List.forall_mem_cons, List.not_mem_nil, false_imp_iff, implies_true, and_true]
  exact ⟨digits_free n, plain_free hp _ _, plain_free hp _ _, plain_free hp _ _⟩

/-- the head of a comparison -/
def headText (md : Bool) (name : Str) : Str := (compareHead md ⟨[], 0⟩ name).text

theorem compareHead_eq (md : Bool) (o : Out) (name : Str) : compareHead md o name = ⟨o.text ++ headText md name, o.precision⟩ := by
  cases md <;> simp [headText, compareHead, Out.put, List.append_assoc]

theorem headText_ends (md : Bool) (name : Str) : ∃ t, headText md name = t ++ ['\n'] := by
  cases md
  · exact ⟨"Month".toList ++ ", ".toList ++ "Monthly ".toList ++ name ++ ", ".toList ++ "Hourly ".toList ++ name ++ ", ".toList ++
      "Difference".toList, by simp [headText, compareHead, Out.put]⟩
  · exact ⟨"| ".toList ++ "Month".toList ++ " | ".toList ++ "Monthly ".toList ++ name ++ " | ".toList ++ "Hourly ".toList ++ name ++
      " | ".toList ++ "Difference".toList ++ " |".toList ++ ['\n'] ++ "|---|---|---|---|".toList,
      by simp [headText, compareHead, Out.put]⟩

theorem table_append (sep : Char) (s t : Str) : readTable sep (s ++ '\n' :: t) = readTable sep (s ++ ['\n']) ++ readTable sep t := by
  unfold readTable
  rw [List.splitOn_append_cons_self, List.splitOn_append_cons_self, ← List.map_append]
  congr 1
  rw [List.dropLast_append_of_ne_nil (by simp), List.splitOn_nil, List.dropLast_append_of_ne_nil (by simp)]
  simp

theorem head_table : ∀ (md : Bool) (k : Fin 13), readTable (separator md) (headText md (endUseNames k)) =
    [if md then [[], "Month".toList, "Monthly ".toList ++ useNames.getD k [], "Hourly ".toList ++ useNames.getD k [], "Difference".toList, []]
      else ["Month".toList, "Monthly ".toList ++ useNames.getD k [], "Hourly ".toList ++ useNames.getD k [], "Difference".toList]] ++
    (if md then [[[], "---".toList, "---".toList, "---".toList, "---".toList, []]] else []) := by
  decide +kernel

theorem compareRows_eq [CNum α] [OfInt α] (print : Printer α) (md : Bool) (k : Fin 13) (ms hs : List (Fin 13 → α)) (n : ℕ)
    (hm : n ≤ ms.length) (hh : n ≤ hs.length) (o : Out) :
    (List.range n).foldlM (fun o month => do
      let m ← ms[month]?
      let h ← hs[month]?
      return compareRow print md o month (m k) (h k)) o =
    some (⟨o.text ++ (((((ms.take n).map (· k)).zip ((hs.take n).map (· k))).zipIdx.map fun r =>
      compareLine md (Nat.repr r.2).toList (print o.precision r.1.1) (print o.precision r.1.2)
        (print o.precision (r.1.1 - r.1.2))).map (· ++ ['\n'])).flatten, o.precision⟩ : Out) := by
  induction n with
  | zero => simp
  | succ n ih =>
    have h1 : n < ms.length := by omega
    have h2 : n < hs.length := by omega
    rw [List.range_succ, List.foldlM_append, ih (by omega) (by omega), List.take_succ_eq_append_getElem h1,
      List.take_succ_eq_append_getElem h2, List.map_append, List.map_append, List.zip_append (by simp; omega), List.zipIdx_append]
    simp [h1, h2, compareRow_eq, List.append_assoc, List.length_take, Nat.min_eq_left h1.le, Nat.min_eq_left h2.le]

theorem compareUse_eq [CNum α] [OfInt α] (print : Printer α) (hp : Plain print) (md : Bool) (ms hs : List (Fin 13 → α))
    (hm : ms.length = 12) (hh : hs.length = 12) (o : Out) (k : Fin 13) :
    ∃ t, compareUse print md ms hs o k = some ⟨o.text ++ t ++ ['\n'], o.precision⟩ ∧
      readTable (separator md) (t ++ ['\n']) = compareTable (print o.precision) md (useNames.getD k []) (ms.map (· k)) (hs.map (· k)) := by
  have e := compareRows_eq print md k ms hs 12 hm.ge hh.ge (compareHead md o (endUseNames k))
  rw [List.take_of_length_le hm.le, List.take_of_length_le hh.le] at e
  rw [compareHead_eq] at e
  refine ⟨headText md (endUseNames k) ++ ((((ms.map (· k)).zip (hs.map (· k))).zipIdx.map fun r =>
      compareLine md (Nat.repr r.2).toList (print o.precision r.1.1) (print o.precision r.1.2)
        (print o.precision (r.1.1 - r.1.2))).map (· ++ ['\n'])).flatten, ?_, ?_⟩
  · unfold compareUse
    simp only []
    rw [compareHead_eq, e]
    simp only [Option.bind_eq_bind, Option.bind_some, Out.put, List.append_assoc]
    rfl
  · obtain ⟨t, ht⟩ := headText_ends md (endUseNames k)
    have hd := head_table md k
    simp only [ht] at hd ⊢
    simp only [List.append_assoc, List.cons_append, List.nil_append]
    rw [table_append, hd, table_lines]
    · unfold compareTable
      have : readTable (separator md) ['\n'] = [[[]]] := by cases md <;> decide
      rw [this, List.map_map, ← List.append_assoc]
      congr 1
      cases md
      · simp only [Bool.false_eq_true, if_false]
        congr 1
        refine List.map_congr_left fun r _ => ?_
        have := (compareLine_cells false (Nat.repr r.2).toList (print o.precision r.1.1) (print o.precision r.1.2)
          (print o.precision (r.1.1 - r.1.2)) (four_free hp _ _ _ _ _)).2
        exact this
      · simp only [if_true]
        congr 1
        refine List.map_congr_left fun r _ => ?_
        have := (compareLine_cells true (Nat.repr r.2).toList (print o.precision r.1.1) (print o.precision r.1.2)
          (print o.precision (r.1.1 - r.1.2)) (four_free hp _ _ _ _ _)).2
        simpa using this
    · intro l hl
      obtain ⟨r, -, rfl⟩ := List.mem_map.mp hl
      exact (compareLine_cells md _ _ _ _ (four_free hp _ _ _ _ _)).1

theorem printCompare_eq [CNum α] [OfInt α] (print : Printer α) (hp : Plain print) (md : Bool) (ms hs : List (Fin 13 → α))
    (hm : ms.length = 12) (hh : hs.length = 12) (o : Out) :
    ∃ t, printCompare print md ms hs o = some ⟨o.text ++ t, o.precision⟩ ∧
      readTable (separator md) t = (List.finRange 13).flatMap fun k : Fin 13 =>
        compareTable (print o.precision) md (useNames.getD k []) (ms.map (· k)) (hs.map (· k)) := by
  unfold printCompare
  generalize List.finRange 13 = ks
  induction ks generalizing o with
  | nil => exact ⟨[], by simp, rfl⟩
  | cons k ks ih =>
    obtain ⟨t, h1, h2⟩ := compareUse_eq print hp md ms hs hm hh o k
    obtain ⟨t', h3, h4⟩ := ih ⟨o.text ++ t ++ ['\n'], o.precision⟩
    refine ⟨t ++ '\n' :: t', ?_, ?_⟩
    · rw [List.foldlM_cons, h1]
      simp only [Option.bind_eq_bind, Option.bind_some]
      rw [h3]
      simp [List.append_assoc]
    · rw [table_append, h2, h4, List.flatMap_cons]

end ISO.Lemmas
