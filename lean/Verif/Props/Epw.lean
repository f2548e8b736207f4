import Verif.Lemmas.Epw
import Verif.Spec.Epw
import Verif.Num.Lemmas

/-!
# C14, C15, C16: loading weather data
-/

namespace ISO.Props
open ISO ISO.Epw
variable {α : Type} [CNum α]

/-! ## C14, C16: files -/

/-- every text is a file of lines, and every line is a list of fields: the theorems below cover all files -/
theorem C16_every_text (t : Str) : ∃ ls : List Str, ls ≠ [] ∧ (∀ l ∈ ls, '\n' ∉ l) ∧ t = Spec.Epw.file ls :=
  exists_pieces '\n' t

theorem C14_every_line (t : Str) : ∃ fs : List Str, fs ≠ [] ∧ (∀ f ∈ fs, ',' ∉ f) ∧ t = Spec.Epw.line fs :=
  exists_pieces ',' t

theorem field_eq (fs : List Str) (h : fs ≠ []) (hc : ∀ f ∈ fs, ',' ∉ f) (n k : Nat) (h1 : 1 ≤ k) (hn : k ≤ n) :
    (fields n (Spec.Epw.line fs)).getD (k - 1) [] = Spec.Epw.field fs k := fields_join fs h hc n (k - 1) (by omega)

/-- C14, header: whatever was loaded before, the second, sixth, seventh, eighth and ninth field of the first line become
location, station, latitude, longitude and (truncated) time zone. -/
theorem C14_header (atof : Str → α) (fs : List Str) (h : fs ≠ []) (hc : ∀ f ∈ fs, ',' ∉ f) (ls : List Str)
    (hn : ∀ l ∈ Spec.Epw.line fs :: ls, '\n' ∉ l) (e : EpwData α) :
    (loadFile atof (some (Spec.Epw.file (Spec.Epw.line fs :: ls))) e).location = Spec.Epw.field fs 2 ∧
    (loadFile atof (some (Spec.Epw.file (Spec.Epw.line fs :: ls))) e).stationid = Spec.Epw.field fs 6 ∧
    (loadFile atof (some (Spec.Epw.file (Spec.Epw.line fs :: ls))) e).latitude = some (atof (Spec.Epw.field fs 7)) ∧
    (loadFile atof (some (Spec.Epw.file (Spec.Epw.line fs :: ls))) e).longitude = some (atof (Spec.Epw.field fs 8)) ∧
    (loadFile atof (some (Spec.Epw.file (Spec.Epw.line fs :: ls))) e).timezone =
      CNum.cint (atof (Spec.Epw.field fs 9)) := by
  unfold Spec.Epw.file
  rw [loadFile_lines atof _ ls hn e]
  simp only [writeRows, parseHeader]
  have := field_eq fs h hc 10
  exact ⟨this 2 (by omega) (by omega), this 6 (by omega) (by omega), by rw [← this 7 (by omega) (by omega)],
    by rw [← this 8 (by omega) (by omega)], by rw [← this 9 (by omega) (by omega)]⟩

/-- C14, C16, rows: line `9 + r` becomes row `r`; column `c` of the row is the field the EPW format assigns to it.  (A
row with too few fields repeats its last field, see `Spec.Epw.field`.) -/
theorem C14_row (atof : Str → α) (header : Str) (ls : List Str) (hn : ∀ l ∈ header :: ls, '\n' ∉ l) (e : EpwData α)
    (r : Nat) (hr : r < 8760) (fs : List Str) (h : fs ≠ []) (hc : ∀ f ∈ fs, ',' ∉ f)
    (hl : (header :: ls)[8 + r]? = some (Spec.Epw.line fs)) (c : Fin 7) :
    ((loadFile atof (some (Spec.Epw.file (header :: ls))) e).data c)[r]? = some (atof (Spec.Epw.field fs (Spec.Epw.column c))) := by
  unfold Spec.Epw.file
  rw [loadFile_lines atof _ ls hn e]
  have hN : r < TIMESLICES := hr
  generalize TIMESLICES = N at hN ⊢
  simp only [writeRows, List.take_zero, List.nil_append]
  have e1 : ((ls.drop 7).take N)[r]? = some (Spec.Epw.line fs) := by
    rw [List.getElem?_take_of_lt hN, List.getElem?_drop, ← hl]
    have : 8 + r = (7 + r) + 1 := by omega
    rw [this, List.getElem?_cons_succ]
  have e2 : r < ((ls.drop 7).take N).length := by
    rw [List.getElem?_eq_some_iff] at e1; exact e1.1
  rw [List.getElem?_append_left (by rw [List.length_map]; exact e2), List.getElem?_map, e1]
  simp only [Option.map_some]
  have := field_eq fs h hc 22 (Spec.Epw.column c) (by fin_cases c <;> decide) (by fin_cases c <;> decide)
  rw [← this]
  congr 3
  fin_cases c <;> rfl

/-- C16: what follows the rows that were read is left from the earlier load (0 for a new object), and every column has
8760 entries. -/
theorem C16_rest (atof : Str → α) (header : Str) (ls : List Str) (hn : ∀ l ∈ header :: ls, '\n' ∉ l) (e : EpwData α)
    (r : Nat) (h1 : (header :: ls).length ≤ 8 + r) (h2 : r < 8760) (c : Fin 7) :
    ((loadFile atof (some (Spec.Epw.file (header :: ls))) e).data c)[r]? = (resize (e.data c))[r]? := by
  unfold Spec.Epw.file
  rw [loadFile_lines atof _ ls hn e]
  have hN : r < TIMESLICES := h2
  generalize TIMESLICES = N at hN ⊢
  simp only [writeRows, List.take_zero, List.nil_append, parseHeader, Nat.zero_add]
  have e2 : ((ls.drop 7).take N).length ≤ r := by
    simp only [List.length_take, List.length_drop, List.length_cons] at h1 ⊢; omega
  generalize (ls.drop 7).take N = rows at *
  rw [List.getElem?_append_right (by rw [List.length_map]; exact e2), List.length_map, List.getElem?_drop]
  congr 1; omega

theorem C16_length (atof : Str → α) (f : Option Str) (e : EpwData α) (c : Fin 7) :
    ((loadFile atof f e).data c).length = 8760 := by
  have hN : TIMESLICES = 8760 := rfl
  rw [← hN]
  cases f with
  | none => exact resize_length _
  | some t =>
    obtain ⟨ls, h1, h2, h3⟩ := exists_pieces '\n' t
    cases ls with
    | nil => exact absurd rfl h1
    | cons l ls =>
      rw [h3, loadFile_lines atof l ls h2 e]
      have hr : ((parseHeader atof l { e with data := fun c => resize (e.data c) }).data c).length = TIMESLICES := resize_length _
      generalize parseHeader atof l { e with data := fun c => resize (e.data c) } = e' at hr
      generalize TIMESLICES = N at *
      have e2 : ((ls.drop 7).take N).length ≤ N := by simp only [List.length_take]; omega
      generalize (ls.drop 7).take N = rows at *
      simp only [writeRows, List.take_zero, List.nil_append, List.length_append, List.length_map, List.length_drop, hr]
      omega

/-- C16: a file with at least 8768 lines determines everything, independently of what was loaded before. -/
theorem C16_full (atof : Str → α) (ls : List Str) (hn : ∀ l ∈ ls, '\n' ∉ l) (hl : 8768 ≤ ls.length) (e e' : EpwData α) :
    loadFile atof (some (Spec.Epw.file ls)) e = loadFile atof (some (Spec.Epw.file ls)) e' := by
  cases ls with
  | nil => simp at hl
  | cons l ls =>
    unfold Spec.Epw.file
    rw [loadFile_lines atof l ls hn e, loadFile_lines atof l ls hn e']
    simp only [writeRows, parseHeader, List.take_zero, List.nil_append, Nat.zero_add]
    have hN : TIMESLICES = 8760 := rfl
    congr 1
    funext c
    congr 1
    have k : ∀ x : EpwData α, (resize (x.data c)).drop ((ls.drop 7).take TIMESLICES).length = [] := by
      intro x
      apply List.drop_eq_nil_of_le
      rw [resize_length, List.length_take, List.length_drop]
      simp only [List.length_cons] at hl
      generalize TIMESLICES = N at *
      omega
    rw [k, k]

/-- C16: a missing file changes nothing (in a new object it creates columns of zeros). -/
theorem C16_missing (atof : Str → α) (e : EpwData α) :
    (∀ c, (loadFile atof none e).data c = resize (e.data c)) ∧
    ((∀ c, (e.data c).length = 8760) → loadFile atof none e = e) := by
  refine ⟨fun c => rfl, fun h => ?_⟩
  have hN : TIMESLICES = 8760 := rfl
  show { e with data := fun c => resize (e.data c) } = e
  have : (fun c => resize (e.data c)) = e.data := by
    funext c
    have hc : (e.data c).length = TIMESLICES := h c
    unfold resize
    rw [hc, Nat.sub_self, ← hc, List.take_length]
    exact List.append_nil _
  rw [this]

/-! ## C15: blocks -/

/-- C15: a block with columns of `n ≤ 8760` values. -/
theorem C15_block (lat lon tz : α) (n : ℕ) (hn : n ≤ 8760) (cols : Fin 7 → List α) (hc : ∀ c, (cols c).length = n) (rest : List α)
    (e : EpwData α) :
    ∃ e', loadBlock n ([lat, lon, tz] ++ (List.ofFn cols).flatten ++ rest) e = some e' ∧
      e'.latitude = some lat ∧ e'.longitude = some lon ∧ e'.timezone = CNum.cint tz ∧
      e'.location = e.location ∧ e'.stationid = e.stationid ∧
      ∀ c, (e'.data c).length = 8760 ∧ (e'.data c).take n = cols c ∧
        ∀ r, n ≤ r → r < 8760 → (e'.data c)[r]? = (resize (e.data c))[r]? := by
  have hN : TIMESLICES = 8760 := rfl
  rw [← hN] at hn ⊢
  have hmem : ∀ l ∈ List.ofFn cols, l.length = n := by
    intro l hl
    rw [List.mem_ofFn] at hl
    obtain ⟨c, hc'⟩ := hl
    rw [← hc', hc]
  have hflat := flatten_length (List.ofFn cols) n hmem
  have hcol : ∀ c : Fin 7, (((List.ofFn cols).flatten ++ rest).drop (c.1 * n)).take n = cols c := by
    intro c
    rw [flatten_column (List.ofFn cols) n hmem rest c.1 (by rw [List.length_ofFn]; exact c.2), List.getElem_ofFn]
  rw [List.length_ofFn] at hflat
  have hres : ∀ c, (resize (e.data c)).length = TIMESLICES := fun c => resize_length _
  unfold loadBlock
  generalize TIMESLICES = N at *
  simp only [Int.toNat_natCast]
  rw [if_neg]
  · refine ⟨_, rfl, rfl, rfl, rfl, rfl, rfl, fun c => ?_⟩
    simp only [List.append_eq, List.nil_append]
    rw [hcol c]
    have hcl := hc c
    have hr := hres c
    generalize resize (e.data c) = old at *
    refine ⟨?_, ?_, ?_⟩
    · rw [List.length_append, List.length_drop, hcl, hr]; omega
    · rw [← hcl, List.take_left]
    · intro r h1 h2
      rw [List.getElem?_append_right (by omega), List.getElem?_drop]
      congr 1; omega
  · simp only [List.length_append, List.length_cons, List.length_nil, hflat]
    omega

/-- C15: a full block determines the site and all columns, whatever was loaded before; location and station name of
an earlier file stay. -/
theorem C15_full (lat lon tz : α) (cols : Fin 7 → List α) (hc : ∀ c, (cols c).length = 8760) (rest : List α) (e : EpwData α) :
    loadBlock 8760 ([lat, lon, tz] ++ (List.ofFn cols).flatten ++ rest) e =
      some { location := e.location, stationid := e.stationid, timezone := CNum.cint tz, latitude := some lat,
             longitude := some lon, data := cols } := by
  obtain ⟨e', h, h1, h2, h3, h4, h5, h6⟩ := C15_block lat lon tz 8760 (le_refl _) cols hc rest e
  have h' : loadBlock 8760 ([lat, lon, tz] ++ (List.ofFn cols).flatten ++ rest) e = some e' := h
  rw [h']
  obtain ⟨a, b, c, d, f, g⟩ := e'
  simp only at h1 h2 h3 h4 h5 h6
  subst h1 h2 h3 h4 h5
  congr 2
  funext c
  have := (h6 c).2.1
  rwa [List.take_of_length_le (le_of_eq (h6 c).1)] at this

/-- C15: a block with columns of more than 8760 values is written out of bounds. -/
theorem C15_too_long (n : ℤ) (hn : 8760 < n) (data : List α) (e : EpwData α) : loadBlock n data e = none := by
  have hN : TIMESLICES = 8760 := rfl
  unfold loadBlock
  simp only
  rw [if_pos]
  right
  rw [hN]
  omega

/-! ## concrete cases -/

/-- a header and a row of an EPW file, in a file of 9 lines -/
example : ∃ (fs row : List Str) (ls : List Str), fs ≠ [] ∧ row ≠ [] ∧ (∀ f ∈ fs, ',' ∉ f) ∧ (∀ f ∈ row, ',' ∉ f) ∧
    (∀ l ∈ Spec.Epw.line fs :: ls, '\n' ∉ l) ∧ (Spec.Epw.line fs :: ls)[8 + 0]? = some (Spec.Epw.line row) ∧
    Spec.Epw.field fs 2 = "Chicago Ohare".toList ∧ Spec.Epw.field row 7 = "-6.1".toList ∧ row.length = 9 ∧
    Spec.Epw.field row 22 = "70".toList :=
  ⟨["LOCATION", "Chicago Ohare", "IL", "USA", "TMY3", "725300", "41.98", "-87.92", "-6.0", "201.0"].map (·.toList),
    ["1986", "1", "1", "1", "0", "C9", "-6.1", "-11.7", "70"].map (·.toList),
    [[], [], [], [], [], [], [], Spec.Epw.line (["1986", "1", "1", "1", "0", "C9", "-6.1", "-11.7", "70"].map (·.toList))],
    by decide, by decide, by decide, by decide, by decide, by decide, by decide, by decide, by decide, by decide⟩

/-- a block whose columns hold 8760 times the column number -/
example : ∃ cols : Fin 7 → List Dbl, (∀ c, (cols c).length = 8760) ∧ cols 0 ≠ cols 1 :=
  ⟨fun c => List.replicate 8760 (Dbl.fin c.1), fun _ => List.length_replicate, by
    intro h
    have := congrArg List.head? h
    rw [List.head?_replicate, List.head?_replicate, if_neg (by decide), if_neg (by decide)] at this
    have := Dbl.fin.inj (Option.some.inj this)
    norm_num at this⟩

/-- a shorter block leaves stale values: load a full block of ones, then a block of one row of twos -/
example : ∃ e e' : EpwData Dbl,
    loadBlock 8760 ([.fin 0, .fin 0, .fin 0] ++ (List.ofFn fun _ : Fin 7 => List.replicate 8760 (Dbl.fin 1)).flatten ++ []) construct
      = some e ∧
    loadBlock 1 ([.fin 0, .fin 0, .fin 0] ++ (List.ofFn fun _ : Fin 7 => [Dbl.fin 2]).flatten ++ []) e = some e' ∧
    (e'.data 0).take 1 = [Dbl.fin 2] ∧ (e'.data 0)[1]? = some (Dbl.fin 1) := by
  have key : ∀ x : Option (EpwData Dbl), (∃ e0, x = some e0 ∧ e0.data 0 = List.replicate 8760 (Dbl.fin 1)) →
      ∃ e, x = some e ∧ e.data 0 = List.replicate 8760 (Dbl.fin 1) := fun _ h => h
  obtain ⟨e, h, hd⟩ := key _ ⟨_, C15_full (Dbl.fin 0) (Dbl.fin 0) (Dbl.fin 0) (fun _ => List.replicate 8760 (Dbl.fin 1))
    (fun _ => List.length_replicate) [] construct, rfl⟩
  obtain ⟨e', h1, -, -, -, -, -, h2⟩ := C15_block (Dbl.fin 0) (Dbl.fin 0) (Dbl.fin 0) 1 (by norm_num) (fun _ => [Dbl.fin 2]) (fun _ => rfl) [] e
  refine ⟨e, e', h, h1, (h2 0).2.1, ?_⟩
  rw [(h2 0).2.2 1 (by omega) (by norm_num), hd]
  have hN : TIMESLICES = 8760 := rfl
  unfold resize
  rw [List.length_replicate, hN, Nat.sub_self, List.replicate_zero, List.append_nil, List.getElem?_take_of_lt (by norm_num),
    List.getElem?_replicate, if_pos (by norm_num)]

end ISO.Props
