import Verif.Lemmas.Printing
import Verif.Spec.Printing
import Verif.Props.Numerals
import Verif.Props.WeatherText
import Verif.Props.Program

/-!
# C60: printed numbers read back
-/

namespace ISO.Props
open ISO ISO.Numerals ISO.Properties ISO.Spec ISO.Spec.Text ISO.User ISO.CommandLine

theorem hasDigits_neg {P : ℕ} {y : ℝ} (h : HasDigits P y) : HasDigits P (-y) := by
  obtain ⟨k, j, hk, rfl⟩ := h
  exact ⟨-k, j, by rwa [abs_neg], by push_cast; ring⟩

/-- **C60.** A printed number is a number text as a whole, and the number is the nearest one with `P` digits. -/
theorem C60_number (P : ℕ) (hP : 1 ≤ P) (x : ℝ) :
    ∃ q : ℚ, strtod (print P (.fin x)) = some (.number q, []) ∧ Numeral (print P (.fin x)) (.number q) ∧ Rounded P (.fin x) (.fin q) := by
  by_cases hx : x = 0
  · subst hx
    have e : print P (.fin 0) = ['0'] := by unfold print; simp
    have hn : Numeral ['0'] (.number 0) := by
      have := Unsigned.decimal ['0'] [] 0 0 0 (.whole _ _ (by simp) ⟨[0], .cons ⟨by norm_num, rfl⟩ .nil, rfl⟩) .none
      simp only [List.append_nil] at this
      have h2 := Numeral.plain [] _ _ .none this
      simpa using h2
    rw [e]
    refine ⟨0, number_whole hn, hn, 0, by simp, ⟨0, 0, by simp, by simp⟩, fun z hz => by simp, by simp⟩
  · have hn := print_fin (P := P) hx
    rw [max_eq_left hP] at hn
    refine ⟨_, number_whole hn, hn, _, rfl, ?_⟩
    have hpos := abs_pos.2 hx
    obtain ⟨r1, r2⟩ := significant_range hP hpos
    have hbest := sigValue_best hP hpos
    have herr := sigValue_error hP hpos
    have hv : (((if x < 0 then -1 else 1) * (((significant P |x|).1 : ℚ) * (10 : ℚ) ^ ((significant P |x|).2 - P + 1)) : ℚ) : ℝ) =
        (if x < 0 then -1 else 1) * sigValue P (significant P |x|) := by
      unfold sigValue
      push_cast
      split_ifs <;> push_cast <;> rfl
    rw [hv]
    have hd : HasDigits P (sigValue P (significant P |x|)) := by
      refine ⟨(significant P |x|).1, (significant P |x|).2 - P + 1, ?_, by unfold sigValue; push_cast; rfl⟩
      rw [abs_of_nonneg (by positivity)]
      exact_mod_cast r2
    generalize sigValue P (significant P |x|) = s at *
    split_ifs with h
    · rw [abs_of_neg h] at hbest herr ⊢
      rw [neg_one_mul]
      refine ⟨hasDigits_neg hd, fun z hz => ?_, ?_⟩
      · obtain ⟨k, j, hk, hz⟩ := hasDigits_neg hz
        have := hbest k j hk
        rw [← hz] at this
        rw [show -s - x = -(s - -x) by ring, show z - x = -(-z - -x) by ring, abs_neg, abs_neg]
        exact this
      · rw [show -s - x = -(s - -x) by ring, abs_neg]; exact herr
    · rw [abs_of_nonneg (not_lt.1 h)] at hbest herr ⊢
      rw [one_mul]
      refine ⟨hd, fun z hz => ?_, herr⟩
      obtain ⟨k, j, hk, rfl⟩ := hz
      exact hbest k j hk

theorem moderate_lt : ∀ {q : ℚ} {x : ℝ}, |x| ≤ (10 : ℝ) ^ 300 → |(q : ℝ) - x| ≤ |x| → |q| < tooLarge := by
  intro q x h1 h2
  have h3 : |(q : ℝ)| ≤ 2 * (10 : ℝ) ^ 300 := by
    have := abs_sub_abs_le_abs_sub (q : ℝ) x
    linarith
  have h4 : |q| ≤ 2 * (10 : ℚ) ^ 300 := by
    have : ((|q| : ℚ) : ℝ) ≤ ((2 * (10 : ℚ) ^ 300 : ℚ) : ℝ) := by push_cast; exact h3
    exact_mod_cast this
  refine lt_of_le_of_lt h4 ?_
  unfold tooLarge
  have e1 : (10 : ℚ) ^ 300 ≤ 2 ^ 1000 := by
    rw [show (10 : ℚ) ^ 300 = (10 ^ 3) ^ 100 from (pow_mul 10 3 100), show (2 : ℚ) ^ 1000 = (2 ^ 10) ^ 100 from (pow_mul 2 10 100)]
    exact pow_le_pow_left₀ (by norm_num) (by norm_num) 100
  have e2 : (2 : ℚ) ^ 970 ≤ 2 ^ 1000 := pow_le_pow_right₀ (by norm_num) (by norm_num)
  have e3 : (2 : ℚ) ^ 1002 < 2 ^ 1024 := pow_lt_pow_right₀ (by norm_num) (by norm_num)
  have e4 : (2 : ℚ) ^ 1002 = 4 * 2 ^ 1000 := by rw [show (1002 : ℕ) = 2 + 1000 from rfl, pow_add]; norm_num only
  have e5 : (0 : ℚ) < 2 ^ 1000 := pow_pos (by norm_num) _
  rw [e4] at e3
  clear h1 h2 h3 h4 e4
  generalize (2 : ℚ) ^ 1000 = A at *
  generalize (2 : ℚ) ^ 1024 = B at *
  generalize (2 : ℚ) ^ 970 = C at *
  generalize (10 : ℚ) ^ 300 = D at *
  linarith

/-- **C60.** What is printed with `P` digits and read with `atof` is the number to `P` digits. -/
theorem C60_read (P : ℕ) (hP : 1 ≤ P) (a : Dbl) (ha : Moderate a) : Rounded P a (atof (print P a)) := by
  cases a with
  | fin x =>
    obtain ⟨q, h1, h2, h3⟩ := C60_number P hP x
    have hq : |q| < tooLarge := by
      obtain ⟨y, hy, -, -, he⟩ := h3
      have hy' : (q : ℝ) = y := by injection hy
      rw [← hy'] at he
      refine moderate_lt ha (he.trans ?_)
      have : (10 : ℝ) ^ (1 - (P : ℤ)) ≤ 1 := zpow_le_one_of_nonpos₀ (by norm_num) (by omega)
      have := mul_le_mul_of_nonneg_left this (abs_nonneg x)
      have := abs_nonneg x
      linarith
    have : atof (print P (.fin x)) = .fin q := by
      unfold atof
      simp only [h1]
      exact if_neg (by unfold overflows; rw [decide_eq_true_eq]; exact not_le.2 hq)
    rw [this]
    exact h3
  | pinf => unfold Rounded; unfold atof; rw [show strtod (print P .pinf) = some (.infinite false, []) by change strtod "inf".toList = _; decide +kernel]
  | ninf => unfold Rounded; unfold atof; rw [show strtod (print P .ninf) = some (.infinite true, []) by change strtod "-inf".toList = _; decide +kernel]
  | nan => unfold Rounded; unfold atof; rw [show strtod (print P .nan) = some (.nan, []) by change strtod "nan".toList = _; decide +kernel]

/-- **C60.** A number with at most `P` digits is printed and read without loss. -/
theorem C60_exact (P : ℕ) (hP : 1 ≤ P) (x : ℝ) (h : HasDigits P x) (hm : |x| ≤ (10 : ℝ) ^ 300) : atof (print P (.fin x)) = .fin x := by
  obtain ⟨y, hy, -, hb, -⟩ := C60_read P hP (.fin x) hm
  have := hb x h
  rw [sub_self, abs_zero] at this
  have : y - x = 0 := abs_nonpos_iff.1 this
  rw [hy, sub_eq_zero.1 this]

theorem printed_plain {c : Char} (h : Printed c) : c ≠ '\n' ∧ c ≠ ',' ∧ c ≠ '|' ∧ c ≠ ' ' := by
  refine ⟨?_, ?_, ?_, ?_⟩ <;> rintro rfl <;> revert h <;> unfold Printed <;> decide

/-- **C60.** The library prints numbers as the other theorems need it: no separators. -/
theorem C60_library : Prints standard ∧ Plain Numerals.print := by
  constructor
  · intro x
    obtain ⟨h1, h2⟩ := printed_print 6 x
    exact ⟨h1, fun h => (printed_plain (h2 _ h)).2.1 rfl, fun h => (printed_plain (h2 _ h)).1 rfl⟩
  · intro p v c hc
    exact printed_plain ((printed_print p v).2 c hc)

/-- **C60.** The averages that the monthly model gets are the averages of the weather file to six digits. -/
theorem C60_weather (w : Epw.Weather Dbl) (m : Fin 12) :
    ToDigits 6 (monthMean (w.data Epw.DBT) (m.1 + 1)) ((siteAverages standard w).mdbt m) ∧
    ToDigits 6 (monthMean (w.data Epw.WSPD) (m.1 + 1)) ((siteAverages standard w).mwind m) ∧
    ToDigits 6 (monthMean (w.data Epw.EGH) (m.1 + 1)) ((siteAverages standard w).mEgh m) ∧
    (∀ h, ToDigits 6 (hourMean (w.data Epw.DBT) (m.1 + 1) h.1) ((siteAverages standard w).mhdbt m h) ∧
      ToDigits 6 (hourMean (w.data Epw.EGH) (m.1 + 1) h.1) ((siteAverages standard w).mhEgh m h)) ∧
    ∀ s, ToDigits 6 (monthMean (fun i => Solar.eglobe w i s) (m.1 + 1)) ((siteAverages standard w).msolar m s) := by
  have key : ∀ a, ToDigits 6 a (standard.atof (standard.fmt a)) := fun a ha => C60_read 6 (by norm_num) a ha
  exact ⟨key _, key _, key _, fun h => ⟨key _, key _⟩, fun s => key _⟩

/-- **C60.** From the files to the printed numbers, with the library as it is: the program, run without options on an acceptable file with
a year of weather, prints a table, and the cell of month `i` and end use `k` reads as the result of the monthly simulation to ten digits. -/
theorem C60_table (fs : FileSystem) (junk : Params Dbl) (o : Options) (ho : Nothing o) (hb : fs.exists_ o.ism = true)
    (hd : ∀ d, o.defaults = some d → fs.exists_ d = true) (file : Properties.Store) (hfile : parsed fs o = .ok file)
    (ha : ∀ r ∈ Param.table, Param.judge Numerals.stod file r = .accepted) (path weather : Str)
    (hp : Param.given file "weatherfilepath" = some path)
    (hW : if fs.exists_ path then weather = path else weather = resolveFilename o.ism path ∧ fs.exists_ weather = true)
    (w : Epw.Weather Dbl) (hw : Epw.toWeather (Epw.loadFile Numerals.atof (fs.read weather) Epw.construct) = some w)
    (rs : List (Fin 13 → Dbl))
    (hrs : Monthly.simulate (simOf (Param.stored Numerals.stod file (newObject junk)) (siteAverages standard w)) = some rs) :
    ∃ text, main standard Numerals.print fs junk o = .returns [.runMonthly] text ∧
      ∀ (i : ℕ) (hi : i < rs.length) (k : Fin 13), ∃ row cell, (readTable ',' text)[i + 2]? = some row ∧ row[k.1 + 1]? = some cell ∧
        ToDigits 10 (rs[i] k) (atof cell) := by
  obtain ⟨text, h1, h2⟩ := C52_default standard C60_library.1 Numerals.print C60_library.2 fs junk o ho hb hd file hfile ha path weather hp hW
    w hw rs hrs
  refine ⟨text, h1, fun i hi k => ?_⟩
  rw [h2]
  refine ⟨(Nat.repr (i + 1)).toList :: List.ofFn fun k => Numerals.print 10 (rs[i] k), Numerals.print 10 (rs[i] k), ?_, ?_, ?_⟩
  · unfold resultTable
    simp [hi]
  · rw [List.getElem?_cons_succ, List.getElem?_ofFn, dif_pos k.2]
  · exact fun hm => C60_read 10 (by norm_num) _ hm

theorem small_moderate {x : ℝ} (h : |x| ≤ 1) : |x| ≤ (10 : ℝ) ^ 300 := h.trans (one_le_pow₀ (by norm_num))

/-- with numbers: six digits are enough for 0.015625; of a third they leave something within a two millionth -/
example : atof (Numerals.print 6 (.fin 0.015625)) = .fin 0.015625 ∧
    ∃ y : ℝ, atof (Numerals.print 6 (.fin (1 / 3))) = .fin y ∧ |y - 1 / 3| ≤ |(0.333333 : ℝ) - 1 / 3| := by
  refine ⟨C60_exact 6 (by norm_num) _ ⟨15625, -6, by norm_num, by norm_num⟩ (small_moderate (by rw [abs_of_pos] <;> norm_num)), ?_⟩
  obtain ⟨y, h1, -, h2, -⟩ := C60_read 6 (by norm_num) (.fin (1 / 3)) (small_moderate (by rw [abs_of_pos] <;> norm_num))
  exact ⟨y, h1, h2 _ ⟨333333, -6, by norm_num, by norm_num⟩⟩

end ISO.Props
