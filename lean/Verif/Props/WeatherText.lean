import Verif.Lemmas.WeatherText
import Verif.Props.Averages
import Verif.Spec.Epw

/-!
# C18: the weather averages handed over as text; C44: splitting text at a delimiter
-/

namespace ISO.Props
open ISO ISO.Spec ISO.Solar ISO.Epw ISO.WeatherText CNum Dbl

/-- C18: for every weather, the text made from it, read back, sets every entry of the weather data, each to the number
read from the printed mean of its own month, hour and surface.  `fmt` prints a number, without comma or newline, as at
least one character; `atof` reads a number. -/
theorem C18_entries (w : Weather Dbl) (fmt : Dbl → Str) (hf : ∀ x, fmt x ≠ [] ∧ ',' ∉ fmt x ∧ '\n' ∉ fmt x) (atof : Str → Dbl) :
    ∃ text, toISOData fmt w = some text ∧ ∀ m : Fin 12,
      (initializeSolar atof text).mdbt m = some (atof (fmt (monthMean (w.data DBT) (m.1 + 1)))) ∧
      (initializeSolar atof text).mwind m = some (atof (fmt (monthMean (w.data WSPD) (m.1 + 1)))) ∧
      (initializeSolar atof text).mEgh m = some (atof (fmt (monthMean (w.data EGH) (m.1 + 1)))) ∧
      (∀ h : Fin 24, (initializeSolar atof text).mhdbt m h = some (atof (fmt (hourMean (w.data DBT) (m.1 + 1) h.1))) ∧
        (initializeSolar atof text).mhEgh m h = some (atof (fmt (hourMean (w.data EGH) (m.1 + 1) h.1)))) ∧
      ∀ s : Fin 8, (initializeSolar atof text).msolar m s = some (atof (fmt (monthMean (fun i => eglobe w i s) (m.1 + 1)))) := by
  obtain ⟨bins, hc, hl, hb⟩ := C17_means w newBins (by rw [newBins, List.length_replicate])
  have h12 : 12 ≤ bins.length := hl.ge
  refine ⟨((isoLines fmt fun i => bins[i.1]'(by have := i.2; omega)).map (· ++ ['\n'])).flatten, ?_, fun m => ?_⟩
  · rw [toISOData, hc]
    exact dif_pos h12
  · rw [initializeSolar_iso fmt hf]
    obtain ⟨h1, -, -, h2, h3, h4, h5⟩ := hb m.1 (by have := m.2; omega)
    refine ⟨?_, ?_, ?_, fun h => ⟨?_, ?_⟩, fun s => ?_⟩
    · simp only [h1]
    · simp only [h2]
    · simp only [h3]
    · simp only [(h5 h).1]
    · simp only [(h5 h).2.2]
    · simp only [h4 s]

/-- C44: splitting the joined fields gives them back, except an empty last one. -/
theorem C44_keep (d : Char) (fs : List Str) (last : Str) (h : ∀ f ∈ fs ++ [last], d ∉ f) :
    stringSplit (List.intercalate [d] (fs ++ [last])) d true = if last = [] then fs else fs ++ [last] := by
  rw [stringSplit, split_keep _ (by simp) h]
  simp

/-- C44: without `keepEmpty`, exactly the non-empty fields remain, in order. -/
theorem C44_drop (d : Char) (fs : List Str) (hne : fs ≠ []) (h : ∀ f ∈ fs, d ∉ f) :
    stringSplit (List.intercalate [d] fs) d false = fs.filter (· ≠ []) := by
  rw [stringSplit, split_drop _ hne h]
  congr 1
  funext f
  cases f <;> simp

/-- C44: every text is the join of some fields, so the two theorems cover all sources. -/
theorem C44_every_text (d : Char) (text : Str) :
    ∃ fs last, (∀ f ∈ fs ++ [last], d ∉ f) ∧ text = List.intercalate [d] (fs ++ [last]) ∧
      stringSplit text d true = (if last = [] then fs else fs ++ [last]) ∧
      stringSplit text d false = (fs ++ [last]).filter (· ≠ []) := by
  obtain ⟨ls, hne, h, e⟩ := exists_pieces d text
  have hl : ls.dropLast ++ [ls.getLast hne] = ls := List.dropLast_append_getLast hne
  have h' : ∀ f ∈ ls.dropLast ++ [ls.getLast hne], d ∉ f := by rw [hl]; exact h
  refine ⟨ls.dropLast, ls.getLast hne, h', by rw [hl]; exact e, ?_, ?_⟩
  · rw [← C44_keep d _ _ h', hl, ← e]
  · rw [← C44_drop d _ (by simp) h', hl, ← e]

/-- hypotheses met: a printer of `Dbl` values; fields with an empty one inside -/
noncomputable def signText : Dbl → Str
  | .fin x => if x < 0 then "-1.5".toList else "2e+06".toList
  | .pinf => "inf".toList
  | .ninf => "-inf".toList
  | .nan => "nan".toList

example : ∀ x, signText x ≠ [] ∧ ',' ∉ signText x ∧ '\n' ∉ signText x := by
  intro x
  cases x with
  | fin x => unfold signText; simp only; split_ifs <;> decide
  | _ => decide

example : stringSplit "a,,bc,".toList ',' true = ["a".toList, [], "bc".toList] ∧
    stringSplit "a,,bc,".toList ',' false = ["a".toList, "bc".toList] := by decide

end ISO.Props
