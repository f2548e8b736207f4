import Verif.Model.HourlyRun

/-! Helper lemmas: the vectors an `HourlyModel` object keeps between calls of `simulate`. -/

namespace ISO.Hourly
open ISO CNum
variable {α : Type} [CNum α]

theorem finRange9 : List.finRange 9 = [0, 1, 2, 3, 4, 5, 6, 7, 8] := by decide

/-- a first call fills the vectors from the structure -/
theorem pushAll_empty (s : Structure α) : (pushAll s Pushed.empty).ratios = freshRatios s := by
  unfold pushAll
  rw [finRange9]
  simp only [List.foldl_cons, List.foldl_nil, pushOne, Pushed.empty, Pushed.ratios, freshRatios,
    List.nil_append, List.cons_append]
  congr 1 <;> funext i <;> fin_cases i <;> rfl

/-- all six vectors have at least nine entries -/
structure Pushed.Full (p : Pushed α) : Prop where
  a : 9 ≤ p.nlaWMovableShading.length
  b : 9 ≤ p.naturalLightRatio.length
  c : 9 ≤ p.naturalLightShadeRatioReduction.length
  d : 9 ≤ p.saWMovableShading.length
  e : 9 ≤ p.solarRatio.length
  f : 9 ≤ p.solarShadeRatioReduction.length

omit [CNum α] in
theorem getD_append_left {l m : List α} (h : 9 ≤ l.length) (i : Fin 9) (z : α) : (l ++ m).getD i.1 z = l.getD i.1 z := by
  have : i.1 < l.length := by omega
  simp [List.getD_eq_getElem?_getD, List.getElem?_append_left this]

theorem pushOne_full (s : Structure α) {p : Pushed α} (h : p.Full) (i : Fin 9) :
    (pushOne s p i).Full ∧ (pushOne s p i).ratios = p.ratios := by
  obtain ⟨h1, h2, h3, h4, h5, h6⟩ := h
  constructor
  · constructor <;> simp only [pushOne, List.length_append] <;> omega
  · simp only [pushOne, Pushed.ratios, getD_append_left h1, getD_append_left h2, getD_append_left h3,
      getD_append_left h4, getD_append_left h5, getD_append_left h6]

/-- later calls do not change the entries that are read -/
theorem pushAll_full (s : Structure α) {p : Pushed α} (h : p.Full) :
    (pushAll s p).Full ∧ (pushAll s p).ratios = p.ratios := by
  unfold pushAll
  generalize List.finRange 9 = l
  induction l generalizing p with
  | nil => exact ⟨h, rfl⟩
  | cons i l ih =>
    obtain ⟨h1, h2⟩ := pushOne_full s h i
    obtain ⟨h3, h4⟩ := ih h1
    exact ⟨h3, by rw [List.foldl_cons, h4, h2]⟩

theorem pushAll_empty_full (s : Structure α) : (pushAll s (Pushed.empty : Pushed α)).Full := by
  unfold pushAll
  rw [finRange9]
  constructor <;> simp [pushOne, Pushed.empty]

/-- the vectors of an object after `simulate` calls with the structures `l` (first call first) -/
def pushedBy (l : List (Structure α)) : Pushed α := l.foldl (fun p s => pushAll s p) Pushed.empty

theorem pushedBy_ratios (s : Structure α) (l : List (Structure α)) :
    (pushedBy (s :: l)).Full ∧ (pushedBy (s :: l)).ratios = freshRatios s := by
  unfold pushedBy
  rw [List.foldl_cons]
  have h1 := pushAll_empty_full s
  have h2 := pushAll_empty s
  generalize pushAll s Pushed.empty = p at *
  induction l generalizing p with
  | nil => exact ⟨h1, h2⟩
  | cons t l ih =>
    rw [List.foldl_cons]
    exact ih _ (pushAll_full t h1).1 (by rw [(pushAll_full t h1).2, h2])

end ISO.Hourly
