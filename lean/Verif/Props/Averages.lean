import Verif.Lemmas.Averages
import Verif.Spec.Average

/-!
# C17: monthly and hour-of-day averages
-/

namespace ISO.Props
open ISO ISO.Spec ISO.Solar ISO.Epw CNum Dbl

theorem daysIn_eq : ∀ k : Fin 12, daysBefore (k.1 + 2) - daysBefore (k.1 + 1) = daysIn (k.1 + 1) ∧ 0 < daysIn (k.1 + 1) := by decide

theorem hours_getD (w : Weather Dbl) (g : Slice × HourData Dbl → Dbl) (f : Fin 8760 → Dbl) (h : ∀ i, g (hourData w i) = f i) (i : ℕ) :
    ((List.ofFn (hourData w)).map g).getD i 0 = atHour f i := by
  have e : (List.ofFn (hourData w)).map g = List.ofFn f := by
    rw [List.map_ofFn]; congr 1; funext i; exact h i
  rw [e]
  unfold atHour
  by_cases hi : i < 8760
  · rw [dif_pos hi, List.getD_eq_getElem?_getD, List.getElem?_ofFn, dif_pos hi]; rfl
  · rw [dif_neg hi, List.getD_eq_getElem?_getD, List.getElem?_ofFn, dif_neg hi]; rfl

theorem final_month (w : Weather Dbl) {k : ℕ} (hk : k < 12) (p : MonthBins Dbl → Dbl) (g : HourData Dbl → Dbl) (f : Fin 8760 → Dbl)
    (hg : ∀ i, g (hourData w i).2 = f i) (h0 : p MonthBins.zero = 0) (h1 : ∀ hr d b, p (b.accumulate hr d) = p b + g d)
    (h2 : ∀ (c d : ℕ) b, p (b.average c d) = p b / OfInt.ofInt c) :
    p (monthFinal (List.ofFn (hourData w)) k) = monthMean f (k + 1) := by
  have hd := daysIn_eq ⟨k, hk⟩
  simp only at hd
  rw [monthFinal, h2, monthSum, fold_field _ p g h1, h0, zero_add, block_sum (hourData_follows w) hk (fun x => g x.2), hd.1, monthMean]
  have e : (OfInt.ofInt ((24 * daysIn (k + 1) : ℕ) : ℤ) : Dbl) = fin (24 * daysIn (k + 1)) := by
    show fin _ = fin _
    push_cast; rfl
  rw [e]
  simp only [hours_getD w (fun x => g x.2) f hg]

theorem final_hour (w : Weather Dbl) {k : ℕ} (hk : k < 12) (h : Fin 24) (p : MonthBins Dbl → Dbl) (g : HourData Dbl → Dbl) (f : Fin 8760 → Dbl)
    (hg : ∀ i, g (hourData w i).2 = f i) (h0 : p MonthBins.zero = 0)
    (h1 : ∀ hr d b, p (b.accumulate hr d) = if h.1 = hr then p b + g d else p b)
    (h2 : ∀ (c d : ℕ) b, p (b.average c d) = p b / OfInt.ofInt d) :
    p (monthFinal (List.ofFn (hourData w)) k) = hourMean f (k + 1) h.1 := by
  have hd := daysIn_eq ⟨k, hk⟩
  simp only at hd
  rw [monthFinal, h2, monthSum, fold_hour _ h.1 p g h1, h0, zero_add,
    block_sum (hourData_follows w) hk (fun x => if h.1 = x.1.hour then g x.2 else 0), hd.1, hourMean, ← hd.1, ← sum_hour_of_day hk h.2]
  have hi : ∀ i, (fun x : Slice × HourData Dbl => if h.1 = x.1.hour then g x.2 else 0) (hourData w i) =
      (fun i : Fin 8760 => if h.1 = i.1 % 24 then f i else 0) i := by
    intro i
    simp only
    rw [hg]
    have : (hourData w i).1.hour = i.1 % 24 := by
      have := (sliceAt_eq i).2
      exact_mod_cast this
    rw [this]
  have hj : ∀ i, atHour (fun i : Fin 8760 => if h.1 = i.1 % 24 then f i else 0) i = if h.1 = i % 24 then atHour f i else 0 := by
    intro i
    unfold atHour
    by_cases hi : i < 8760
    · rw [dif_pos hi, dif_pos hi]
    · rw [dif_neg hi, dif_neg hi, ite_self]
  simp only [hours_getD w (fun x => if h.1 = x.1.hour then g x.2 else 0) (fun i => if h.1 = i.1 % 24 then f i else 0) hi, hj]
  rfl

/-- C17: whatever the bins held before, after `Calculate` entry `k` of each monthly vector is the mean over the hours of
month `k + 1`, and entry `[k][h]` of each hour-of-day matrix the mean over its days.  Holds for every weather, NaN and
infinities included. -/
theorem C17_means (w : Weather Dbl) (before : List (MonthBins Dbl)) (hb : before.length = 12) :
    ∃ bins, calculate w before = some bins ∧ bins.length = 12 ∧ ∀ k (hk : k < bins.length),
      bins[k].dryBulb = monthMean (w.data DBT) (k + 1) ∧
      bins[k].dewPoint = monthMean (w.data DPT) (k + 1) ∧
      bins[k].relativeHumidity = monthMean (w.data RH) (k + 1) ∧
      bins[k].windspeed = monthMean (w.data WSPD) (k + 1) ∧
      bins[k].globalHorizontal = monthMean (w.data EGH) (k + 1) ∧
      (∀ s, bins[k].solar s = monthMean (fun i => eglobe w i s) (k + 1)) ∧
      (∀ h : Fin 24, bins[k].hourlyDryBulb h = hourMean (w.data DBT) (k + 1) h.1 ∧
        bins[k].hourlyDewPoint h = hourMean (w.data DPT) (k + 1) h.1 ∧
        bins[k].hourlyGlobalHorizontal h = hourMean (w.data EGH) (k + 1) h.1) := by
  have e := calculate_eq w before hb
  have hlen : ((List.range 12).map (monthFinal (List.ofFn (hourData w)))).length = 12 := by
    rw [List.length_map, List.length_range]
  have hget : ∀ k (hk : k < ((List.range 12).map (monthFinal (List.ofFn (hourData w)))).length),
      ((List.range 12).map (monthFinal (List.ofFn (hourData w))))[k] = monthFinal (List.ofFn (hourData w)) k := by
    intro k hk
    rw [List.getElem_map, List.getElem_range]
  refine ⟨_, e, hlen, fun k hk => ?_⟩
  rw [hget k hk]
  rw [hlen] at hk
  clear e hget hlen
  have z := zero_lit_dbl
  refine ⟨?_, ?_, ?_, ?_, ?_, fun s => ?_, fun h => ⟨?_, ?_, ?_⟩⟩
  · exact final_month w hk (·.dryBulb) (·.dbt) _ (fun _ => rfl) z (fun _ _ _ => rfl) (fun _ _ _ => rfl)
  · exact final_month w hk (·.dewPoint) (·.dpt) _ (fun _ => rfl) z (fun _ _ _ => rfl) (fun _ _ _ => rfl)
  · exact final_month w hk (·.relativeHumidity) (·.rh) _ (fun _ => rfl) z (fun _ _ _ => rfl) (fun _ _ _ => rfl)
  · exact final_month w hk (·.windspeed) (·.wspd) _ (fun _ => rfl) z (fun _ _ _ => rfl) (fun _ _ _ => rfl)
  · exact final_month w hk (·.globalHorizontal) (·.egh) _ (fun _ => rfl) z (fun _ _ _ => rfl) (fun _ _ _ => rfl)
  · exact final_month w hk (·.solar s) (·.eglobe s) _ (fun _ => rfl) z (fun _ _ _ => rfl) (fun _ _ _ => rfl)
  · exact final_hour w hk h (·.hourlyDryBulb h) (·.dbt) _ (fun _ => rfl) z (fun _ _ _ => rfl) (fun _ _ _ => rfl)
  · exact final_hour w hk h (·.hourlyDewPoint h) (·.dpt) _ (fun _ => rfl) z (fun _ _ _ => rfl) (fun _ _ _ => rfl)
  · exact final_hour w hk h (·.hourlyGlobalHorizontal h) (·.egh) _ (fun _ => rfl) z (fun _ _ _ => rfl) (fun _ _ _ => rfl)

/-- C17: calculating again on the same object gives the same averages. -/
theorem C17_again (w w' : Weather Dbl) (before : List (MonthBins Dbl)) (hb : before.length = 12) :
    ∃ first, calculate w' before = some first ∧ calculate w first = calculate w newBins := by
  obtain ⟨first, h, hl, -⟩ := C17_means w' before hb
  exact ⟨first, h, by rw [calculate_eq w first hl, calculate_eq w newBins (by simp [newBins])]⟩

/-- a mean lies between the smallest and the largest of the values -/
theorem mean_between {ι : Type} (s : Finset ι) (f : ι → ℝ) (n : ℝ) (hn : 0 < n) (hc : (s.card : ℝ) = n) {lo hi : ℝ}
    (h : ∀ i ∈ s, lo ≤ f i ∧ f i ≤ hi) : lo ≤ (∑ i ∈ s, f i) / n ∧ (∑ i ∈ s, f i) / n ≤ hi := by
  constructor
  · rw [le_div_iff₀ hn]
    have := Finset.card_nsmul_le_sum s f lo (fun i hi => (h i hi).1)
    rw [nsmul_eq_mul, hc] at this
    linarith
  · rw [div_le_iff₀ hn]
    have := Finset.sum_le_card_nsmul s f hi (fun i hi => (h i hi).2)
    rw [nsmul_eq_mul, hc] at this
    linarith

/-- C17: if the values of the month are numbers between `lo` and `hi`, so is their mean. -/
theorem C17_between (f : Fin 8760 → ℝ) (k : ℕ) (hk : k < 12) (lo hi : ℝ)
    (h : ∀ i : Fin 8760, i.1 ∈ hoursOfMonth (k + 1) → lo ≤ f i ∧ f i ≤ hi) :
    (∃ v, monthMean (fun i => fin (f i)) (k + 1) = fin v ∧ lo ≤ v ∧ v ≤ hi) ∧
    ∀ hr < 24, ∃ v, hourMean (fun i => fin (f i)) (k + 1) hr = fin v ∧ lo ≤ v ∧ v ≤ hi := by
  have hd := daysIn_eq ⟨k, hk⟩
  have dt := days_table ⟨k, hk⟩
  simp only at hd dt
  have hpos : (0:ℝ) < daysIn (k + 1) := by exact_mod_cast hd.2
  let g : ℕ → ℝ := fun i => if h : i < 8760 then f ⟨i, h⟩ else 0
  have hg : ∀ i, atHour (fun i => fin (f i)) i = fin (g i) := by
    intro i; unfold atHour; simp only [g]; split_ifs <;> rfl
  have hlt : ∀ i ∈ hoursOfMonth (k + 1), i < 8760 := by
    intro i hi
    have : i ∈ Finset.Ico (24 * daysBefore (k + 1)) (24 * daysBefore (k + 2)) := hi
    rw [Finset.mem_Ico] at this; omega
  have hgb : ∀ i ∈ hoursOfMonth (k + 1), lo ≤ g i ∧ g i ≤ hi := by
    intro i hi
    simp only [g, dif_pos (hlt i hi)]
    exact h ⟨i, hlt i hi⟩ hi
  constructor
  · refine ⟨(∑ i ∈ hoursOfMonth (k + 1), g i) / (24 * daysIn (k + 1)), ?_, ?_⟩
    · unfold monthMean
      rw [Finset.sum_congr rfl (fun i _ => hg i), fin_sum, fin_div _ (by positivity)]
    · refine mean_between _ g _ (by positivity) ?_ hgb
      have : (hoursOfMonth (k + 1)).card = 24 * daysIn (k + 1) := by
        show (Finset.Ico (24 * daysBefore (k + 1)) (24 * daysBefore (k + 2))).card = _
        rw [Nat.card_Ico, ← hd.1]; omega
      rw [this]; push_cast; rfl
  · intro hr hhr
    refine ⟨(∑ d ∈ Finset.range (daysIn (k + 1)), g (hourOfYear (k + 1) (d + 1) hr)) / daysIn (k + 1), ?_, ?_⟩
    · unfold hourMean
      rw [Finset.sum_congr rfl (fun d _ => hg (hourOfYear (k + 1) (d + 1) hr)), fin_sum, fin_div _ hpos.ne']
    · refine mean_between _ _ _ hpos (by rw [Finset.card_range]) (fun d hdm => hgb _ ?_)
      rw [Finset.mem_range] at hdm
      show _ ∈ Finset.Ico _ (24 * daysBefore (k + 2))
      rw [Finset.mem_Ico]; unfold hourOfYear; omega

/-- hypotheses met: new bins; a series rising from 0 to 8759 in January -/
example : (newBins : List (MonthBins Dbl)).length = 12 ∧
    ∀ i : Fin 8760, i.1 ∈ hoursOfMonth (0 + 1) → (0:ℝ) ≤ (i.1 : ℝ) ∧ (i.1 : ℝ) ≤ 743 := by
  refine ⟨by simp [newBins], fun i hi => ⟨by positivity, ?_⟩⟩
  have : i.1 ∈ Finset.Ico 0 744 := hi
  rw [Finset.mem_Ico] at this
  have : i.1 ≤ 743 := by omega
  exact_mod_cast this

end ISO.Props
