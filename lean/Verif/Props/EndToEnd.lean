import Verif.Lemmas.EndToEnd
import Verif.Props.Whole
import Verif.Props.HourlyWhole
import Verif.Props.MonthlyClosed

/-!
# C74: from the texts of the input files to the printed numbers

The theorems about the files, the weather, the simulations and the printed tables put together.
-/

namespace ISO.Props
open ISO ISO.Numerals ISO.Spec ISO.Spec.Text ISO.Spec.Whole ISO.User ISO.CommandLine ISO.Epw ISO.Lemmas Dbl ISO.Spec.HourlyWhole

namespace EndToEnd
open ISO.Spec.EndToEnd (Describes Averaged Inputs Timetable PrintsTable hourResult monthResult MonthlyResult)

/-! ### weather -/

theorem suitable_overhead {lat lon zone : ℝ} {v : Fin 7 → Fin 8760 → ℝ} (hlat : 28.1 ≤ |lat| ∧ |lat| ≤ 90) :
    NeverOverhead (Spec.EndToEnd.yearOf lat lon zone v) := fun i =>
  C19_never_zenith (placeOf (Spec.EndToEnd.yearOf lat lon zone v)) hlat.1 hlat.2 (HourlyWhole.dayOf i) (HourlyWhole.hourOf i)

theorem sun_eq {w : Weather ℝ} (hz : NeverOverhead w) (i : Fin 8760) (s : Fin 8) :
    Solar.eglobe (w.map fin) i s = fin (radiation w i ⟨s, by omega⟩) := by
  rw [C20_sum w i s (hz i)]
  unfold radiation
  rw [dif_pos s.2]
  rfl

theorem averages_spec (w : Weather ℝ) (hw : ∀ c i, |w.data c i| ≤ (10 : ℝ) ^ 200) (h0 : ∀ i, 0 ≤ w.data EB i ∧ 0 ≤ w.data ED i)
    (hlat : 28.1 ≤ |w.latitude| ∧ |w.latitude| ≤ 90) (hz : NeverOverhead w) :
    ∃ a : WeatherData ℝ, siteAverages standard (w.map fin) = a.map fin ∧ Averaged w a ∧
      ∀ m h x, hourMean (fun i => fin (w.data EGH i)) (m.1 + 1) h.1 = fin x → x ≠ 0 → a.mhEgh m h ≠ 0 := by
  obtain ⟨a, e, hne⟩ := averages_real w hw h0 hlat
  refine ⟨a, e, ?_, hne⟩
  have b300 : (10 : ℝ) ^ 200 ≤ (10 : ℝ) ^ 300 := ten_pow_le (by norm_num)
  have big : 5 * (10 : ℝ) ^ 200 ≤ (10 : ℝ) ^ 300 := by
    calc 5 * (10 : ℝ) ^ 200 ≤ 10 * (10 : ℝ) ^ 200 := mul_le_mul_of_nonneg_right (by norm_num) (pow_nonneg (by norm_num) _)
      _ = (10 : ℝ) ^ 201 := (pow_succ' 10 200).symm
      _ ≤ _ := ten_pow_le (by norm_num)
  have hm : ∀ (c : Fin 7) (m : Fin 12), Text.Moderate (monthMean (fun i => fin (w.data c i)) (m.1 + 1)) := by
    intro c m
    obtain ⟨v, e, hv⟩ := (mean_size (w.data c) _ (hw c) m).1
    rw [e]; exact hv.trans b300
  have hh : ∀ (c : Fin 7) (m : Fin 12) (h : Fin 24), Text.Moderate (hourMean (fun i => fin (w.data c i)) (m.1 + 1) h.1) := by
    intro c m h
    obtain ⟨v, e, hv⟩ := (mean_size (w.data c) _ (hw c) m).2 h
    rw [e]; exact hv.trans b300
  have hs : ∀ (m : Fin 12) (s : Fin 8), Text.Moderate (monthMean (fun i => Solar.eglobe (w.map fin) i s) (m.1 + 1)) := by
    intro m s
    choose g hg hb using fun i => irradiance_size w ((10 : ℝ) ^ 200)
      (fun i => ⟨(h0 i).1, (le_abs_self _).trans (hw EB i), (h0 i).2, (le_abs_self _).trans (hw ED i)⟩) hlat i s
    obtain ⟨v, h1, h2⟩ := (mean_size g _ hb m).1
    rw [show (fun i => Solar.eglobe (w.map fin) i s) = fun i => fin (g i) from funext hg, h1]
    exact h2.trans big
  have key := fun m : Fin 12 => C60_weather (w.map fin) m
  rw [e] at key
  refine ⟨fun m => (key m).1 (hm DBT m), fun m => (key m).2.1 (hm WSPD m), fun m => (key m).2.2.1 (hm EGH m), fun m s => ?_,
    fun m h => ((key m).2.2.2.1 h).1 (hh DBT m h), fun m h => ((key m).2.2.2.1 h).2 (hh EGH m h)⟩
  have := (key m).2.2.2.2 s (hs m s)
  rw [show (fun i => Solar.eglobe (w.map fin) i s) = fun i => fin (radiation w i ⟨s, by omega⟩) from funext fun i => sun_eq hz i s] at this
  exact this

/-! ### the printed table -/

theorem table_of {text title first : Str} {n P : ℕ} (hP : 1 ≤ P) {rs : List (Fin 13 → Dbl)} (hn : rs.length = n)
    (ht : readTable ',' text = resultTable (Numerals.print P) title first rs) {value : ℕ → Fin 13 → Dbl}
    (hv : ∀ i (h : i < rs.length) k, rs[i] k = value i k) : PrintsTable text title first n P value := by
  subst hn
  refine ⟨?_, ?_, ?_, fun i hi => ⟨(Nat.repr (i + 1)).toList :: List.ofFn fun k => Numerals.print P (rs[i] k), ?_, ?_, rfl, fun k =>
    ⟨Numerals.print P (rs[i] k), ?_, fun hm => ?_⟩⟩⟩
  · rw [ht]; unfold resultTable; simp
  · rw [ht]; rfl
  · rw [ht]; rfl
  · rw [ht]; unfold resultTable; simp [hi]
  · simp
  · rw [List.getElem?_cons_succ, List.getElem?_ofFn, dif_pos k.2]
  · have := hv i hi k
    rw [← this] at hm ⊢
    exact C60_read P hP _ hm

theorem timetable_window {x : Sim ℝ} (h : Timetable x.pop) : ∃ win, Hourly.window (x.map fin).pop = some win := by
  obtain ⟨⟨a, b, c⟩, d, e, f⟩ := h
  refine ⟨⟨truncR x.pop.daysStart, truncR x.pop.daysEnd, truncR x.pop.hoursStart, truncR x.pop.hoursEnd⟩, ?_⟩
  unfold Hourly.window
  rw [show (x.map fin).pop.daysStart = fin x.pop.daysStart from rfl, show (x.map fin).pop.daysEnd = fin x.pop.daysEnd from rfl,
    show (x.map fin).pop.hoursStart = fin x.pop.hoursStart from rfl, show (x.map fin).pop.hoursEnd = fin x.pop.hoursEnd from rfl,
    cint_small (a.trans (by norm_num)), cint_small (abs_le.mpr ⟨by linarith, by linarith⟩), cint_small (d.trans (by norm_num)),
    cint_small (abs_le.mpr ⟨by linarith, by linarith⟩)]
  rfl

end EndToEnd
open EndToEnd
open ISO.Spec.EndToEnd (Describes Averaged Inputs Timetable PrintsTable PrintsComparison hourResult monthResult MonthlyResult)

variable {fs : FileSystem} {o : Options} {file : Properties.Store} {text : Str}

/-- what the files give the simulations -/
theorem EndToEnd.loaded (hi : Inputs fs o file text) {x : Sim ℝ} (hx : Describes file x) {lat lon zone : ℝ} {v : Fin 7 → Fin 8760 → ℝ}
    (hy : YearFile text lat lon zone v) (hz : |zone| ≤ 24) (junk : Params Dbl) :
    ∃ u, loadFor standard fs junk o = .ok u ∧ Found fs o u ∧
      (∀ a : WeatherData ℝ, siteAverages standard ((Spec.EndToEnd.yearOf lat lon zone v).map fin) = a.map fin →
        ∀ rs, monthlyResults u = .ok rs ↔ Monthly.simulate (({ x with weather := a } : Sim ℝ).map fin) = some rs) ∧
      ∀ byMonth rs, hourlyResults u byMonth = .ok rs ↔ ∃ after,
        Hourly.simulate byMonth (fresh x (Spec.EndToEnd.yearOf lat lon zone v)) = some (after, rs) := by
  obtain ⟨path, weather, hp, hW, hread⟩ := hi.weather
  have hw := file_year hy hz
  rw [← hread] at hw
  obtain ⟨u, h1, h2, h3, h4⟩ := C52_results standard C60_library.1 fs junk o hi.building hi.defaults file hi.parameters hi.accepted path weather
    hp hW _ hw
  refine ⟨u, h1, h2, fun a ha rs => ?_, fun b rs => ?_⟩
  · rw [h3 rs]
    have : siteAverages standard ((Props.yearOf lat lon zone v).map fin) = a.map fin := ha
    rw [this]
    have := described hx junk a
    rw [show standard.stod = Numerals.stod from rfl, this]
  · rw [h4 b rs (x.weather.map fin)]
    have := described hx junk x.weather
    rw [show standard.stod = Numerals.stod from rfl, this]
    rfl

/-- the results of the hourly simulation -/
theorem EndToEnd.hour_values {x : Sim ℝ} (hp : Physical x) (hs : Systems x) (ht : Timetable x.pop) {w : Weather ℝ} (hoh : NeverOverhead w) :
    ∃ (after after' : Hourly.Model Dbl) (h r : List (Hourly.EndUses Dbl)) (mass air surface power : ℕ → ℝ),
      Hourly.simulate false (fresh x w) = some (after, h) ∧ Hourly.simulate true (fresh x w) = some (after', r) ∧ h.length = 8760 ∧ r.length = 12 ∧
      Evolution x w mass air surface power ∧
      (∀ i (hi : i < h.length) k, h[i] k = if hi : i < 8760 then hourResult x w air power ⟨i, hi⟩ k else nan) ∧
      ∀ i (hi : i < r.length) k, r[i] k = monthResult x w air power i k := by
  obtain ⟨win, hwin⟩ := timetable_window ht
  obtain ⟨after, h, hr, hlen⟩ := hourly_runs (fresh x w) win hwin false
  obtain ⟨after', r, hr', hlen'⟩ := hourly_runs (fresh x w) win hwin true
  obtain ⟨mass, air, surface, power, hE⟩ := C73_exists hp hs ht.hours.2.1 ht.days.2.1 hoh hr
  refine ⟨after, after', h, r, mass, air, surface, power, hr, hr', hlen, hlen', hE, fun i hi k => ?_, fun i hi k => ?_⟩
  · have hi' : i < 8760 := by
      have := hlen ▸ hi
      simpa using this
    rw [dif_pos hi']
    unfold hourResult
    by_cases hd : ∀ j < 8760, power j = 0
    · have := (C73_no_demand hp hs ht.hours.2.1 ht.days.2.1 hoh hr hE hd).2 ⟨i, hi'⟩ hi k
      rw [this]
      congr 1
      exact propext ⟨fun h => ⟨hd, h⟩, fun h => h.2⟩
    · have := (C73_results hp hs ht.hours.2.1 ht.days.2.1 hoh hr hE (by push Not at hd; exact hd)).2 ⟨i, hi'⟩ hi k
      rw [this, if_neg (fun hc => hd hc.1)]
  · unfold monthResult
    by_cases hd : ∀ j < 8760, power j = 0
    · have := (C73_months_no_demand hp hs ht.hours.2.1 ht.days.2.1 hoh hr' hE hd).2 i hi k
      rw [this]
      congr 1
      exact propext ⟨fun h => ⟨hd, h⟩, fun h => h.2⟩
    · have := (C73_months hp hs ht.hours.2.1 ht.days.2.1 hoh hr' hE (by push Not at hd; exact hd)).2 i hi k
      rw [this, if_neg (fun hc => hd hc.1)]

/-- the results of the monthly simulation -/
theorem EndToEnd.monthly_values {x : Sim ℝ} (hx : Describes file x) (hsd : ∀ i, 1 ≤ x.bldg.windowShadingDevice i ∧ x.bldg.windowShadingDevice i < 4)
    {lat lon zone : ℝ} {v : Fin 7 → Fin 8760 → ℝ} (hy : YearFile text lat lon zone v) (hs : Suitable lat zone v)
    (hord : ∀ a, Averaged (Spec.EndToEnd.yearOf lat lon zone v) a → Ordinary { x with weather := a } ∧ Equipped { x with weather := a }) :
    ∃ (a : WeatherData ℝ) (r : List (Hourly.EndUses Dbl)) (value : Fin 12 → Fin 13 → ℝ),
      siteAverages standard ((Spec.EndToEnd.yearOf lat lon zone v).map fin) = a.map fin ∧ Averaged (Spec.EndToEnd.yearOf lat lon zone v) a ∧
      Monthly.simulate (({ x with weather := a } : Sim ℝ).map fin) = some r ∧ r.length = 12 ∧
      (∀ i (h : i < r.length) k, r[i] k = if h : i < 12 then fin (value ⟨i, h⟩ k) else nan) ∧
      ∀ m k, MonthlyResult { x with weather := a } m k (value m k) := by
  have hoh := suitable_overhead (lon := lon) (zone := zone) (v := v) hs.lat
  obtain ⟨a, hav, hA, hne⟩ := averages_spec (Spec.EndToEnd.yearOf lat lon zone v) (file_size hy) (fun i => (hs.radiation i).2) hs.lat hoh
  obtain ⟨hord, heq⟩ := hord a hA
  obtain ⟨t, ht⟩ : ∃ t, Param.given file "bemtype" = some t ∧ ∃ i : ℕ, i < 3 ∧ x.building.buildingEnergyManagement = i + 1 := by
    obtain ⟨t, h, i, hi, -, hv⟩ := hx.building_buildingEnergyManagement
    exact ⟨t, h, i, hi, hv⟩
  obtain ⟨r, hr⟩ : ∃ r, Monthly.simulate (({ x with weather := a } : Sim ℝ).map fin) = some r := by
    cases hn : Monthly.simulate (({ x with weather := a } : Sim ℝ).map fin) with
    | some r => exact ⟨r, rfl⟩
    | none =>
      rcases (C41_defined _ hord.temperatures.someHour).mp hn with ⟨m, h⟩ | ⟨i, h⟩ | h
      · obtain ⟨r, hr, h1⟩ := hs.sun m.1 m.2
        obtain ⟨z, hz, hz0⟩ := sunny_hour (v 3) (fun i => (hs.radiation i).1) m r hr h1
        exact absurd (h ⟨r.1 % 24, Nat.mod_lt _ (by norm_num)⟩) (hne m ⟨r.1 % 24, Nat.mod_lt _ (by norm_num)⟩ z hz hz0)
      · exact absurd (hsd i) h
      · obtain ⟨-, i, hi, hv⟩ := ht
        refine absurd ?_ h
        show -2147483649 < x.building.buildingEnergyManagement ∧ x.building.buildingEnergyManagement < 2147483648
        rw [hv]
        have : (i : ℝ) < 3 := by exact_mod_cast hi
        have : (0 : ℝ) ≤ i := Nat.cast_nonneg i
        exact ⟨by linarith, by linarith⟩
  obtain ⟨hlen, hen⟩ := C68_energy _ hord r hr
  obtain ⟨hl2, hot⟩ := C68_others _ hord heq r hr
  have hval : ∀ (m : Fin 12) (k : Fin 13), ∃ y : ℝ, r[m.1] k = fin y ∧ MonthlyResult { x with weather := a } m k y := by
    intro m k
    obtain ⟨a0, a9, a1, a10⟩ := hen m
    obtain ⟨⟨l, a2, b2⟩, ⟨j, q, b3, a3⟩, a4, a5, a6, a7, a8, a11, a12⟩ := hot m
    fin_cases k
    · exact ⟨_, a0, rfl⟩
    · exact ⟨_, a1, rfl⟩
    · exact ⟨_, a2, b2⟩
    · exact ⟨_, a3, j, q, b3, rfl⟩
    · exact ⟨_, a4, rfl⟩
    · exact ⟨_, a5, rfl⟩
    · exact ⟨_, a6, rfl⟩
    · exact ⟨_, a7, rfl⟩
    · exact ⟨_, a8, rfl⟩
    · exact ⟨_, a9, rfl⟩
    · exact ⟨_, a10, rfl⟩
    · exact ⟨_, a11, rfl⟩
    · exact ⟨_, a12, rfl⟩
  choose value hv hres using hval
  refine ⟨a, r, value, hav, hA, hr, hlen, fun i h k => ?_, hres⟩
  have hi : i < 12 := hlen ▸ h
  rw [dif_pos hi]
  exact hv ⟨i, hi⟩ k

/-- blocks of the same size, one after the other -/
theorem EndToEnd.flatMap_block {α β : Type} (B : ℕ) (f : α → List β) : ∀ (l : List α) (_ : ∀ a ∈ l, (f a).length = B) (k : ℕ) (hk : k < l.length)
    (j : ℕ) (_ : j < B), (l.flatMap f)[k * B + j]? = (f l[k])[j]?
  | [], _, k, hk, _, _ => absurd hk (Nat.not_lt_zero k)
  | a :: l, h, 0, _, j, hj => by
    have := h a List.mem_cons_self
    rw [List.flatMap_cons, Nat.zero_mul, Nat.zero_add, List.getElem?_append_left (by omega)]
    rfl
  | a :: l, h, k + 1, hk, j, hj => by
    have ha := h a List.mem_cons_self
    have e : (k + 1) * B + j - B = k * B + j := by rw [Nat.succ_mul]; omega
    have hle : B ≤ (k + 1) * B + j := by rw [Nat.succ_mul]; omega
    rw [List.flatMap_cons, List.getElem?_append_right (by omega), ha, e,
      flatMap_block B f l (fun b hb => h b (List.mem_cons_of_mem _ hb)) k (by simpa using hk) j hj]
    rfl

/-- a comparison, read as a table -/
theorem EndToEnd.comparison_of (markdown : Bool) {text : Str} {ms hs : List (Fin 13 → Dbl)} (hm : ms.length = 12) (hh : hs.length = 12)
    (ht : readTable (if markdown then '|' else ',') text = (List.finRange 13).flatMap fun k : Fin 13 =>
      compareTable (Numerals.print 6) markdown (useNames.getD k []) (ms.map (· k)) (hs.map (· k))) {mv hv : ℕ → Fin 13 → Dbl}
    (h1 : ∀ i (h : i < ms.length) k, ms[i] k = mv i k) (h2 : ∀ i (h : i < hs.length) k, hs[i] k = hv i k) :
    PrintsComparison markdown text mv hv := by
  have hlen : ∀ k : Fin 13, (compareTable (Numerals.print 6) markdown (useNames.getD k []) (ms.map (· k)) (hs.map (· k))).length =
      if markdown then 15 else 14 := by
    intro k
    cases markdown <;> simp [compareTable, hm, hh]
  have hat : ∀ (k : Fin 13) j, j < (if markdown then 15 else 14) →
      (readTable (if markdown then '|' else ',') text)[k.1 * (if markdown then 15 else 14) + j]? =
        (compareTable (Numerals.print 6) markdown (useNames.getD k []) (ms.map (· k)) (hs.map (· k)))[j]? := by
    intro k j hj
    rw [ht, flatMap_block _ _ _ (fun a _ => hlen a) k.1 (by simp) j hj]
    simp
  refine ⟨?_, fun k => ?_, fun k i hi => ?_⟩
  · rw [ht, List.length_flatMap, List.map_congr_left (fun a _ => hlen a)]
    cases markdown <;> simp
  · have := hat k 0 (by split_ifs <;> norm_num)
    rw [Nat.add_zero] at this
    rw [this]
    cases markdown
    · exact ⟨_, rfl, rfl⟩
    · exact ⟨_, rfl, rfl⟩
  · have hmi : i < ms.length := by omega
    have hhi : i < hs.length := by omega
    have hz : (((ms.map (· k)).zip (hs.map (· k))).zipIdx)[i]? = some ((ms[i] k, hs[i] k), i) := by
      rw [List.getElem?_zipIdx, List.getElem?_eq_getElem (by simp [hm, hh, hi])]
      simp
    rw [Nat.add_assoc, hat k _ (by cases markdown <;> simp <;> omega), ← h1 i hmi k, ← h2 i hhi k]
    refine ⟨(if markdown then [[]] ++ [(Nat.repr i).toList, Numerals.print 6 (ms[i] k), Numerals.print 6 (hs[i] k),
        Numerals.print 6 (ms[i] k - hs[i] k)] ++ [[]] else [(Nat.repr i).toList, Numerals.print 6 (ms[i] k), Numerals.print 6 (hs[i] k),
        Numerals.print 6 (ms[i] k - hs[i] k)]), Numerals.print 6 (ms[i] k), Numerals.print 6 (hs[i] k), Numerals.print 6 (ms[i] k - hs[i] k),
      ?_, ?_, fun h => C60_read 6 (by norm_num) _ h, fun h => C60_read 6 (by norm_num) _ h, fun h => C60_read 6 (by norm_num) _ h⟩
    · cases markdown
      · simp only [Bool.false_eq_true, if_false]
        unfold compareTable
        rw [List.getElem?_append_left (by simp [hm, hh]; omega), List.getElem?_append_right (by simp)]
        simp only [Bool.false_eq_true, if_false, List.append_nil, List.length_cons, List.length_nil, Nat.zero_add, Nat.add_sub_cancel_left]
        rw [List.getElem?_map, hz]
        rfl
      · simp only [if_true]
        unfold compareTable
        rw [List.getElem?_append_left (by simp [hm, hh]; omega), List.getElem?_append_right (by simp)]
        simp only [if_true, List.length_append, List.length_cons, List.length_nil, Nat.zero_add, Nat.reduceAdd, Nat.add_sub_cancel_left]
        rw [List.getElem?_map, hz]
        rfl
    · cases markdown <;> rfl

/-- **C74, by hour.** The program asked for the hourly results of a physically meaningful building prints a table of 8760 lines.  There is
a course of temperatures and powers of the building in the year of the weather file that satisfies the heat balances under thermostat
control, and the cell of every hour and end use is the number that the specification gives for this course, to six digits. -/
theorem C74_byHour (hi : Inputs fs o file text) (ho : o.monthly = false ∧ o.hourlyByMonth = false ∧ o.hourlyByHour = true ∧ o.compare = none)
    {x : Sim ℝ} (hx : Describes file x) (hp : Physical x) (hs : Systems x) (ht : Timetable x.pop) {lat lon zone : ℝ}
    {v : Fin 7 → Fin 8760 → ℝ} (hy : YearFile text lat lon zone v) (hlat : 28.1 ≤ |lat| ∧ |lat| ≤ 90) (hz : |zone| ≤ 24) (junk : Params Dbl) :
    ∃ out mass air surface power, main standard Numerals.print fs junk o = .returns [.runHourly false] out ∧
      Evolution x (Spec.EndToEnd.yearOf lat lon zone v) mass air surface power ∧
      PrintsTable out "Hourly results by hour:".toList "hour".toList 8760 6 fun i k =>
        if h : i < 8760 then hourResult x (Spec.EndToEnd.yearOf lat lon zone v) air power ⟨i, h⟩ k else nan := by
  obtain ⟨u, hu, hf, -, hh⟩ := loaded hi hx hy hz junk
  obtain ⟨after, -, h, -, mass, air, surface, power, hr, -, hlen, -, hE, hv, -⟩ := hour_values hp hs ht
    (suitable_overhead (lon := lon) (zone := zone) (v := v) hlat)
  obtain ⟨o1, o2, o3, o4⟩ := ho
  obtain ⟨t1, t2, t3, t4, k, -, -, -, h1, -, h2, -, h3, h4, -⟩ := C51_program standard C60_library.1 Numerals.print C60_library.2 fs junk o u hu hf
    h h h (fun h => by simp [Nothing, o1, o3, o4] at h) (fun h => by simp [o2, o4] at h) (fun _ => (hh false h).mpr ⟨_, hr⟩)
  have e1 := h1 o4
  have e2 := h2 (by simp [Nothing, o1, o3])
  have e3 := h3 (by simp [o2])
  have e4 := h4 o3
  rw [o1, if_neg (by simp)] at e4
  rw [e1, e2, e3, List.nil_append, List.nil_append, List.nil_append] at k
  refine ⟨t4, mass, air, surface, power, ?_, hE, table_of (by norm_num) hlen e4 hv⟩
  rw [k]
  congr 1
  simp [actions, o1, o2, o3, o4]

/-- **C74, by month.** The same for the hourly simulation with results by month: twelve lines, with the sums over the calendar months. -/
theorem C74_byMonth (hi : Inputs fs o file text) (ho : o.monthly = false ∧ o.hourlyByMonth = true ∧ o.hourlyByHour = false ∧ o.compare = none)
    {x : Sim ℝ} (hx : Describes file x) (hp : Physical x) (hs : Systems x) (ht : Timetable x.pop) {lat lon zone : ℝ}
    {v : Fin 7 → Fin 8760 → ℝ} (hy : YearFile text lat lon zone v) (hlat : 28.1 ≤ |lat| ∧ |lat| ≤ 90) (hz : |zone| ≤ 24) (junk : Params Dbl) :
    ∃ out mass air surface power, main standard Numerals.print fs junk o = .returns [.runHourly true] out ∧
      Evolution x (Spec.EndToEnd.yearOf lat lon zone v) mass air surface power ∧
      PrintsTable out "Hourly results by month:".toList "month".toList 12 6
        (monthResult x (Spec.EndToEnd.yearOf lat lon zone v) air power) := by
  obtain ⟨u, hu, hf, -, hh⟩ := loaded hi hx hy hz junk
  obtain ⟨-, after, -, r, mass, air, surface, power, -, hr, -, hlen, hE, -, hv⟩ := hour_values hp hs ht
    (suitable_overhead (lon := lon) (zone := zone) (v := v) hlat)
  obtain ⟨o1, o2, o3, o4⟩ := ho
  obtain ⟨t1, t2, t3, t4, k, -, -, -, h1, -, h2, h3, -, -, h4⟩ := C51_program standard C60_library.1 Numerals.print C60_library.2 fs junk o u hu hf
    r r r (fun h => by simp [Nothing, o1, o2, o4] at h) (fun _ => (hh true r).mpr ⟨_, hr⟩) (fun h => by simp [o3] at h)
  have e1 := h1 o4
  have e2 := h2 (by simp [Nothing, o1, o2])
  have e3 := h3 o2
  have e4 := h4 (by simp [o3])
  rw [o1, if_neg (by simp)] at e3
  rw [e1, e2, e4, List.nil_append, List.nil_append, List.append_nil] at k
  refine ⟨t3, mass, air, surface, power, ?_, hE, table_of (by norm_num) hlen e3 hv⟩
  rw [k]
  congr 1
  simp [actions, o1, o2, o3, o4]

/-- **C74, the monthly simulation.** The program without options prints a table of twelve lines.  There are averages, those of the
weather file to six digits, such that the cell of every month and end use is the number that the formulas of the monthly balance give
for the building with these averages, to ten digits. -/
theorem C74_monthly (hi : Inputs fs o file text) (ho : o.monthly = false ∧ o.hourlyByMonth = false ∧ o.hourlyByHour = false ∧ o.compare = none)
    {x : Sim ℝ} (hx : Describes file x) (hsd : ∀ i, 1 ≤ x.bldg.windowShadingDevice i ∧ x.bldg.windowShadingDevice i < 4)
    {lat lon zone : ℝ} {v : Fin 7 → Fin 8760 → ℝ} (hy : YearFile text lat lon zone v) (hs : Suitable lat zone v)
    (hord : ∀ a, Averaged (Spec.EndToEnd.yearOf lat lon zone v) a → Ordinary { x with weather := a } ∧ Equipped { x with weather := a })
    (junk : Params Dbl) :
    ∃ (out : Str) (a : WeatherData ℝ) (value : Fin 12 → Fin 13 → ℝ), main standard Numerals.print fs junk o = .returns [.runMonthly] out ∧
      Averaged (Spec.EndToEnd.yearOf lat lon zone v) a ∧
      (∀ m k, MonthlyResult { x with weather := a } m k (value m k)) ∧
      PrintsTable out "Monthly Results:".toList "Month".toList 12 10 fun i k => if h : i < 12 then fin (value ⟨i, h⟩ k) else nan := by
  obtain ⟨u, hu, hf, hm, -⟩ := loaded hi hx hy hs.zone junk
  obtain ⟨a, r, value, hav, hA, hr, hlen, hv, hres⟩ := monthly_values hx hsd hy hs hord
  obtain ⟨o1, o2, o3, o4⟩ := ho
  obtain ⟨t1, t2, t3, t4, k, -, -, -, h1, h2, -, -, h3, -, h4⟩ := C51_program standard C60_library.1 Numerals.print C60_library.2 fs junk o u hu hf
    r r r (fun _ => (hm a hav r).mpr hr) (fun h => by simp [o2, o4] at h) (fun h => by simp [o3] at h)
  have e1 := h1 o4
  have e2 := h2 (Or.inr ⟨o1, o2, o3, o4⟩)
  have e3 := h3 (by simp [o2])
  have e4 := h4 (by simp [o3])
  rw [e1, e3, e4, List.nil_append, List.append_nil, List.append_nil] at k
  refine ⟨t2, a, value, ?_, hA, hres, table_of (by norm_num) hlen e2 hv⟩
  rw [k]
  congr 1
  simp [actions, o1, o2, o3, o4]

/-- **C74, any options.** Whatever tables are asked for, the program prints, in this order and nothing else, the comparison, the monthly
table, and the tables of the hourly simulation by month and by hour, each exactly when it is asked for (the monthly one also when nothing
is).  The cells are the numbers of the two specifications for the building and the weather of the files.  The hourly tables have six
digits, but ten if the monthly table is printed before them. -/
theorem C74_all (hi : Inputs fs o file text) {x : Sim ℝ} (hx : Describes file x) (hp : Physical x) (hsys : Systems x) (ht : Timetable x.pop)
    (hsd : ∀ i, 1 ≤ x.bldg.windowShadingDevice i ∧ x.bldg.windowShadingDevice i < 4)
    {lat lon zone : ℝ} {v : Fin 7 → Fin 8760 → ℝ} (hy : YearFile text lat lon zone v) (hs : Suitable lat zone v)
    (hord : ∀ a, Averaged (Spec.EndToEnd.yearOf lat lon zone v) a → Ordinary { x with weather := a } ∧ Equipped { x with weather := a })
    (junk : Params Dbl) :
    ∃ (compared monthly byMonth byHour : Str) (a : WeatherData ℝ) (value : Fin 12 → Fin 13 → ℝ) (mass air surface power : ℕ → ℝ),
      main standard Numerals.print fs junk o = .returns (actions o) (compared ++ monthly ++ byMonth ++ byHour) ∧
      Averaged (Spec.EndToEnd.yearOf lat lon zone v) a ∧ (∀ m k, MonthlyResult { x with weather := a } m k (value m k)) ∧
      Evolution x (Spec.EndToEnd.yearOf lat lon zone v) mass air surface power ∧
      (if o.monthly = true ∨ o.hourlyByMonth = false ∧ o.hourlyByHour = false ∧ o.compare = none then
        PrintsTable monthly "Monthly Results:".toList "Month".toList 12 10 fun i k => if h : i < 12 then fin (value ⟨i, h⟩ k) else nan
        else monthly = []) ∧
      (if o.hourlyByMonth = true then
        PrintsTable byMonth "Hourly results by month:".toList "month".toList 12 (if o.monthly then 10 else 6)
          (monthResult x (Spec.EndToEnd.yearOf lat lon zone v) air power)
        else byMonth = []) ∧
      (if o.hourlyByHour = true then
        PrintsTable byHour "Hourly results by hour:".toList "hour".toList 8760 (if o.monthly then 10 else 6) fun i k =>
          if h : i < 8760 then hourResult x (Spec.EndToEnd.yearOf lat lon zone v) air power ⟨i, h⟩ k else nan
        else byHour = []) ∧
      (match o.compare with
        | none => compared = []
        | some format =>
          if format = "md".toList ∨ format = "csv".toList then
            PrintsComparison (decide (format = "md".toList)) compared (fun i k => if h : i < 12 then fin (value ⟨i, h⟩ k) else nan)
              (monthResult x (Spec.EndToEnd.yearOf lat lon zone v) air power)
          else compared = "No output type given for compare. Please use 'md' or 'csv'.\n".toList) := by
  obtain ⟨u, hu, hf, hm, hh⟩ := loaded hi hx hy hs.zone junk
  obtain ⟨a, m, value, hav, hA, hmr, hml, hmv, hres⟩ := monthly_values hx hsd hy hs hord
  obtain ⟨after, after', h, r, mass, air, surface, power, hhr, hrr, hhl, hrl, hE, hhv, hrv⟩ := hour_values hp hsys ht
    (suitable_overhead (lon := lon) (zone := zone) (v := v) hs.lat)
  obtain ⟨t1, t2, t3, t4, k, c1, c2, c3, c4, m1, m2, b1, b2, d1, d2⟩ := C51_program standard C60_library.1 Numerals.print C60_library.2 fs
    junk o u hu hf m r h (fun _ => (hm a hav m).mpr hmr) (fun _ => (hh true r).mpr ⟨_, hrr⟩) (fun _ => (hh false h).mpr ⟨_, hhr⟩)
  have hP : 1 ≤ (if o.monthly then 10 else 6) := by split_ifs <;> norm_num
  refine ⟨t1, t2, t3, t4, a, value, mass, air, surface, power, k, hA, hres, hE, ?_, ?_, ?_, ?_⟩
  · have e : (o.monthly = true ∨ o.hourlyByMonth = false ∧ o.hourlyByHour = false ∧ o.compare = none) ↔ (o.monthly = true ∨ Nothing o) := by
      unfold Nothing
      cases o.monthly <;> simp
    by_cases hc : o.monthly = true ∨ Nothing o
    · rw [if_pos (e.mpr hc)]; exact table_of (by norm_num) hml (m1 hc) hmv
    · rw [if_neg (fun h => hc (e.mp h))]; exact m2 hc
  · by_cases hc : o.hourlyByMonth = true
    · rw [if_pos hc]; exact table_of hP hrl (b1 hc) hrv
    · rw [if_neg hc]; exact b2 hc
  · by_cases hc : o.hourlyByHour = true
    · rw [if_pos hc]; exact table_of hP hhl (d1 hc) hhv
    · rw [if_neg hc]; exact d2 hc
  · cases hc : o.compare with
    | none => exact c4 hc
    | some f =>
      by_cases h1 : f = "md".toList
      · subst h1
        simp only [true_or, if_true, decide_true]
        exact comparison_of true hml hrl (c1 hc) hmv hrv
      · by_cases h2 : f = "csv".toList
        · subst h2
          simp only [or_true, if_true]
          rw [decide_eq_false h1]
          exact comparison_of false hml hrl (c2 hc) hmv hrv
        · simp only [h1, h2, or_self, if_false]
          exact c3 f hc h1 h2

end ISO.Props
