import Verif.Spec.PrintedOrder
import Verif.Props.Editing
import Verif.Props.MonthlySetPoints

/-! # C76: printed numbers keep order, and a better building file never prints a higher number -/

namespace ISO.Props
open ISO ISO.Numerals ISO.Spec ISO.Spec.Text ISO.Spec.Whole ISO.User ISO.CommandLine ISO.Epw ISO.Lemmas ISO.Lemmas.Editing Dbl
open ISO.Spec.EndToEnd (Describes Averaged Inputs Timetable hourResult monthResult)
open ISO.Spec.HourlyWhole
open EndToEnd
open ISO.Spec.Editing (cell SameTable)
open ISO.Spec.PrintedOrder

/-! ### printing -/

/-- **C76, printing.** Of two numbers the lower one never prints as a higher number, whatever the number of digits. -/
theorem C76_print {P : ℕ} (hP : 1 ≤ P) {a b : ℝ} (h : a ≤ b) : ShowsAtMost (print P (fin a)) (print P (fin b)) := by
  rcases h.eq_or_lt with rfl | h
  · obtain ⟨q, -, hq, -⟩ := C60_number P hP a
    exact ⟨q, q, hq, hq, le_rfl⟩
  obtain ⟨p, -, hp, y, ey, dy, ny, -⟩ := C60_number P hP a
  obtain ⟨q, -, hq, z, ez, dz, nz, -⟩ := C60_number P hP b
  rw [fin_inj] at ey ez
  subst ey ez
  refine ⟨p, q, hp, hq, ?_⟩
  by_contra hlt
  push Not at hlt
  have hlt : (q : ℝ) < p := by exact_mod_cast hlt
  have h1 := sq_le_sq.mpr (ny _ dz)
  have h2 := sq_le_sq.mpr (nz _ dy)
  nlinarith

/-- **C76, reading off.** If a printed number is lower than another then the number behind it is lower. -/
theorem C76_read {P : ℕ} (hP : 1 ≤ P) {a b : ℝ} {p q : ℚ} (hp : strtod (print P (fin a)) = some (.number p, []))
    (hq : strtod (print P (fin b)) = some (.number q, [])) (h : p < q) : a < b := by
  by_contra hab
  push Not at hab
  rcases hab.eq_or_lt with e | hab
  · subst e
    rw [hp] at hq
    simp only [Option.some.injEq, Prod.mk.injEq, Value.number.injEq, and_true] at hq
    exact absurd hq h.ne
  obtain ⟨p', hp', -, y, ey, dy, ny, -⟩ := C60_number P hP a
  obtain ⟨q', hq', -, z, ez, dz, nz, -⟩ := C60_number P hP b
  rw [fin_inj] at ey ez
  subst ey ez
  rw [hp'] at hp
  rw [hq'] at hq
  simp only [Option.some.injEq, Prod.mk.injEq, Value.number.injEq, and_true] at hp hq
  subst hp hq
  have hlt : (p' : ℝ) < q' := by exact_mod_cast h
  have h1 := sq_le_sq.mpr (ny _ dz)
  have h2 := sq_le_sq.mpr (nz _ dy)
  nlinarith

/-- the hypotheses of `C76_read` are met: 1 and 2 print as 1 and 2 -/
example : ∃ p q : ℚ, strtod (print 6 (fin 1)) = some (.number p, []) ∧ strtod (print 6 (fin 2)) = some (.number q, []) ∧ p < q := by
  obtain ⟨p, hp, -, y, ey, -, ny, -⟩ := C60_number 6 (by norm_num) 1
  obtain ⟨q, hq, -, z, ez, -, nz, -⟩ := C60_number 6 (by norm_num) 2
  rw [fin_inj] at ey ez
  subst ey ez
  have h1 := ny 1 ⟨1, 0, by norm_num, by norm_num⟩
  have h2 := nz 2 ⟨2, 0, by norm_num, by norm_num⟩
  rw [sub_self, abs_zero] at h1 h2
  have e1 : (p : ℝ) = 1 := sub_eq_zero.mp (abs_eq_zero.mp (le_antisymm h1 (abs_nonneg _)))
  have e2 : (q : ℝ) = 2 := sub_eq_zero.mp (abs_eq_zero.mp (le_antisymm h2 (abs_nonneg _)))
  exact ⟨p, q, hp, hq, by exact_mod_cast (by rw [e1, e2]; norm_num : (p : ℝ) < q)⟩

/-! ### the printed tables -/

variable {fs fs' : FileSystem} {o o' : Options} {file file' : Properties.Store} {text : Str}

/-- the cell of line `i` and column `k` of a printed table of results -/
theorem PrintedOrder.cell_of {t title first : Str} {P : ℕ} {rs : List (Fin 13 → Dbl)}
    (h : readTable ',' t = resultTable (Numerals.print P) title first rs) (i : ℕ) (hi : i < rs.length) (k : Fin 13) :
    cell t (i + 2) (k + 1) = some (Numerals.print P (rs[i] k)) := by
  unfold cell
  rw [h]
  unfold resultTable
  simp [hi]
  fin_cases k <;> rfl

/-- the results of the hourly simulation are those of any course of the building -/
theorem PrintedOrder.course_values {x : Sim ℝ} (hp : Physical x) (hs : Systems x) (ht : Timetable x.pop) {w : Weather ℝ} (hoh : NeverOverhead w) :
    ∃ (after after' : Hourly.Model Dbl) (h r : List (Hourly.EndUses Dbl)),
      Hourly.simulate false (fresh x w) = some (after, h) ∧ Hourly.simulate true (fresh x w) = some (after', r) ∧ h.length = 8760 ∧ r.length = 12 ∧
      (∃ mass air surface power, Evolution x w mass air surface power) ∧
      ∀ mass air surface power, Evolution x w mass air surface power →
      (∀ i (hi : i < h.length) k, h[i] k = if hi : i < 8760 then hourResult x w air power ⟨i, hi⟩ k else nan) ∧
      ∀ i (hi : i < r.length) k, r[i] k = monthResult x w air power i k := by
  obtain ⟨win, hwin⟩ := timetable_window ht
  obtain ⟨after, h, hr, hlen⟩ := hourly_runs (fresh x w) win hwin false
  obtain ⟨after', r, hr', hlen'⟩ := hourly_runs (fresh x w) win hwin true
  refine ⟨after, after', h, r, hr, hr', hlen, hlen', C73_exists hp hs ht.hours.2.1 ht.days.2.1 hoh hr, fun mass air surface power hE =>
    ⟨fun i hi k => ?_, fun i hi k => ?_⟩⟩
  · have hi' : i < 8760 := by
      have := hlen ▸ hi
      simpa using this
    rw [dif_pos hi']
    unfold hourResult
    by_cases hd : ∀ j < 8760, power j = 0
    · have := (C73_no_demand hp hs ht.hours.2.1 ht.days.2.1 hoh hr hE hd).2 ⟨i, hi'⟩ hi k
      rw [this]
      congr 1
      exact propext ⟨fun h => ⟨hd, h⟩, fun h => h.2⟩
    · have := (C73_results hp hs ht.hours.2.1 ht.days.2.1 hoh hr hE (by push Not at hd; exact hd)).2 ⟨i, hi'⟩ hi k
      rw [this, if_neg (fun hc => hd hc.1)]
  · unfold monthResult
    by_cases hd : ∀ j < 8760, power j = 0
    · have := (C73_months_no_demand hp hs ht.hours.2.1 ht.days.2.1 hoh hr' hE hd).2 i hi k
      rw [this]
      congr 1
      exact propext ⟨fun h => ⟨hd, h⟩, fun h => h.2⟩
    · have := (C73_months hp hs ht.hours.2.1 ht.days.2.1 hoh hr' hE (by push Not at hd; exact hd)).2 i hi k
      rw [this, if_neg (fun hc => hd hc.1)]

/-- the hourly simulation, printed -/
theorem PrintedOrder.hourly_printed (hi : Inputs fs o file text) (byMonth : Bool)
    (ho : o.monthly = false ∧ o.hourlyByMonth = byMonth ∧ o.hourlyByHour = !byMonth ∧ o.compare = none)
    {x : Sim ℝ} (hx : Describes file x) (hp : Physical x) (hs : Systems x) (ht : Timetable x.pop) {lat lon zone : ℝ}
    {v : Fin 7 → Fin 8760 → ℝ} (hy : YearFile text lat lon zone v) (hlat : 28.1 ≤ |lat| ∧ |lat| ≤ 90) (hz : |zone| ≤ 24) (junk : Params Dbl) :
    ∃ out rs, main standard Numerals.print fs junk o = .returns [.runHourly byMonth] out ∧
      (∃ mass air surface power, Evolution x (Spec.EndToEnd.yearOf lat lon zone v) mass air surface power) ∧
      readTable ',' out = resultTable (Numerals.print 6) (if byMonth then "Hourly results by month:".toList else "Hourly results by hour:".toList)
          (if byMonth then "month".toList else "hour".toList) rs ∧ rs.length = (if byMonth then 12 else 8760) ∧
      ∀ mass air surface power, Evolution x (Spec.EndToEnd.yearOf lat lon zone v) mass air surface power →
      ∀ i (hi : i < rs.length) k, rs[i] k = if byMonth then monthResult x (Spec.EndToEnd.yearOf lat lon zone v) air power i k
        else if hi : i < 8760 then hourResult x (Spec.EndToEnd.yearOf lat lon zone v) air power ⟨i, hi⟩ k else nan := by
  obtain ⟨u, hu, hf, -, hm⟩ := EndToEnd.loaded hi hx hy hz junk
  obtain ⟨after, after', h, r, e1, e2, l1, l2, hE, hv⟩ := PrintedOrder.course_values hp hs ht
    (suitable_overhead (lon := lon) (zone := zone) (v := v) hlat)
  have ha : actions o = [.runHourly byMonth] := by
    obtain ⟨ism, d, m, hm, hh, c⟩ := o
    obtain ⟨o1, o2, o3, o4⟩ := ho
    simp only at o1 o2 o3 o4
    subst o1 o2 o3 o4
    cases hm <;> rfl
  obtain ⟨o1, o2, o3, o4⟩ := ho
  cases byMonth
  · obtain ⟨t1, t2, t3, t4, k, -, -, -, h1, -, h2, -, h3, h4, -⟩ := C51_program standard C60_library.1 Numerals.print C60_library.2 fs junk o u hu hf
      h r h (fun h => by simp [Nothing, o1, o3, o4] at h) (fun h => by simp [o2, o4] at h) (fun _ => (hm false h).mpr ⟨_, e1⟩)
    have e1 := h1 o4
    have e2 := h2 (by simp [Nothing, o1, o3])
    have e3 := h3 (by simp [o2])
    have e4 := h4 o3
    rw [o1, if_neg (by simp)] at e4
    rw [e1, e2, e3, List.nil_append, List.nil_append, List.nil_append, ha] at k
    exact ⟨t4, h, k, hE, e4, l1, fun a b c d e => (hv a b c d e).1⟩
  · obtain ⟨t1, t2, t3, t4, k, -, -, -, h1, -, h2, h3, -, -, h4⟩ := C51_program standard C60_library.1 Numerals.print C60_library.2 fs junk o u hu hf
      h r h (fun h => by simp [Nothing, o1, o2, o4] at h) (fun _ => (hm true r).mpr ⟨_, e2⟩) (fun h => by simp [o3] at h)
    have e1 := h1 o4
    have e2 := h2 (by simp [Nothing, o1, o2])
    have e3 := h3 o2
    have e4 := h4 (by simp [o3])
    rw [o1, if_neg (by simp)] at e3
    rw [e1, e2, e4, List.nil_append, List.nil_append, List.append_nil, ha] at k
    exact ⟨t3, r, k, hE, e3, l2, fun a b c d e => (hv a b c d e).2⟩

/-- the monthly simulation, printed -/
theorem PrintedOrder.monthly_printed (hi : Inputs fs o file text) (ho : Nothing o)
    {x : Sim ℝ} (hx : Describes file x) {lat lon zone : ℝ} {v : Fin 7 → Fin 8760 → ℝ} (hy : YearFile text lat lon zone v)
    (hz : |zone| ≤ 24) (junk : Params Dbl)
    {a : WeatherData ℝ} (hA : siteAverages standard ((Spec.EndToEnd.yearOf lat lon zone v).map fin) = a.map fin)
    {rs : List (Hourly.EndUses Dbl)} (hr : Monthly.simulate (({ x with weather := a } : Sim ℝ).map fin) = some rs) :
    ∃ out, main standard Numerals.print fs junk o = .returns [.runMonthly] out ∧
      readTable ',' out = resultTable (Numerals.print 10) "Monthly Results:".toList "Month".toList rs := by
  obtain ⟨u, hu, hf, hm, -⟩ := EndToEnd.loaded hi hx hy hz junk
  have hrs := (hm a hA rs).mpr hr
  have ha : actions o = [.runMonthly] := by
    obtain ⟨ism, d, m, hm, hh, c⟩ := o
    obtain ⟨o1, o2, o3, o4⟩ := ho
    simp only at o1 o2 o3 o4
    subst o1 o2 o3 o4
    rfl
  obtain ⟨o1, o2, o3, o4⟩ := ho
  obtain ⟨t1, t2, t3, t4, k, -, -, -, h1, h2, -, -, h3, -, h4⟩ := C51_program standard C60_library.1 Numerals.print C60_library.2 fs junk o u hu hf
    rs rs rs (fun _ => hrs) (fun h => by simp [o2, o4] at h) (fun h => by simp [o3] at h)
  have e1 := h1 o4
  have e3 := h3 (by simp [o2])
  have e4 := h4 (by simp [o3])
  rw [e1, e3, e4, List.nil_append, List.append_nil, List.append_nil, ha] at k
  exact ⟨t2, k, h2 (Or.inr ⟨o1, o2, o3, o4⟩)⟩

/-! ### the boiler and the chiller -/

theorem PrintedOrder.delivered_le {loss waste share need e e' : ℝ} (hl : 0 ≤ loss) (hw : 0 ≤ waste) (hs : 0 < share) (hn : 0 ≤ need)
    (he : 0 < e) (hee : e ≤ e') : delivered loss waste share e' need ≤ delivered loss waste share e need := by
  unfold delivered
  exact div_le_div_of_nonneg_left (mul_nonneg hn (by positivity)) he hee

/-- one building's results at most another's, in every hour: so are the sums of the months -/
theorem PrintedOrder.month_le {x x' : Sim ℝ} {w : Weather ℝ} {air power : ℕ → ℝ} {k : Fin 13}
    (h : ∀ i, endUse x' w air power i k ≤ endUse x w air power i k) (m : ℕ) : monthUse x' w air power m k ≤ monthUse x w air power m k := by
  unfold monthUse
  refine Finset.sum_le_sum fun i _ => ?_
  split_ifs
  · exact h _
  · exact le_rfl

/-- two buildings with the same course: the printed tables differ only in the columns in which an hour takes less energy -/
theorem PrintedOrder.compare (hi : Inputs fs o file text) (hi' : Inputs fs' o' file' text) (byMonth : Bool)
    (ho : o.monthly = false ∧ o.hourlyByMonth = byMonth ∧ o.hourlyByHour = !byMonth ∧ o.compare = none)
    (ho' : o'.monthly = false ∧ o'.hourlyByMonth = byMonth ∧ o'.hourlyByHour = !byMonth ∧ o'.compare = none)
    {x x' : Sim ℝ} (hx : Describes file x) (hx' : Describes file' x') (hp : Physical x) (hs : Systems x) (ht : Timetable x.pop)
    (hp' : Physical x') (hs' : Systems x') (ht' : Timetable x'.pop) {lat lon zone : ℝ}
    {v : Fin 7 → Fin 8760 → ℝ} (hy : YearFile text lat lon zone v) (hlat : 28.1 ≤ |lat| ∧ |lat| ≤ 90) (hz : |zone| ≤ 24) (junk junk' : Params Dbl)
    (hE : ∀ mass air surface power, Evolution x (Spec.EndToEnd.yearOf lat lon zone v) mass air surface power →
      Evolution x' (Spec.EndToEnd.yearOf lat lon zone v) mass air surface power) (hf : x'.heating.energyType = x.heating.energyType)
    (columns : List (Fin 13))
    (he : ∀ air power i k, k ∉ columns → endUse x' (Spec.EndToEnd.yearOf lat lon zone v) air power i k
      = endUse x (Spec.EndToEnd.yearOf lat lon zone v) air power i k)
    (hle : ∀ air power i, ∀ k ∈ columns, endUse x' (Spec.EndToEnd.yearOf lat lon zone v) air power i k
      ≤ endUse x (Spec.EndToEnd.yearOf lat lon zone v) air power i k) :
    ∃ out out', main standard Numerals.print fs junk o = .returns [.runHourly byMonth] out ∧
      main standard Numerals.print fs' junk' o' = .returns [.runHourly byMonth] out' ∧ SameTable columns out out' ∧
      ∀ i < (if byMonth then 12 else 8760), ∀ k ∈ columns, CellAtMost i k out' out ∨ CellUndefined i k out' out := by
  obtain ⟨out, rs, h, ⟨mass, air, surface, power, e⟩, hT, hl, hv⟩ := PrintedOrder.hourly_printed hi byMonth ho hx hp hs ht hy hlat hz junk
  obtain ⟨out', rs', h', -, hT', hl', hv'⟩ := PrintedOrder.hourly_printed hi' byMonth ho' hx' hp' hs' ht' hy hlat hz junk'
  replace hv := hv _ _ _ _ e
  replace hv' := hv' _ _ _ _ (hE _ _ _ _ e)
  generalize Spec.EndToEnd.yearOf lat lon zone v = w at *
  have hh : ∀ i k, k ∉ columns → hourResult x' w air power i k = hourResult x w air power i k := by
    intro i k hk
    unfold hourResult
    rw [he _ _ _ _ hk, hf]
  have hm : ∀ i k, k ∉ columns → monthResult x' w air power i k = monthResult x w air power i k := by
    intro i k hk
    have e : monthUse x' w air power (i + 1) k = monthUse x w air power (i + 1) k := by
      unfold monthUse
      refine Finset.sum_congr rfl fun j _ => ?_
      split_ifs
      · exact he _ _ _ _ hk
      · rfl
    unfold monthResult
    rw [hf, e]
  refine ⟨out, out', h, h', Editing.same_table hT hT' (hl.trans hl'.symm) fun i hi hi' k hk => ?_, fun i hi k hk => ?_⟩
  · rw [hv i hi k, hv' i hi' k]
    cases byMonth
    · simp only [Bool.false_eq_true, if_false, hh _ _ hk]
    · simp only [if_true, hm _ _ hk]
  · have c := PrintedOrder.cell_of hT i (hl ▸ hi) k
    have c' := PrintedOrder.cell_of hT' i (hl' ▸ hi) k
    rw [hv] at c
    rw [hv'] at c'
    have nan_eq : Numerals.print 6 nan = "nan".toList := rfl
    by_cases hn : (∀ j < 8760, power j = 0) ∧ (k = 1 ∨ k = if x.heating.energyType = 1 then 0 else 9)
    · right
      cases byMonth
      · simp only [Bool.false_eq_true, if_false] at c c' hi
        rw [dif_pos hi] at c c'
        unfold hourResult at c c'
        rw [if_pos hn, nan_eq] at c
        rw [hf, if_pos hn, nan_eq] at c'
        exact ⟨c', c⟩
      · simp only [if_true] at c c'
        unfold monthResult at c c'
        rw [if_pos hn, nan_eq] at c
        rw [hf, if_pos hn, nan_eq] at c'
        exact ⟨c', c⟩
    · left
      cases byMonth
      · simp only [Bool.false_eq_true, if_false] at c c' hi
        rw [dif_pos hi] at c c'
        unfold hourResult at c c'
        rw [if_neg hn] at c
        rw [hf, if_neg hn] at c'
        exact ⟨_, _, c', c, C76_print (by norm_num) (div_le_div_of_nonneg_right (hle _ _ _ _ hk) (by norm_num))⟩
      · simp only [if_true] at c c'
        unfold monthResult at c c'
        rw [if_neg hn] at c
        rw [hf, if_neg hn] at c'
        exact ⟨_, _, c', c, C76_print (by norm_num) (div_le_div_of_nonneg_right (PrintedOrder.month_le (fun i => hle _ _ i _ hk) _) (by norm_num))⟩

/-- **C76, the boiler.** If two building files describe the same building but for the efficiency of the boiler, the hourly results of the
program for the better boiler are the same texts in all columns but those of heating, and there no cell shows a higher number (or both
show that the energy is undefined, in a year without any demand). -/
theorem C76_boiler (hi : Inputs fs o file text) (hi' : Inputs fs' o' file' text) (byMonth : Bool)
    (ho : o.monthly = false ∧ o.hourlyByMonth = byMonth ∧ o.hourlyByHour = !byMonth ∧ o.compare = none)
    (ho' : o'.monthly = false ∧ o'.hourlyByMonth = byMonth ∧ o'.hourlyByHour = !byMonth ∧ o'.compare = none)
    {x : Sim ℝ} {better : ℝ} (hx : Describes file x) (hx' : Describes file' (withBoiler x better))
    (hb : 0 < x.heating.efficiency ∧ x.heating.efficiency ≤ better) (hp : Physical x) (hs : Systems x) (ht : Timetable x.pop)
    {lat lon zone : ℝ} {v : Fin 7 → Fin 8760 → ℝ} (hy : YearFile text lat lon zone v) (hlat : 28.1 ≤ |lat| ∧ |lat| ≤ 90) (hz : |zone| ≤ 24)
    (junk junk' : Params Dbl) :
    ∃ out out', main standard Numerals.print fs junk o = .returns [.runHourly byMonth] out ∧
      main standard Numerals.print fs' junk' o' = .returns [.runHourly byMonth] out' ∧ SameTable [0, 9] out out' ∧
      ∀ i < (if byMonth then 12 else 8760), ∀ k ∈ ([0, 9] : List (Fin 13)), CellAtMost i k out' out ∨ CellUndefined i k out' out := by
  have le : ∀ power i, heatEnergy (withBoiler x better) power i ≤ heatEnergy x power i := fun power i =>
    PrintedOrder.delivered_le hs.lossHeating hs.waste (lt_of_lt_of_le (by norm_num) (le_max_right _ _)) (le_max_left _ _) hb.1 hb.2
  refine PrintedOrder.compare hi hi' byMonth ho ho' hx hx' hp hs ht ?_ ?_ ht hy hlat hz junk junk' ?_ rfl _ ?_ ?_
  · exact { hp with }
  · exact { hs with efficiency := (hb.1.trans_le hb.2).ne' }
  · exact fun _ _ _ _ e => { e with }
  · intro air power i k hk
    fin_cases k <;> first | rfl | simp at hk
  · intro air power i k hk
    simp only [List.mem_cons, List.not_mem_nil, or_false] at hk
    rcases hk with rfl | rfl
    · show (if x.heating.energyType = 1 then _ else _) ≤ if x.heating.energyType = 1 then _ else _
      split_ifs
      · exact le _ _
      · exact le_rfl
    · show (if x.heating.energyType = 1 then _ else _) ≤ if x.heating.energyType = 1 then _ else _
      split_ifs
      · exact le_rfl
      · exact le _ _

/-- **C76, the chiller.** The same for the coefficient of performance of the chiller and the column of cooling. -/
theorem C76_chiller (hi : Inputs fs o file text) (hi' : Inputs fs' o' file' text) (byMonth : Bool)
    (ho : o.monthly = false ∧ o.hourlyByMonth = byMonth ∧ o.hourlyByHour = !byMonth ∧ o.compare = none)
    (ho' : o'.monthly = false ∧ o'.hourlyByMonth = byMonth ∧ o'.hourlyByHour = !byMonth ∧ o'.compare = none)
    {x : Sim ℝ} {better : ℝ} (hx : Describes file x) (hx' : Describes file' (withChiller x better))
    (hb : 0 < x.cooling.cop ∧ x.cooling.cop ≤ better) (hp : Physical x) (hs : Systems x) (ht : Timetable x.pop)
    {lat lon zone : ℝ} {v : Fin 7 → Fin 8760 → ℝ} (hy : YearFile text lat lon zone v) (hlat : 28.1 ≤ |lat| ∧ |lat| ≤ 90) (hz : |zone| ≤ 24)
    (junk junk' : Params Dbl) :
    ∃ out out', main standard Numerals.print fs junk o = .returns [.runHourly byMonth] out ∧
      main standard Numerals.print fs' junk' o' = .returns [.runHourly byMonth] out' ∧ SameTable [1] out out' ∧
      ∀ i < (if byMonth then 12 else 8760), ∀ k ∈ ([1] : List (Fin 13)), CellAtMost i k out' out ∨ CellUndefined i k out' out := by
  refine PrintedOrder.compare hi hi' byMonth ho ho' hx hx' hp hs ht ?_ ?_ ht hy hlat hz junk junk' ?_ rfl _ ?_ ?_
  · exact { hp with }
  · exact { hs with cop := (hb.1.trans_le hb.2).ne' }
  · exact fun _ _ _ _ e => { e with }
  · intro air power i k hk
    fin_cases k <;> first | rfl | simp at hk
  · intro air power i k hk
    simp only [List.mem_cons, List.not_mem_nil, or_false] at hk
    subst hk
    exact PrintedOrder.delivered_le hs.lossCooling hs.waste (lt_of_lt_of_le (by norm_num) (le_max_right _ _)) (le_max_left _ _) hb.1 hb.2

/-! ### the monthly table -/

theorem PrintedOrder.averages_inj {a b : WeatherData ℝ} (h : a.map fin = b.map fin) : a = b := by
  cases a
  cases b
  simp only [WeatherData.map, WeatherData.mk.injEq, funext_iff, fin_inj] at h ⊢
  exact h

/-- the monthly tables of two buildings in the same weather -/
theorem PrintedOrder.monthly_compare (hi : Inputs fs o file text) (hi' : Inputs fs' o' file' text) (ho : Nothing o) (ho' : Nothing o')
    {x x' : Sim ℝ} (hx : Describes file x) (hx' : Describes file' x')
    (hsd : ∀ i, 1 ≤ x.bldg.windowShadingDevice i ∧ x.bldg.windowShadingDevice i < 4)
    (hsd' : ∀ i, 1 ≤ x'.bldg.windowShadingDevice i ∧ x'.bldg.windowShadingDevice i < 4)
    {lat lon zone : ℝ} {v : Fin 7 → Fin 8760 → ℝ} (hy : YearFile text lat lon zone v) (hs : Suitable lat zone v)
    (hord : ∀ a, Averaged (Spec.EndToEnd.yearOf lat lon zone v) a → Ordinary { x with weather := a } ∧ Equipped { x with weather := a })
    (hord' : ∀ a, Averaged (Spec.EndToEnd.yearOf lat lon zone v) a → Ordinary { x' with weather := a } ∧ Equipped { x' with weather := a })
    (junk junk' : Params Dbl) :
    ∃ out out' a r r', main standard Numerals.print fs junk o = .returns [.runMonthly] out ∧
      main standard Numerals.print fs' junk' o' = .returns [.runMonthly] out' ∧ Averaged (Spec.EndToEnd.yearOf lat lon zone v) a ∧
      Monthly.simulate (({ x with weather := a } : Sim ℝ).map fin) = some r ∧ Monthly.simulate (({ x' with weather := a } : Sim ℝ).map fin) = some r' ∧
      ∀ (m : Fin 12) (k : Fin 13),
        ((∃ (_ : m.val < r.length) (_ : m.val < r'.length), NotAbove (r'[m.val] k) (r[m.val] k)) → CellAtMost m k out' out) ∧
        ((∃ (_ : m.val < r.length) (_ : m.val < r'.length), NotAbove (r[m.val] k) (r'[m.val] k)) → CellAtMost m k out out') := by
  obtain ⟨a, r, value, hA, hav, hr, hl, -, -⟩ := EndToEnd.monthly_values hx hsd hy hs hord
  obtain ⟨a', r', value', hA', -, hr', hl', -, -⟩ := EndToEnd.monthly_values hx' hsd' hy hs hord'
  have e : a = a' := PrintedOrder.averages_inj (hA.symm.trans hA')
  subst e
  obtain ⟨out, h, hT⟩ := PrintedOrder.monthly_printed hi ho hx hy hs.zone junk hA hr
  obtain ⟨out', h', hT'⟩ := PrintedOrder.monthly_printed hi' ho' hx' hy hs.zone junk' hA hr'
  refine ⟨out, out', a, r, r', h, h', hav, hr, hr', fun m k => ⟨?_, ?_⟩⟩
  · rintro ⟨q, q', u, w, e', e, hle⟩
    have c := PrintedOrder.cell_of hT m q k
    have c' := PrintedOrder.cell_of hT' m q' k
    rw [e] at c
    rw [e'] at c'
    exact ⟨_, _, c', c, C76_print (by norm_num) hle⟩
  · rintro ⟨q, q', u, w, e, e', hle⟩
    have c := PrintedOrder.cell_of hT m q k
    have c' := PrintedOrder.cell_of hT' m q' k
    rw [e] at c
    rw [e'] at c'
    exact ⟨_, _, c, c', C76_print (by norm_num) hle⟩

/-- **C76, the thermostat.** If two building files describe the same building, but the second with lower set-points for heating, then the
monthly table that the program prints for the second shows no higher number for heating in any month in which the building loses heat at
the lower temperature. -/
theorem C76_thermostat (hi : Inputs fs o file text) (hi' : Inputs fs' o' file' text) (ho : Nothing o) (ho' : Nothing o')
    {x y : Sim ℝ} (hx : Describes file x) (hx' : Describes file' (takeSetPoints x y))
    (h1 : y.heating.temperatureSetPointOccupied ≤ x.heating.temperatureSetPointOccupied)
    (h2 : y.heating.temperatureSetPointUnoccupied ≤ x.heating.temperatureSetPointUnoccupied)
    (hsd : ∀ i, 1 ≤ x.bldg.windowShadingDevice i ∧ x.bldg.windowShadingDevice i < 4) (hS : Sensible x) (hu : Unmixed x)
    (hw : ∀ i, 0 ≤ x.bldg.wallUniform i) (hg : ∀ i, 0 ≤ x.bldg.windowUniform i)
    {lat lon zone : ℝ} {v : Fin 7 → Fin 8760 → ℝ} (hy : YearFile text lat lon zone v) (hs : Suitable lat zone v)
    (hord : ∀ a, Averaged (Spec.EndToEnd.yearOf lat lon zone v) a → Ordinary { x with weather := a } ∧ Equipped { x with weather := a })
    (hord' : ∀ a, Averaged (Spec.EndToEnd.yearOf lat lon zone v) a →
      Ordinary { takeSetPoints x y with weather := a } ∧ Equipped { takeSetPoints x y with weather := a }) (junk junk' : Params Dbl) :
    ∃ out out' a, main standard Numerals.print fs junk o = .returns [.runMonthly] out ∧
      main standard Numerals.print fs' junk' o' = .returns [.runMonthly] out' ∧ Averaged (Spec.EndToEnd.yearOf lat lon zone v) a ∧
      ∀ m : Fin 12, 0 < monthLoss { x with weather := a } (heatedTo { takeSetPoints x y with weather := a } m) m →
        CellAtMost m 0 out' out ∧ CellAtMost m 9 out' out := by
  obtain ⟨out, out', a, r, r', h, h', hA, hr, hr', hc⟩ := PrintedOrder.monthly_compare hi hi' ho ho' hx hx' hsd hsd hy hs hord hord' junk junk'
  refine ⟨out, out', a, h, h', hA, fun m hl => ?_⟩
  obtain ⟨q, q', n0, n9⟩ := C71_heating { x with weather := a } y (hord a hA).1 (hord' a hA).1 { hS with } { hu with } hw hg h1 h2 r r' hr hr' m hl
  exact ⟨(hc m 0).1 ⟨q, q', n0⟩, (hc m 9).1 ⟨q, q', n9⟩⟩

/-- **C76, the thermostat in summer.** The same for higher set-points for cooling, in every month. -/
theorem C76_cooling (hi : Inputs fs o file text) (hi' : Inputs fs' o' file' text) (ho : Nothing o) (ho' : Nothing o')
    {x y : Sim ℝ} (hx : Describes file x) (hx' : Describes file' (takeSetPoints x y))
    (h1 : y.heating.temperatureSetPointOccupied = x.heating.temperatureSetPointOccupied)
    (h2 : x.cooling.temperatureSetPointOccupied ≤ y.cooling.temperatureSetPointOccupied)
    (h3 : x.cooling.temperatureSetPointUnoccupied ≤ y.cooling.temperatureSetPointUnoccupied)
    (hsd : ∀ i, 1 ≤ x.bldg.windowShadingDevice i ∧ x.bldg.windowShadingDevice i < 4) (hS : Sensible x) (hu : Unmixed x)
    (hw : ∀ i, 0 ≤ x.bldg.wallUniform i) (hg : ∀ i, 0 ≤ x.bldg.windowUniform i)
    {lat lon zone : ℝ} {v : Fin 7 → Fin 8760 → ℝ} (hy : YearFile text lat lon zone v) (hs : Suitable lat zone v)
    (hord : ∀ a, Averaged (Spec.EndToEnd.yearOf lat lon zone v) a → Ordinary { x with weather := a } ∧ Equipped { x with weather := a })
    (hord' : ∀ a, Averaged (Spec.EndToEnd.yearOf lat lon zone v) a →
      Ordinary { takeSetPoints x y with weather := a } ∧ Equipped { takeSetPoints x y with weather := a }) (junk junk' : Params Dbl) :
    ∃ out out', main standard Numerals.print fs junk o = .returns [.runMonthly] out ∧
      main standard Numerals.print fs' junk' o' = .returns [.runMonthly] out' ∧
      ∀ m : Fin 12, CellAtMost m 1 out' out ∧ CellAtMost m 10 out' out := by
  obtain ⟨out, out', a, r, r', h, h', hA, hr, hr', hc⟩ := PrintedOrder.monthly_compare hi hi' ho ho' hx hx' hsd hsd hy hs hord hord' junk junk'
  refine ⟨out, out', h, h', fun m => ?_⟩
  obtain ⟨q, q', n0, n9⟩ := C71_cooling { x with weather := a } y (hord a hA).1 (hord' a hA).1 { hS with } { hu with } hw hg h1 h2 h3 r r' hr hr' m
  exact ⟨(hc m 1).1 ⟨q, q', n0⟩, (hc m 10).1 ⟨q, q', n9⟩⟩

/-- **C76, the envelope.** If the second file describes the building with better insulation, less leakage or better heat recovery, then
its monthly table shows no higher number for heating in any month in which the building loses heat and no wall is warmed by the sun above
the temperature inside. -/
theorem C76_envelope (hi : Inputs fs o file text) (hi' : Inputs fs' o' file' text) (ho : Nothing o) (ho' : Nothing o')
    {x y : Sim ℝ} (hx : Describes file x) (hx' : Describes file' (takeEnvelope x y)) (hb : BetterEnvelope x y)
    (hsd : ∀ i, 1 ≤ x.bldg.windowShadingDevice i ∧ x.bldg.windowShadingDevice i < 4) (hst : SteadyTemperatures x) (hS : Sensible x) (hu : Unmixed x)
    {lat lon zone : ℝ} {v : Fin 7 → Fin 8760 → ℝ} (hy : YearFile text lat lon zone v) (hs : Suitable lat zone v)
    (hord : ∀ a, Averaged (Spec.EndToEnd.yearOf lat lon zone v) a → Ordinary { x with weather := a } ∧ Equipped { x with weather := a })
    (hord' : ∀ a, Averaged (Spec.EndToEnd.yearOf lat lon zone v) a →
      Ordinary { takeEnvelope x y with weather := a } ∧ Equipped { takeEnvelope x y with weather := a }) (junk junk' : Params Dbl) :
    ∃ out out' a, main standard Numerals.print fs junk o = .returns [.runMonthly] out ∧
      main standard Numerals.print fs' junk' o' = .returns [.runMonthly] out' ∧ Averaged (Spec.EndToEnd.yearOf lat lon zone v) a ∧
      ∀ m : Fin 12, ColdWalls { x with weather := a } m → 0 < monthLoss { takeEnvelope x y with weather := a } (heatTo x) m →
        CellAtMost m 0 out' out ∧ CellAtMost m 9 out' out := by
  obtain ⟨out, out', a, r, r', h, h', hA, hr, hr', hc⟩ := PrintedOrder.monthly_compare hi hi' ho ho' hx hx' hsd hsd hy hs hord hord' junk junk'
  refine ⟨out, out', a, h, h', hA, fun m hcw hl => ?_⟩
  obtain ⟨q, q', n0, n9⟩ := C69_envelope { x with weather := a } y (hord a hA).1 (hord' a hA).1 { hst with } { hS with } { hu with } { hb with } r r' hr hr' m
    hcw hl
  exact ⟨(hc m 0).1 ⟨q, q', n0⟩, (hc m 9).1 ⟨q, q', n9⟩⟩

end ISO.Props
