import Verif.Lemmas.Editing
import Verif.Props.EndToEnd
import Verif.Props.EffectsInside

/-! # C75: what an edit of the building file changes in the printed tables -/

namespace ISO.Props
open ISO ISO.Numerals ISO.Spec ISO.Spec.Text ISO.Spec.Whole ISO.User ISO.CommandLine ISO.Epw ISO.Lemmas ISO.Lemmas.Editing Dbl
open ISO.Spec.EndToEnd (Inputs)
open EndToEnd
open ISO.Spec.Editing (monthlyGroups hourlyGroups monthlyKinds hourlyKinds Edited SameTable cell)

namespace Editing

/-- two tables of results that agree in all columns but the given ones -/
theorem same_table {text text' title first : Str} {P : ℕ} {rs rs' : List (Fin 13 → Dbl)} {columns : List (Fin 13)}
    (h : readTable ',' text = resultTable (Numerals.print P) title first rs)
    (h' : readTable ',' text' = resultTable (Numerals.print P) title first rs') (hl : rs.length = rs'.length)
    (hr : ∀ i (hi : i < rs.length) (hi' : i < rs'.length) (k : Fin 13), k ∉ columns → rs[i] k = rs'[i] k) : SameTable columns text text' := by
  have row : ∀ (t : Str) (l : List (Fin 13 → Dbl)) (_ : readTable ',' t = resultTable (Numerals.print P) title first l) (i j : ℕ),
      cell t (i + 2) j = if hi : i < l.length then ((Nat.repr (i + 1)).toList :: List.ofFn fun k => Numerals.print P (l[i] k))[j]? else none := by
    intro t l e i j
    unfold cell
    rw [e]
    unfold resultTable
    by_cases hi : i < l.length
    · rw [dif_pos hi]
      simp [hi]
    · rw [dif_neg hi]
      simp [List.getElem?_eq_none (by simpa using hi : l.zipIdx.length ≤ i)]
  have top : ∀ j, cell text' 0 j = cell text 0 j ∧ cell text' 1 j = cell text 1 j := by
    intro j
    unfold cell
    rw [h, h']
    exact ⟨rfl, rfl⟩
  refine ⟨by rw [h, h']; simp [resultTable, hl], top, fun i => ?_, fun i k hk => ?_, fun i j hj => ?_⟩
  · rcases i with _ | _ | i
    · exact (top 0).1
    · exact (top 0).2
    · rw [row text rs h, row text' rs' h']
      by_cases hi : i < rs.length
      · rw [dif_pos hi, dif_pos (hl ▸ hi)]
        rfl
      · rw [dif_neg hi, dif_neg (hl ▸ hi)]
  · rcases i with _ | _ | i
    · exact (top _).1
    · exact (top _).2
    · rw [row text rs h, row text' rs' h']
      by_cases hi : i < rs.length
      · rw [dif_pos hi, dif_pos (hl ▸ hi), List.getElem?_cons_succ, List.getElem?_cons_succ, List.getElem?_ofFn, List.getElem?_ofFn,
          dif_pos k.2, dif_pos k.2, hr i hi (hl ▸ hi) k hk]
      · rw [dif_neg hi, dif_neg (hl ▸ hi)]
  · have short : ∀ (t : Str) (l : List (Fin 13 → Dbl)) (_ : readTable ',' t = resultTable (Numerals.print P) title first l), cell t i j = none := by
      intro t l e
      rcases i with _ | _ | i
      · unfold cell
        rw [e]
        exact List.getElem?_eq_none (show 1 ≤ j by omega)
      · unfold cell
        rw [e]
        exact List.getElem?_eq_none (show 14 ≤ j by omega)
      · rw [row t l e]
        split_ifs with hi
        · exact List.getElem?_eq_none (by simp; omega)
        · rfl
    exact ⟨short text' rs' h', short text rs h⟩

/-- what a program that has read its files does with one action -/
theorem returns_one {fs : FileSystem} {junk : Params Dbl} {o : Options} {u : UserModel Dbl} (hu : loadFor standard fs junk o = .ok u) {a : Action}
    (ha : actions o = [a]) {acts : List Action} {out : Str} (h : main standard Numerals.print fs junk o = .returns acts out) :
    ∃ t, act Numerals.print u (Out.start.put (loadText fs o u)) a = .ok t := by
  unfold main at h
  rw [hu, ha] at h
  simp only [perform] at h
  cases e : act Numerals.print u (Out.start.put (loadText fs o u)) a with
  | ok t => exact ⟨t, rfl⟩
  | nullPointer => rw [e] at h; simp at h
  | undefined => rw [e] at h; simp at h

end Editing
open Editing

variable {fs fs' : FileSystem} {o o' : Options} {file file' : Properties.Store} {text : Str}

/-- what the program has after reading its files -/
theorem Editing.read (hi : Inputs fs o file text) {lat lon zone : ℝ} {v : Fin 7 → Fin 8760 → ℝ}
    (hy : YearFile text lat lon zone v) (hz : |zone| ≤ 24) (junk : Params Dbl) (w : Epw.Weather Dbl)
    (hw : w = (Spec.EndToEnd.yearOf lat lon zone v).map fin) :
    ∃ u, loadFor standard fs junk o = .ok u ∧ Found fs o u ∧
      (∀ rs, monthlyResults u = .ok rs ↔
        Monthly.simulate (simOf (Param.stored stod file (newObject junk)) (siteAverages standard w)) = some rs) ∧
      ∀ byMonth rs averages, hourlyResults u byMonth = .ok rs ↔ ∃ after,
        Hourly.simulate byMonth ⟨simOf (Param.stored stod file (newObject junk)) averages, w, Hourly.Pushed.empty⟩ = some (after, rs) := by
  subst hw
  obtain ⟨path, weather, hp, hW, hread⟩ := hi.weather
  have hw := file_year hy hz
  rw [← hread] at hw
  exact C52_results standard C60_library.1 fs junk o hi.building hi.defaults file hi.parameters hi.accepted path weather hp hW _ hw

theorem Editing.same_results {columns : List (Fin 13)} (r : Option (List (Fin 13 → Dbl))) : SameExcept columns r r := by
  cases r with
  | none => trivial
  | some r => exact ⟨rfl, fun _ _ _ _ _ => rfl⟩

/-- a building file that is accepted has one of the three kinds of energy management -/
theorem Editing.managed (h : ∀ r ∈ Param.table, Param.judge stod file r = .accepted) (u : Params Dbl) (w : WeatherData Dbl) :
    (Monthly.managementShift (simOf (Param.stored stod file u) w).building.buildingEnergyManagement).isSome = true := by
  have hj := h ⟨"bemtype", .keyword ["none", "simple", "advanced"], true⟩ (by decide +kernel)
  have e : (simOf (Param.stored stod file u) w).building.buildingEnergyManagement =
      (Param.code file "bemtype" [("none", (1.0 : Dbl)), ("simple", 2.0), ("advanced", 3.0)]).getD u.building.buildingEnergyManagement := rfl
  have known : ∀ n : ℕ, n < 4 → ∀ d : Dbl, d = fin n → (Monthly.managementShift d).isSome = true := by
    intro n hn d hd
    subst hd
    have hc : CNum.cint (fin (n : ℝ)) = some (n : ℤ) := by
      show cintR (n : ℝ) = _
      unfold cintR
      have ht : truncR (n : ℝ) = n := by
        unfold truncR
        rw [if_pos (by positivity)]
        exact Int.floor_natCast n
      rw [ht, if_pos ⟨by push_cast; linarith [show (0:ℝ) ≤ n by positivity], by push_cast; linarith [show (n:ℝ) < 4 by exact_mod_cast hn]⟩]
    unfold Monthly.managementShift
    rw [hc]
    rcases n with _ | _ | _ | _ | n <;> first | rfl | omega
  rw [e]
  unfold Param.judge at hj
  simp only at hj
  unfold Param.code
  cases hg : Param.given file "bemtype" with
  | none => rw [hg] at hj; simp at hj
  | some t =>
    rw [hg] at hj
    simp only [Option.bind_some, List.find?]
    by_cases h1 : lower t = "none".toList
    · simp only [h1, decide_true, Option.map_some, Option.getD_some]
      exact known 1 (by norm_num) _ (by rw [fin_lit]; norm_num)
    · by_cases h2 : lower t = "simple".toList
      · simp only [h2, show decide ("simple".toList = "none".toList) = false by decide +kernel, decide_true, Option.map_some, Option.getD_some]
        exact known 2 (by norm_num) _ (by rw [fin_lit]; norm_num)
      · by_cases h3 : lower t = "advanced".toList
        · simp only [h3, show decide ("advanced".toList = "none".toList) = false by decide +kernel,
            show decide ("advanced".toList = "simple".toList) = false by decide +kernel, decide_true, Option.map_some, Option.getD_some]
          exact known 3 (by norm_num) _ (by rw [fin_lit]; norm_num)
        · exfalso
          have hn : ¬ lower t ∈ List.map String.toList ["none", "simple", "advanced"] := by
            rw [List.map_cons, List.map_cons, List.map_cons, List.map_nil, List.mem_cons, List.mem_cons, List.mem_cons]
            rintro (h | h | h | h)
            · exact h1 h
            · exact h2 h
            · exact h3 h
            · cases h
          simp only [if_neg hn] at hj
          cases hj

/-- the monthly simulation before and after an edit -/
theorem Editing.monthly_same {names : List String} {columns : List (Fin 13)} (hg : (names, columns) ∈ monthlyGroups) (he : Edited names file file')
    (ha : ∀ r ∈ Param.table, Param.judge stod file r = .accepted) (ha' : ∀ r ∈ Param.table, Param.judge stod file' r = .accepted)
    (u : Params Dbl) (w : WeatherData Dbl) :
    SameExcept columns (Monthly.simulate (simOf (Param.stored stod file u) w)) (Monthly.simulate (simOf (Param.stored stod file' u) w)) := by
  simp only [monthlyGroups, List.mem_cons, List.not_mem_nil, or_false, Prod.mk.injEq] at hg
  rcases hg with ⟨rfl, rfl⟩ | ⟨rfl, rfl⟩ | ⟨rfl, rfl⟩ | ⟨rfl, rfl⟩ | ⟨rfl, rfl⟩ | ⟨rfl, rfl⟩ | ⟨rfl, rfl⟩ | ⟨rfl, rfl⟩ | ⟨rfl, rfl⟩ |
    ⟨rfl, rfl⟩ | ⟨rfl, rfl⟩ | ⟨rfl, rfl⟩ | ⟨rfl, rfl⟩ | ⟨rfl, rfl⟩ | ⟨rfl, rfl⟩ | ⟨rfl, rfl⟩
  · rw [edit_HotWater he]; exact C56_hotWater _ _
  · rw [edit_HeatingSystem he]; exact C56_heatingSystem _ _
  · rw [edit_CoolingSystem he]; exact C56_coolingSystem _ _
  · rw [edit_Distribution he]; exact C56_distribution _ _
  · rw [edit_Pumps he]; exact C56_pumps _ _
  · rw [edit_HourlyOnly he]; exact C56_hourlyOnly _ _
  · rw [edit_ExteriorLights he]; exact C56_exteriorLights _ _
  · rw [edit_Fans he]; exact C56_fans _ _
  · rw [edit_Comfort he]; exact C56_comfort _ _
  · rw [edit_InteriorLights he]; exact C56_interiorLights _ _
  · rw [edit_ElectricAppliances he]; exact C56_electricAppliances _ _
  · rw [edit_GasAppliances he]; exact C56_gasAppliances _ _
  · rw [edit_Occupancy he]; exact C56_occupancy _ _
  · rw [edit_Floor he]; exact C56_floor _ _
  · rw [edit_WeatherFile he]; exact same_results _
  · have m := (managed ha' u w).trans (managed ha u w).symm
    rw [edit_Management he] at m ⊢
    exact C56_management _ _ (monthly_isSome rfl rfl m)

/-- the hourly simulation before and after an edit -/
theorem Editing.hourly_same {names : List String} {columns : List (Fin 13)} (hg : (names, columns) ∈ hourlyGroups) (he : Edited names file file')
    (u : Params Dbl) (a : WeatherData Dbl) (w : Epw.Weather Dbl) (p : Hourly.Pushed Dbl) (agg : Bool) :
    SameExcept columns ((Hourly.simulate agg ⟨simOf (Param.stored stod file u) a, w, p⟩).map Prod.snd)
      ((Hourly.simulate agg ⟨simOf (Param.stored stod file' u) a, w, p⟩).map Prod.snd) := by
  simp only [hourlyGroups, List.mem_cons, List.not_mem_nil, or_false, Prod.mk.injEq] at hg
  rcases hg with ⟨rfl, rfl⟩ | ⟨rfl, rfl⟩ | ⟨rfl, rfl⟩ | ⟨rfl, rfl⟩ | ⟨rfl, rfl⟩ | ⟨rfl, rfl⟩ | ⟨rfl, rfl⟩ | ⟨rfl, rfl⟩ | ⟨rfl, rfl⟩ | ⟨rfl, rfl⟩ | ⟨rfl, rfl⟩ |
    ⟨rfl, rfl⟩ | ⟨rfl, rfl⟩ | ⟨rfl, rfl⟩
  · rw [edit_ExteriorLights he]; exact C56_hourly_exteriorLights _ _ _ _ _
  · rw [edit_ExteriorEquipment he]; exact C56_hourly_exteriorEquipment _ _ _ _ _
  · rw [edit_HeatingSystem he]; exact C56_hourly_heatingSystem _ _ _ _ _
  · rw [edit_CoolingSystem he]; exact C56_hourly_coolingSystem _ _ _ _ _
  · rw [edit_Distribution he]; exact C56_hourly_distribution _ _ _ _ _
  · rw [edit_Fans he]; exact C56_hourly_fans _ _ _ _ _
  · rw [edit_Pumps he]; exact C56_hourly_pumps _ _ _ _ _
  · rw [edit_MonthlyOnly he]; exact C56_hourly_monthlyOnly _ _ _ _ _
  · rw [edit_Climate he]; exact C56_hourly_climate _ _ _ _ _
  · rw [edit_InteriorLights he]; exact C56_hourly_interiorLights _ _ _ _ _
  · rw [edit_ElectricAppliances he]; exact C56_hourly_electricAppliances _ _ _ _ _
  · rw [edit_Windows he]; exact C56_hourly_windows _ _ _ _ _
  · rw [edit_Floor he]; exact C56_hourly_floor _ _ _ _ _
  · rw [edit_WeatherFile he]; exact same_results _

/-- two runs with one table of the monthly simulation each: from the results to the printed tables -/
theorem Editing.monthly_tables {text' : Str} {columns : List (Fin 13)} (hi : Inputs fs o file text) (hi' : Inputs fs' o' file' text')
    (ho : Nothing o) (ho' : Nothing o') {lat lon zone lat' lon' zone' : ℝ} {v v' : Fin 7 → Fin 8760 → ℝ}
    (hy : YearFile text lat lon zone v) (hz : |zone| ≤ 24) (hy' : YearFile text' lat' lon' zone' v') (hz' : |zone'| ≤ 24)
    (junk junk' : Params Dbl) {w w' : Epw.Weather Dbl} (hw : w = (Spec.EndToEnd.yearOf lat lon zone v).map fin)
    (hw' : w' = (Spec.EndToEnd.yearOf lat' lon' zone' v').map fin)
    (same : SameExcept columns (Monthly.simulate (simOf (Param.stored stod file (newObject junk)) (siteAverages standard w)))
      (Monthly.simulate (simOf (Param.stored stod file' (newObject junk)) (siteAverages standard w'))))
    {acts : List Action} {out : Str} (h : main standard Numerals.print fs junk o = .returns acts out) :
    ∃ out', main standard Numerals.print fs' junk' o' = .returns acts out' ∧ SameTable columns out out' := by
  obtain ⟨u, hu, hf, hm, -⟩ := Editing.read hi hy hz junk w hw
  obtain ⟨u', hu', hf', hm', -⟩ := Editing.read hi' hy' hz' junk' w' hw'
  rw [stored_new hi'.accepted junk' junk] at hm'
  have hact : ∀ {p : Options}, Nothing p → actions p = [.runMonthly] := by
    rintro ⟨ism, d, m, hm, hh, c⟩ ⟨o1, o2, o3, o4⟩
    simp only at o1 o2 o3 o4
    subst o1 o2 o3 o4
    rfl
  obtain ⟨rs, hrs⟩ : ∃ rs, monthlyResults u = .ok rs := by
    obtain ⟨t, ht⟩ := returns_one hu (hact ho) h
    simp only [act, runMonthlySimulation] at ht
    cases e : monthlyResults u with
    | ok rs => exact ⟨rs, rfl⟩
    | nullPointer => rw [e] at ht; simp [Step.bind] at ht
    | undefined => rw [e] at ht; simp [Step.bind] at ht
  rw [(hm rs).mp hrs] at same
  obtain ⟨rs', hrs', hl, hc⟩ : ∃ rs', Monthly.simulate (simOf (Param.stored stod file' (newObject junk)) (siteAverages standard w')) = some rs' ∧
      rs.length = rs'.length ∧ ∀ i (h : i < rs.length) (h' : i < rs'.length) (k : Fin 13), k ∉ columns → rs[i] k = rs'[i] k := by
    cases e : Monthly.simulate (simOf (Param.stored stod file' (newObject junk)) (siteAverages standard w')) with
    | none => rw [e] at same; exact absurd same (by simp [SameExcept])
    | some rs' => rw [e] at same; exact ⟨rs', rfl, same⟩
  have table : ∀ {fs : FileSystem} {o : Options} {junk : Params Dbl} {u : UserModel Dbl} {rs : List (Fin 13 → Dbl)}, Nothing o →
      loadFor standard fs junk o = .ok u → Found fs o u → monthlyResults u = .ok rs →
      ∃ t, main standard Numerals.print fs junk o = .returns [.runMonthly] t ∧
        readTable ',' t = resultTable (Numerals.print 10) "Monthly Results:".toList "Month".toList rs := by
    intro fs o junk u rs ho hu hf hrs
    have ha := hact ho
    obtain ⟨o1, o2, o3, o4⟩ := ho
    obtain ⟨t1, t2, t3, t4, k, -, -, -, h1, h2, -, -, h3, -, h4⟩ := C51_program standard C60_library.1 Numerals.print C60_library.2 fs junk o u hu hf
      rs rs rs (fun _ => hrs) (fun h => by simp [o2, o4] at h) (fun h => by simp [o3] at h)
    have e1 := h1 o4
    have e3 := h3 (by simp [o2])
    have e4 := h4 (by simp [o3])
    rw [e1, e3, e4, List.nil_append, List.append_nil, List.append_nil, ha] at k
    exact ⟨t2, k, h2 (Or.inr ⟨o1, o2, o3, o4⟩)⟩
  obtain ⟨t, ht, hT⟩ := table ho hu hf hrs
  obtain ⟨t', ht', hT'⟩ := table ho' hu' hf' ((hm' rs').mpr hrs')
  rw [ht] at h
  injection h with h1 h2
  subst h1 h2
  exact ⟨t', ht', same_table hT hT' hl hc⟩

/-- the same for the tables of the hourly simulation -/
theorem Editing.hourly_tables {text' : Str} {columns : List (Fin 13)} (hi : Inputs fs o file text) (hi' : Inputs fs' o' file' text')
    (byMonth : Bool)
    (ho : o.monthly = false ∧ o.hourlyByMonth = byMonth ∧ o.hourlyByHour = !byMonth ∧ o.compare = none)
    (ho' : o'.monthly = false ∧ o'.hourlyByMonth = byMonth ∧ o'.hourlyByHour = !byMonth ∧ o'.compare = none)
    {lat lon zone lat' lon' zone' : ℝ} {v v' : Fin 7 → Fin 8760 → ℝ}
    (hy : YearFile text lat lon zone v) (hz : |zone| ≤ 24) (hy' : YearFile text' lat' lon' zone' v') (hz' : |zone'| ≤ 24)
    (junk junk' : Params Dbl) {w w' : Epw.Weather Dbl} (hw : w = (Spec.EndToEnd.yearOf lat lon zone v).map fin)
    (hw' : w' = (Spec.EndToEnd.yearOf lat' lon' zone' v').map fin)
    (same : SameExcept columns
      ((Hourly.simulate byMonth ⟨simOf (Param.stored stod file (newObject junk)) noAverages, w, Hourly.Pushed.empty⟩).map Prod.snd)
      ((Hourly.simulate byMonth ⟨simOf (Param.stored stod file' (newObject junk)) noAverages, w', Hourly.Pushed.empty⟩).map Prod.snd))
    {acts : List Action} {out : Str} (h : main standard Numerals.print fs junk o = .returns acts out) :
    ∃ out', main standard Numerals.print fs' junk' o' = .returns acts out' ∧ SameTable columns out out' := by
  obtain ⟨u, hu, hf, -, hm⟩ := Editing.read hi hy hz junk w hw
  obtain ⟨u', hu', hf', -, hm'⟩ := Editing.read hi' hy' hz' junk' w' hw'
  rw [stored_new hi'.accepted junk' junk] at hm'
  have hact : ∀ {p : Options}, p.monthly = false ∧ p.hourlyByMonth = byMonth ∧ p.hourlyByHour = !byMonth ∧ p.compare = none →
      actions p = [.runHourly byMonth] := by
    rintro ⟨ism, d, m, hm, hh, c⟩ ⟨o1, o2, o3, o4⟩
    simp only at o1 o2 o3 o4
    subst o1 o2 o3 o4
    cases hm <;> rfl
  obtain ⟨rs, hrs⟩ : ∃ rs, hourlyResults u byMonth = .ok rs := by
    obtain ⟨t, ht⟩ := returns_one hu (hact ho) h
    simp only [act, runHourlySimulation] at ht
    cases e : hourlyResults u byMonth with
    | ok rs => exact ⟨rs, rfl⟩
    | nullPointer => rw [e] at ht; simp [Step.bind] at ht
    | undefined => rw [e] at ht; simp [Step.bind] at ht
  obtain ⟨after, ha⟩ := (hm byMonth rs noAverages).mp hrs
  rw [ha, Option.map_some] at same
  obtain ⟨after', rs', hrs', hl, hc⟩ : ∃ after' rs', Hourly.simulate byMonth ⟨simOf (Param.stored stod file' (newObject junk)) noAverages, w',
        Hourly.Pushed.empty⟩ = some (after', rs') ∧
      rs.length = rs'.length ∧ ∀ i (h : i < rs.length) (h' : i < rs'.length) (k : Fin 13), k ∉ columns → rs[i] k = rs'[i] k := by
    cases e : Hourly.simulate byMonth ⟨simOf (Param.stored stod file' (newObject junk)) noAverages, w', Hourly.Pushed.empty⟩ with
    | none => rw [e] at same; exact absurd same (by simp [SameExcept])
    | some p => rw [e] at same; exact ⟨p.1, p.2, rfl, same⟩
  have table : ∀ {fs : FileSystem} {o : Options} {junk : Params Dbl} {u : UserModel Dbl} {rs : List (Fin 13 → Dbl)},
      o.monthly = false ∧ o.hourlyByMonth = byMonth ∧ o.hourlyByHour = !byMonth ∧ o.compare = none →
      loadFor standard fs junk o = .ok u → Found fs o u → hourlyResults u byMonth = .ok rs →
      ∃ t, main standard Numerals.print fs junk o = .returns [.runHourly byMonth] t ∧
        readTable ',' t = resultTable (Numerals.print 6) (if byMonth then "Hourly results by month:".toList else "Hourly results by hour:".toList)
          (if byMonth then "month".toList else "hour".toList) rs := by
    intro fs o junk u rs ho hu hf hrs
    have ha := hact ho
    obtain ⟨o1, o2, o3, o4⟩ := ho
    cases byMonth
    · obtain ⟨t1, t2, t3, t4, k, -, -, -, h1, -, h2, -, h3, h4, -⟩ := C51_program standard C60_library.1 Numerals.print C60_library.2 fs junk o u hu hf
        rs rs rs (fun h => by simp [Nothing, o1, o3, o4] at h) (fun h => by simp [o2, o4] at h) (fun _ => hrs)
      have e1 := h1 o4
      have e2 := h2 (by simp [Nothing, o1, o3])
      have e3 := h3 (by simp [o2])
      have e4 := h4 o3
      rw [o1, if_neg (by simp)] at e4
      rw [e1, e2, e3, List.nil_append, List.nil_append, List.nil_append, ha] at k
      exact ⟨t4, k, e4⟩
    · obtain ⟨t1, t2, t3, t4, k, -, -, -, h1, -, h2, h3, -, -, h4⟩ := C51_program standard C60_library.1 Numerals.print C60_library.2 fs junk o u hu hf
        rs rs rs (fun h => by simp [Nothing, o1, o2, o4] at h) (fun _ => hrs) (fun h => by simp [o3] at h)
      have e1 := h1 o4
      have e2 := h2 (by simp [Nothing, o1, o2])
      have e3 := h3 o2
      have e4 := h4 (by simp [o3])
      rw [o1, if_neg (by simp)] at e3
      rw [e1, e2, e4, List.nil_append, List.nil_append, List.append_nil, ha] at k
      exact ⟨t3, k, e3⟩
  obtain ⟨t, ht, hT⟩ := table ho hu hf hrs
  obtain ⟨t', ht', hT'⟩ := table ho' hu' hf' ((hm' byMonth rs' noAverages).mpr ⟨_, hrs'⟩)
  rw [ht] at h
  injection h with h1 h2
  subst h1 h2
  exact ⟨t', ht', same_table hT hT' hl hc⟩

/-- **C75, the monthly table.** If two building files give all parameters alike but for those of one group, and the weather is the same,
then the program prints for both a table with the same lines, and all cells are the same text but for those in the columns the group
belongs to. -/
theorem C75_monthly {names : List String} {columns : List (Fin 13)} (hg : (names, columns) ∈ monthlyGroups)
    (hi : Inputs fs o file text) (hi' : Inputs fs' o' file' text) (he : Edited names file file') (ho : Nothing o) (ho' : Nothing o')
    {lat lon zone : ℝ} {v : Fin 7 → Fin 8760 → ℝ} (hy : YearFile text lat lon zone v) (hz : |zone| ≤ 24) (junk junk' : Params Dbl)
    {acts : List Action} {out : Str} (h : main standard Numerals.print fs junk o = .returns acts out) :
    ∃ out', main standard Numerals.print fs' junk' o' = .returns acts out' ∧ SameTable columns out out' := by
  exact monthly_tables hi hi' ho ho' hy hz hy hz junk junk' rfl rfl (monthly_same hg he hi.accepted hi'.accepted _ _) h

/-- **C75, the hourly tables.** The same for the tables of the hourly simulation, by month and by hour. -/
theorem C75_hourly {names : List String} {columns : List (Fin 13)} (hg : (names, columns) ∈ hourlyGroups)
    (hi : Inputs fs o file text) (hi' : Inputs fs' o' file' text) (he : Edited names file file') (byMonth : Bool)
    (ho : o.monthly = false ∧ o.hourlyByMonth = byMonth ∧ o.hourlyByHour = !byMonth ∧ o.compare = none)
    (ho' : o'.monthly = false ∧ o'.hourlyByMonth = byMonth ∧ o'.hourlyByHour = !byMonth ∧ o'.compare = none)
    {lat lon zone : ℝ} {v : Fin 7 → Fin 8760 → ℝ} (hy : YearFile text lat lon zone v) (hz : |zone| ≤ 24) (junk junk' : Params Dbl)
    {acts : List Action} {out : Str} (h : main standard Numerals.print fs junk o = .returns acts out) :
    ∃ out', main standard Numerals.print fs' junk' o' = .returns acts out' ∧ SameTable columns out out' := by
  exact hourly_tables hi hi' byMonth ho ho' hy hz hy hz junk junk' rfl rfl (hourly_same hg he _ _ _ _ _) h

/-- a run that comes to its end has results -/
theorem Editing.monthly_ran (hi : Inputs fs o file text) (ho : Nothing o) {lat lon zone : ℝ} {v : Fin 7 → Fin 8760 → ℝ}
    (hy : YearFile text lat lon zone v) (hz : |zone| ≤ 24) (junk k : Params Dbl) {acts : List Action} {out : Str}
    (h : main standard Numerals.print fs k o = .returns acts out) :
    (Monthly.simulate (simOf (Param.stored stod file (newObject junk))
      (siteAverages standard ((Spec.EndToEnd.yearOf lat lon zone v).map fin)))).isSome = true := by
  have ha : actions o = [.runMonthly] := by
    revert ho
    rcases o with ⟨ism, d, m, hm, hh, c⟩
    rintro ⟨o1, o2, o3, o4⟩
    simp only at o1 o2 o3 o4
    subst o1 o2 o3 o4
    rfl
  obtain ⟨u, hu, -, hm, -⟩ := Editing.read hi hy hz k _ rfl
  rw [stored_new hi.accepted k junk] at hm
  obtain ⟨t, ht⟩ := Editing.returns_one hu ha h
  simp only [act, runMonthlySimulation] at ht
  cases e : monthlyResults u with
  | ok rs => rw [(hm rs).mp e]; rfl
  | nullPointer => rw [e] at ht; simp [Step.bind] at ht
  | undefined => rw [e] at ht; simp [Step.bind] at ht

/-- the same for the hourly simulation -/
theorem Editing.hourly_ran (hi : Inputs fs o file text) (byMonth : Bool)
    (ho : o.monthly = false ∧ o.hourlyByMonth = byMonth ∧ o.hourlyByHour = !byMonth ∧ o.compare = none) {lat lon zone : ℝ}
    {v : Fin 7 → Fin 8760 → ℝ} (hy : YearFile text lat lon zone v) (hz : |zone| ≤ 24) (junk k : Params Dbl) {acts : List Action} {out : Str}
    (h : main standard Numerals.print fs k o = .returns acts out) :
    (Hourly.window (simOf (Param.stored stod file (newObject junk)) noAverages).pop).isSome = true := by
  have ha : actions o = [.runHourly byMonth] := by
    revert ho
    rcases o with ⟨ism, d, m, hm, hh, c⟩
    rintro ⟨o1, o2, o3, o4⟩
    simp only at o1 o2 o3 o4
    subst o1 o2 o3 o4
    cases hm <;> rfl
  obtain ⟨u, hu, -, -, hm⟩ := Editing.read hi hy hz k _ rfl
  rw [stored_new hi.accepted k junk] at hm
  obtain ⟨t, ht⟩ := Editing.returns_one hu ha h
  simp only [act, runHourlySimulation] at ht
  cases e : hourlyResults u byMonth with
  | nullPointer => rw [e] at ht; simp [Step.bind] at ht
  | undefined => rw [e] at ht; simp [Step.bind] at ht
  | ok rs =>
    obtain ⟨after, he⟩ := (hm byMonth rs noAverages).mp e
    have hr := congrArg (Option.map Prod.snd) he
    rw [simulate_results] at hr
    simp only [Option.map_some] at hr
    cases hw : Hourly.window (simOf (Param.stored stod file (newObject junk)) noAverages).pop with
    | some win => rfl
    | none => rw [hw] at hr; cases hr

/-- **C75, the monthly table, kinds.** The kinds of shading devices: if the program runs to its end with both files, then all cells are the same
text but for heating, cooling, fans and pumps. (With a kind that does not exist the program may do anything.) -/
theorem C75_monthly_kinds {names : List String} {columns : List (Fin 13)} (hg : (names, columns) ∈ monthlyKinds)
    (hi : Inputs fs o file text) (hi' : Inputs fs' o' file' text) (he : Edited names file file') (ho : Nothing o) (ho' : Nothing o')
    {lat lon zone : ℝ} {v : Fin 7 → Fin 8760 → ℝ} (hy : YearFile text lat lon zone v) (hz : |zone| ≤ 24) (junk junk' : Params Dbl)
    {acts acts' : List Action} {out out' : Str} (h : main standard Numerals.print fs junk o = .returns acts out)
    (h' : main standard Numerals.print fs' junk' o' = .returns acts' out') : acts' = acts ∧ SameTable columns out out' := by
  have hs := (monthly_ran hi' ho' hy hz junk junk' h').trans (monthly_ran hi ho hy hz junk junk h).symm
  have same : SameExcept columns (Monthly.simulate (simOf (Param.stored stod file (newObject junk))
        (siteAverages standard ((Spec.EndToEnd.yearOf lat lon zone v).map fin))))
      (Monthly.simulate (simOf (Param.stored stod file' (newObject junk))
        (siteAverages standard ((Spec.EndToEnd.yearOf lat lon zone v).map fin)))) := by
    simp only [monthlyKinds, List.mem_cons, List.not_mem_nil, or_false, Prod.mk.injEq] at hg
    rcases hg with ⟨rfl, rfl⟩
    rw [edit_Shades he] at hs ⊢
    exact C56_shades _ _ hs
  obtain ⟨t, ht, hS⟩ := monthly_tables hi hi' ho ho' hy hz hy hz junk junk' rfl rfl same h
  rw [h'] at ht
  injection ht with h1 h2
  subst h1 h2
  exact ⟨rfl, hS⟩

/-- **C75, the hourly tables, kinds.** The days and hours of occupancy: if the program runs to its end with both files, then the lights and the
equipment outside, and all columns the hourly simulation leaves at zero, are the same text. -/
theorem C75_hourly_kinds {names : List String} {columns : List (Fin 13)} (hg : (names, columns) ∈ hourlyKinds)
    (hi : Inputs fs o file text) (hi' : Inputs fs' o' file' text) (he : Edited names file file') (byMonth : Bool)
    (ho : o.monthly = false ∧ o.hourlyByMonth = byMonth ∧ o.hourlyByHour = !byMonth ∧ o.compare = none)
    (ho' : o'.monthly = false ∧ o'.hourlyByMonth = byMonth ∧ o'.hourlyByHour = !byMonth ∧ o'.compare = none)
    {lat lon zone : ℝ} {v : Fin 7 → Fin 8760 → ℝ} (hy : YearFile text lat lon zone v) (hz : |zone| ≤ 24) (junk junk' : Params Dbl)
    {acts acts' : List Action} {out out' : Str} (h : main standard Numerals.print fs junk o = .returns acts out)
    (h' : main standard Numerals.print fs' junk' o' = .returns acts' out') : acts' = acts ∧ SameTable columns out out' := by
  have hs := (hourly_ran hi' byMonth ho' hy hz junk junk' h').trans (hourly_ran hi byMonth ho hy hz junk junk h).symm
  have same : SameExcept columns
      ((Hourly.simulate byMonth ⟨simOf (Param.stored stod file (newObject junk)) noAverages, (Spec.EndToEnd.yearOf lat lon zone v).map fin,
        Hourly.Pushed.empty⟩).map Prod.snd)
      ((Hourly.simulate byMonth ⟨simOf (Param.stored stod file' (newObject junk)) noAverages, (Spec.EndToEnd.yearOf lat lon zone v).map fin,
        Hourly.Pushed.empty⟩).map Prod.snd) := by
    simp only [hourlyKinds, List.mem_cons, List.not_mem_nil, or_false, Prod.mk.injEq] at hg
    rcases hg with ⟨rfl, rfl⟩
    rw [edit_Occupancy he] at hs ⊢
    exact C56_hourly_occupancy _ _ _ _ _ hs
  obtain ⟨t, ht, hS⟩ := hourly_tables hi hi' byMonth ho ho' hy hz hy hz junk junk' rfl rfl same h
  rw [h'] at ht
  injection ht with h1 h2
  subst h1 h2
  exact ⟨rfl, hS⟩

/-- **C75, every parameter.** The groups leave out no parameter of the building file: for every line of the file that means anything it is said
which columns it may change. -/
theorem C75_every : ∀ r ∈ Param.table, (∃ g ∈ monthlyGroups ++ monthlyKinds, r.name ∈ g.1) ∧ ∃ g ∈ hourlyGroups ++ hourlyKinds, r.name ∈ g.1 := by
  decide +kernel

/-- **C75, a line in front.** A line `key = value` put in front of a building file that can be read gives a file that can be read; the
parameter has the new value, whatever the rest of the file says, and all others are as before. -/
theorem C75_line {building line key value : Str} (h : Properties.ofFile (some building) = .ok file) (hl : '\n' ∉ line)
    (hd : Defines line key value) (names : List String) (hn : ∀ r ∈ Param.table, SameKey key r.name.toList → r.name ∈ names) :
    ∃ file', Properties.ofFile (some (line ++ '\n' :: building)) = .ok file' ∧ Edited names file file' ∧
      (∀ k, SameKey key k → Properties.getProperty k file' = some value) ∧
      ∀ k, ¬ SameKey key k → Properties.getProperty k file' = Properties.getProperty k file := by
  have lines : Properties.getlines (line ++ '\n' :: building) = line :: Properties.getlines building := by
    have := Properties.getlines_flatten [line] building (by simpa using hl)
    simpa using this
  have h0 : Properties.readLines 0 (Properties.getlines building) Properties.empty = .ok file := h
  have s0 : Properties.Sorted Properties.empty := by simp [Properties.Sorted, Properties.empty]
  obtain ⟨file', h'⟩ := (Properties.readLines_ok_iff (n := 1) (m := Properties.insertNew (lower key) value Properties.empty)).mpr
    (Properties.readLines_ok_iff.mp ⟨file, h0⟩)
  obtain ⟨-, e0⟩ := Properties.readLines_spec s0 h0
  obtain ⟨-, e1⟩ := Properties.readLines_spec (Properties.insertNew_sorted s0 _ _) h'
  have here : ∀ k, SameKey key k → Properties.getProperty k file' = some value := by
    intro k hk
    refine (e1 k value).mpr (Or.inl ?_)
    rw [Properties.find_insertNew s0, if_pos (show lower k = lower key from hk.symm)]
    rfl
  have there : ∀ k, ¬ SameKey key k → Properties.getProperty k file' = Properties.getProperty k file := by
    intro k hk
    refine Option.ext fun v => (e1 k v).trans (Iff.trans ?_ (e0 k v).symm)
    rw [Properties.find_insertNew s0, if_neg (fun e => hk e.symm)]
  refine ⟨file', ?_, fun r hr hk => there _ fun e => hk (hn r hr e), here, there⟩
  show Properties.readLines 0 (Properties.getlines _) _ = _
  rw [lines]
  simp only [Properties.readLines, Properties.defines_parse hd]
  exact h'

end ISO.Props
