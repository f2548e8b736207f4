import Verif.Spec.WeatherEditing
import Verif.Props.Editing

/-! # C77: what an edit of the weather file changes in the printed tables -/

namespace ISO.Props
open ISO ISO.Numerals ISO.Spec ISO.Spec.Text ISO.Spec.Whole ISO.User ISO.CommandLine ISO.Epw ISO.Lemmas Dbl CNum
open ISO.Spec.EndToEnd (Inputs)
open EndToEnd
open ISO.Spec.Editing (SameTable)
open ISO.Spec.WeatherEditing (Edited monthlyGroups monthlyAny hourlyGroups dewPoint humidity dryBulb windSpeed directRadiation diffuseRadiation
  globalRadiation)

namespace WeatherEditing

section results
variable {α : Type} [CNum α] [OfInt α]

/-! ## the monthly simulation -/
section monthly
open Monthly

/-- the monthly averages enter the lights only with the hours without sun -/
theorem column_weather (x : Sim α) (w' : WeatherData α) (b b' : Breakdown α) (a : SolarAreas α) (T : α) (uses : List (Fin 13))
    (hu : ∀ k ∈ monthlyAny, k ≠ 3 → k ∈ uses) (hs : 3 ∉ uses → b'.v_hrs_sun_down_mo = b.v_hrs_sun_down_mo) (m : Fin 12) (k : Fin 13) (hk : k ∉ uses) :
    monthEndUses x (figures x (stagesWith x b a T)) m k =
      monthEndUses { x with weather := w' } (figures { x with weather := w' } (stagesWith { x with weather := w' } b' a T)) m k := by
  have gone : ∀ {j : Fin 13} {p : Prop}, j ∈ monthlyAny → j ≠ 3 → j ∉ uses → p := fun h1 h2 h => absurd (hu _ h1 h2) h
  have e1 : (stagesWith { x with weather := w' } b' a T).l.v_Q_illum_tot = (stagesWith x b a T).l.v_Q_illum_tot := rfl
  have e2 : (stagesWith { x with weather := w' } b' a T).o = (stagesWith x b a T).o := rfl
  have e3 : 3 ∉ uses → (stagesWith { x with weather := w' } b' a T).l.v_Q_illum_ext_tot = (stagesWith x b a T).l.v_Q_illum_ext_tot := by
    intro h
    show (lightingEnergyUse x b'.v_hrs_sun_down_mo).v_Q_illum_ext_tot = (lightingEnergyUse x b.v_hrs_sun_down_mo).v_Q_illum_ext_tot
    rw [hs h]
  revert e1 e2 e3
  generalize stagesWith x b a T = s
  generalize stagesWith { x with weather := w' } b' a T = s'
  intro e1 e2 e3
  obtain ⟨o, _, l, _, _, _, _, _, _, _, _, _, _, _, n⟩ := s
  obtain ⟨o', _, l', _, _, _, _, _, _, _, _, _, _, _, n'⟩ := s'
  simp only at e1 e2 e3
  subst e2
  exact column_frame _ _ _ _ _ m k hk rfl rfl rfl (gone (by decide) (by decide)) (gone (by decide) (by decide)) (fun _ => e1) e3
    (gone (by decide) (by decide)) (gone (by decide) (by decide)) (fun _ => rfl) (gone (by decide) (by decide)) (gone (by decide) (by decide)) (fun _ => rfl)

/-- two monthly simulations of one building with different averages of the weather -/
theorem monthly_weather (uses : List (Fin 13)) (hu : ∀ k ∈ monthlyAny, k ≠ 3 → k ∈ uses) (x : Sim α) (w' : WeatherData α)
    (hd : (Monthly.simulate { x with weather := w' }).isSome = (Monthly.simulate x).isSome)
    (hs : 3 ∉ uses → w'.mhEgh = x.weather.mhEgh) :
    SameExcept uses (Monthly.simulate x) (Monthly.simulate { x with weather := w' }) := by
  unfold Monthly.simulate stages at hd ⊢
  simp only at hd ⊢
  have hb : ∀ b b', solarRadiationBreakdown x.weather (scheduleAndOccupancy x.pop) = some b →
      solarRadiationBreakdown w' (scheduleAndOccupancy x.pop) = some b' → 3 ∉ uses → b'.v_hrs_sun_down_mo = b.v_hrs_sun_down_mo := by
    intro b b' h h' h3
    unfold solarRadiationBreakdown at h h'
    rw [hs h3] at h'
    cases e : allMonths fun m => hoursSunDown (x.weather.mhEgh m) m with
    | none => rw [e] at h; cases h
    | some t =>
      rw [e] at h h'
      cases h
      cases h'
      rfl
  revert hb hd
  generalize solarRadiationBreakdown x.weather (scheduleAndOccupancy x.pop) = B
  generalize solarRadiationBreakdown w' (scheduleAndOccupancy x.pop) = B'
  intro hd hb
  generalize windowSolarGain x.bldg = A at hd ⊢
  rcases A with _ | a
  · rcases B with _ | b <;> rcases B' with _ | b' <;> trivial
  generalize managementShift x.building.buildingEnergyManagement = M at hd ⊢
  rcases M with _ | T
  · rcases B with _ | b <;> rcases B' with _ | b' <;> trivial
  rcases B with _ | b <;> rcases B' with _ | b'
  · trivial
  · cases hd
  · cases hd
  refine ⟨by simp [outputGeneration], ?_⟩
  intro i hi hi' k hk
  have e : ∀ (z : Sim α) (f : Figures α) (h : i < (outputGeneration z f).length),
      (outputGeneration z f)[i]'h = monthEndUses z f ((List.finRange 12)[i]'(by simpa [outputGeneration] using h)) := by
    intro z f h
    simp [outputGeneration]
  exact ((congrFun (e _ _ hi) k).trans (column_weather x w' b b' a T uses hu (hb b b' rfl rfl) _ k hk)).trans (congrFun (e _ _ hi') k).symm

/-- whether the monthly simulation is defined depends on the building and the hours with sun -/
theorem monthly_defined (x : Sim α) (w' : WeatherData α) (h : w'.mhEgh = x.weather.mhEgh) :
    (Monthly.simulate { x with weather := w' }).isSome = (Monthly.simulate x).isSome := by
  have d : ∀ (z : Sim α), (Monthly.simulate z).isSome = ((allMonths fun m => hoursSunDown (z.weather.mhEgh m) m).isSome &&
      (windowSolarGain z.bldg).isSome && (managementShift z.building.buildingEnergyManagement).isSome) := by
    intro z
    unfold Monthly.simulate stages solarRadiationBreakdown
    cases allMonths fun m => hoursSunDown (z.weather.mhEgh m) m with
    | none => rfl
    | some t =>
      cases windowSolarGain z.bldg with
      | none => rfl
      | some a => cases managementShift z.building.buildingEnergyManagement <;> simp
  rw [d, d, h]

end monthly

/-! ## the hourly simulation -/
section hourly
open Hourly

/-- two hourly simulations of one building with different weather -/
theorem hourly_weather (uses : List (Fin 13)) (hu : ∀ k ∈ [0, 1, 9, 4, 5], k ∈ uses) (x : Sim α) (w w' : Weather α) (p : Pushed α) (agg : Bool)
    (hs : 2 ∉ uses → ∀ i, (hourWeather w' i).solarRadiation = (hourWeather w i).solarRadiation)
    (hx : 3 ∉ uses → w'.data EGH = w.data EGH) :
    SameExcept uses ((simulate agg ⟨x, w, p⟩).map Prod.snd) ((simulate agg ⟨x, w', p⟩).map Prod.snd) := by
  have gone : ∀ {j : Fin 13} {q : Prop}, j ∈ [0, 1, 9, 4, 5] → j ∉ uses → q := fun h1 h => absurd (hu _ h1) h
  have main : ∀ win, Agree uses (endUses x (rawResults x (pushAll x.bldg p).ratios win w)) (endUses x (rawResults x (pushAll x.bldg p).ratios win w')) := by
    intro win
    generalize (pushAll x.bldg p).ratios = r
    unfold rawResults
    rw [List.ofFn_eq_map, List.ofFn_eq_map]
    generalize List.finRange 8760 = L
    have key : ∀ (L : List (Fin 8760)) (st st' : ThermalState α) (e e' : α × α) (k : Fin 13), k ∉ uses →
        (runHours x (initConsts x) r (L.map (hourInput x win w)) st).map (fun z => hourEndUses x e z k) =
          (runHours x (initConsts x) r (L.map (hourInput x win w')) st').map (fun z => hourEndUses x e' z k) := by
      intro L
      induction L with
      | nil => intros; rfl
      | cons i L ih =>
        intro st st' e e' k hk
        simp only [List.map_cons, hourInput, runHours]
        refine congrArg₂ List.cons ?_ (ih _ _ _ _ _ hk)
        refine hour_frame _ _ _ _ _ _ _ k hk (gone (by decide)) (gone (by decide)) (gone (by decide)) (fun h => ?_) (fun h => ?_)
          (gone (by decide)) (gone (by decide)) (fun _ => rfl) (fun _ => rfl) rfl
        · simp only [calculateHour, hs h i]
        · have e8 : (hourWeather w' i).solarRadiation 8 = (hourWeather w i).solarRadiation 8 := congrFun (hx h) i
          simp only [calculateHour, e8]
    intro k hk
    simp only [endUses, List.map_map]
    exact key L _ _ _ _ k hk
  rw [simulate_results, simulate_results]
  simp only
  cases window x.pop with
  | none => trivial
  | some win =>
    have h := main win
    have l1 : (endUses x (rawResults x (pushAll x.bldg p).ratios win w)).length = 8760 := by
      rw [endUses_length, rawResults_length]
    have l2 : (endUses x (rawResults x (pushAll x.bldg p).ratios win w')).length = 8760 := by
      rw [endUses_length, rawResults_length]
    simp only [Option.bind_some]
    revert h l1 l2
    generalize endUses x (rawResults x (pushAll x.bldg p).ratios win w) = l
    generalize endUses x (rawResults x (pushAll x.bldg p).ratios win w') = l'
    intro h l1 l2
    cases agg with
    | false => exact ⟨l1.trans l2.symm, fun i hi hi' k hk => agree_get h k hk i hi hi'⟩
    | true =>
      obtain ⟨o, a1, a2, a3⟩ := aggregate_order l1
      obtain ⟨o', b1, b2, b3⟩ := aggregate_order l2
      simp only [cond_true, a1, b1]
      exact ⟨a2.trans b2.symm, fun i hi hi' k hk => by rw [a3 i hi k, b3 i hi' k, h k hk]⟩

/-- an hourly simulation reads temperature, wind, the radiation on the facades and the global radiation -/
theorem hourly_reads (x : Sim α) (w w' : Weather α) (p : Pushed α) (agg : Bool) (h : hourWeather w' = hourWeather w) :
    (simulate agg ⟨x, w', p⟩).map Prod.snd = (simulate agg ⟨x, w, p⟩).map Prod.snd := by
  rw [simulate_results, simulate_results]
  have e : hourInput x = fun (win : Window) (z : Weather α) (i : Fin 8760) =>
      (scheduleCell x win (Solar.sliceAt i).hour (Solar.sliceAt i).dayOfWeek, hourWeather z i) := rfl
  have : ∀ win, hourInput x win w' = hourInput x win w := by
    intro win
    rw [e]
    simp only [h]
  have r : ∀ r win, rawResults x r win w' = rawResults x r win w := by
    intro r win
    unfold rawResults
    rw [List.ofFn_eq_map, List.ofFn_eq_map, this]
  simp only [r]

end hourly
end results

/-- the radiation on the facades depends on the place and the direct and the diffuse radiation -/
theorem eglobe_reads {α : Type} [CNum α] [OfInt α] {w w' : Weather α} (h1 : w'.latitude = w.latitude) (h2 : w'.longitude = w.longitude)
    (h3 : w'.timezone = w.timezone) (h4 : w'.data EB = w.data EB) (h5 : w'.data ED = w.data ED) : Solar.eglobe w' = Solar.eglobe w := by
  have hs : Solar.site w' = Solar.site w := by
    unfold Solar.site
    simp only [h1, h2, h3]
  unfold Solar.eglobe
  rw [hs, h4, h5]

end WeatherEditing
open WeatherEditing

variable {fs fs' : FileSystem} {o o' : Options} {file : Properties.Store} {text text' : Str}

/-- the averages of the global radiation depend on the global radiation alone -/
theorem WeatherEditing.averages_sun {w w' : Epw.Weather Dbl} (h : w'.data EGH = w.data EGH) :
    (siteAverages standard w').mhEgh = (siteAverages standard w).mhEgh := by
  unfold siteAverages
  simp only [h]

/-- dew point and humidity are in no average that the monthly simulation reads -/
theorem WeatherEditing.averages_reads {w w' : Epw.Weather Dbl} (h : ∀ c, c ≠ DPT → c ≠ RH → w'.data c = w.data c) (h1 : w'.latitude = w.latitude)
    (h2 : w'.longitude = w.longitude) (h3 : w'.timezone = w.timezone) : siteAverages standard w' = siteAverages standard w := by
  unfold siteAverages
  simp only [h DBT (by decide) (by decide), h WSPD (by decide) (by decide), h EGH (by decide) (by decide),
    eglobe_reads h1 h2 h3 (h EB (by decide) (by decide)) (h ED (by decide) (by decide))]

/-- the two weather years as the program stores them -/
theorem WeatherEditing.stored_data {data : List (Fin 7)} {place : Bool} {lat lon zone lat' lon' zone' : ℝ} {v v' : Fin 7 → Fin 8760 → ℝ}
    (he : Edited data place lat lon zone v lat' lon' zone' v') (c : Fin 7) (hc : c ∉ data) :
    ((Spec.EndToEnd.yearOf lat' lon' zone' v').map fin).data c = ((Spec.EndToEnd.yearOf lat lon zone v).map fin).data c := by
  funext r
  show fin (v' c r) = fin (v c r)
  rw [he.data c hc r]

/-- the same results -/
theorem WeatherEditing.same_self {α : Type} {r r' : Option (List (Fin 13 → α))} (h : r' = r) : SameExcept [] r r' := by
  subst h
  cases r' with
  | none => trivial
  | some r => exact ⟨rfl, fun _ _ _ _ _ => rfl⟩

/-- **C77, the monthly table.** If two weather files for the same building give the same numbers but for those of one group of columns, then
the program prints for both a table with the same lines, and all cells are the same text but for those in the columns the group belongs to. -/
theorem C77_monthly {data : List (Fin 7)} {place : Bool} {columns : List (Fin 13)} (hg : (data, place, columns) ∈ monthlyGroups)
    (hi : Inputs fs o file text) (hi' : Inputs fs' o' file text') (ho : Nothing o) (ho' : Nothing o')
    {lat lon zone lat' lon' zone' : ℝ} {v v' : Fin 7 → Fin 8760 → ℝ} (he : Edited data place lat lon zone v lat' lon' zone' v')
    (hy : YearFile text lat lon zone v) (hz : |zone| ≤ 24) (hy' : YearFile text' lat' lon' zone' v') (hz' : |zone'| ≤ 24) (junk junk' : Params Dbl)
    {acts : List Action} {out : Str} (h : main standard Numerals.print fs junk o = .returns acts out) :
    ∃ out', main standard Numerals.print fs' junk' o' = .returns acts out' ∧ SameTable columns out out' := by
  refine Editing.monthly_tables hi hi' ho ho' hy hz hy' hz' junk junk' rfl rfl ?_ h
  simp only [monthlyGroups, List.mem_cons, List.not_mem_nil, or_false, Prod.mk.injEq] at hg
  rcases hg with ⟨rfl, rfl, rfl⟩ | ⟨rfl, rfl, rfl⟩
  · obtain ⟨rfl, rfl, rfl⟩ := he.place rfl
    refine same_self (congrArg (fun a => Monthly.simulate (simOf _ a)) (averages_reads ?_ rfl rfl rfl))
    intro c h1 h2
    refine stored_data he c ?_
    simp only [List.mem_cons, List.not_mem_nil, or_false, not_or]
    exact ⟨h1, h2⟩
  · have hs := averages_sun (stored_data he EGH (by decide))
    exact monthly_weather [0, 1, 4, 5, 9, 10] (by decide) (simOf (Param.stored stod file (newObject junk)) _) _ (monthly_defined _ _ hs) fun _ => hs

/-- **C77, the monthly table, any other weather.** Whatever the two weather files are: if the program runs to its end with both, then lighting
inside, appliances, equipment outside and hot water are the same text in both tables. -/
theorem C77_monthly_any (hi : Inputs fs o file text) (hi' : Inputs fs' o' file text') (ho : Nothing o) (ho' : Nothing o')
    {lat lon zone lat' lon' zone' : ℝ} {v v' : Fin 7 → Fin 8760 → ℝ}
    (hy : YearFile text lat lon zone v) (hz : |zone| ≤ 24) (hy' : YearFile text' lat' lon' zone' v') (hz' : |zone'| ≤ 24) (junk junk' : Params Dbl)
    {acts acts' : List Action} {out out' : Str} (h : main standard Numerals.print fs junk o = .returns acts out)
    (h' : main standard Numerals.print fs' junk' o' = .returns acts' out') : SameTable monthlyAny out out' := by
  have hact : ∀ {p : Options}, Nothing p → actions p = [.runMonthly] := by
    rintro ⟨ism, d, m, hm, hh, c⟩ ⟨o1, o2, o3, o4⟩
    simp only at o1 o2 o3 o4
    subst o1 o2 o3 o4
    rfl
  have ran : ∀ {fs : FileSystem} {o : Options} {text : Str} {lat lon zone : ℝ} {v : Fin 7 → Fin 8760 → ℝ} {k : Params Dbl} {acts : List Action} {out : Str},
      Inputs fs o file text → Nothing o → YearFile text lat lon zone v → |zone| ≤ 24 → main standard Numerals.print fs k o = .returns acts out →
      (Monthly.simulate (simOf (Param.stored stod file (newObject junk)) (siteAverages standard ((Spec.EndToEnd.yearOf lat lon zone v).map fin)))).isSome = true := by
    intro fs o text lat lon zone v k acts out hi ho hy hz h
    obtain ⟨u, hu, -, hm, -⟩ := Editing.read hi hy hz k _ rfl
    rw [stored_new hi.accepted k junk] at hm
    obtain ⟨t, ht⟩ := Editing.returns_one hu (hact ho) h
    simp only [act, runMonthlySimulation] at ht
    cases e : monthlyResults u with
    | ok rs => rw [(hm rs).mp e]; rfl
    | nullPointer => rw [e] at ht; simp [Step.bind] at ht
    | undefined => rw [e] at ht; simp [Step.bind] at ht
  obtain ⟨t, ht, hs⟩ := Editing.monthly_tables (columns := monthlyAny) hi hi' ho ho' hy hz hy' hz' junk junk' rfl rfl
    (monthly_weather monthlyAny (fun _ h _ => h) (simOf (Param.stored stod file (newObject junk)) _) _
      ((ran hi' ho' hy' hz' h').trans (ran hi ho hy hz h).symm) fun h3 => absurd (by decide) h3) h
  rw [h'] at ht
  injection ht with h1 h2
  subst h1 h2
  exact hs

/-- **C77, the hourly tables.** The same for the tables of the hourly simulation, by month and by hour. -/
theorem C77_hourly {data : List (Fin 7)} {place : Bool} {columns : List (Fin 13)} (hg : (data, place, columns) ∈ hourlyGroups)
    (hi : Inputs fs o file text) (hi' : Inputs fs' o' file text') (byMonth : Bool)
    (ho : o.monthly = false ∧ o.hourlyByMonth = byMonth ∧ o.hourlyByHour = !byMonth ∧ o.compare = none)
    (ho' : o'.monthly = false ∧ o'.hourlyByMonth = byMonth ∧ o'.hourlyByHour = !byMonth ∧ o'.compare = none)
    {lat lon zone lat' lon' zone' : ℝ} {v v' : Fin 7 → Fin 8760 → ℝ} (he : Edited data place lat lon zone v lat' lon' zone' v')
    (hy : YearFile text lat lon zone v) (hz : |zone| ≤ 24) (hy' : YearFile text' lat' lon' zone' v') (hz' : |zone'| ≤ 24) (junk junk' : Params Dbl)
    {acts : List Action} {out : Str} (h : main standard Numerals.print fs junk o = .returns acts out) :
    ∃ out', main standard Numerals.print fs' junk' o' = .returns acts out' ∧ SameTable columns out out' := by
  refine Editing.hourly_tables hi hi' byMonth ho ho' hy hz hy' hz' junk junk' rfl rfl ?_ h
  simp only [hourlyGroups, List.mem_cons, List.not_mem_nil, or_false, Prod.mk.injEq] at hg
  rcases hg with ⟨rfl, rfl, rfl⟩ | ⟨rfl, rfl, rfl⟩ | ⟨rfl, rfl, rfl⟩ | ⟨rfl, rfl, rfl⟩
  · obtain ⟨rfl, rfl, rfl⟩ := he.place rfl
    refine same_self (hourly_reads _ _ _ _ _ ?_)
    have hd := stored_data he
    have hr := eglobe_reads (w := (Spec.EndToEnd.yearOf lat' lon' zone' v).map fin) (w' := (Spec.EndToEnd.yearOf lat' lon' zone' v').map fin)
      rfl rfl rfl (hd EB (by decide)) (hd ED (by decide))
    unfold Hourly.hourWeather
    simp only [hd DBT (by decide), hd WSPD (by decide), hd EGH (by decide), hr]
  · obtain ⟨rfl, rfl, rfl⟩ := he.place rfl
    have hd := stored_data he
    have hr := eglobe_reads (w := (Spec.EndToEnd.yearOf lat' lon' zone' v).map fin) (w' := (Spec.EndToEnd.yearOf lat' lon' zone' v').map fin)
      rfl rfl rfl (hd EB (by decide)) (hd ED (by decide))
    refine hourly_weather [0, 1, 9, 4, 5] (fun _ h => h) _ _ _ _ _ (fun _ i => ?_) fun _ => hd EGH (by decide)
    unfold Hourly.hourWeather
    simp only [hd EGH (by decide), hr]
  · exact hourly_weather [2, 0, 1, 9, 4, 5] (by decide) _ _ _ _ _ (fun h => absurd (by decide) h) fun _ => stored_data he EGH (by decide)
  · exact hourly_weather [3, 2, 0, 1, 9, 4, 5] (by decide) _ _ _ _ _ (fun h => absurd (by decide) h) fun h => absurd (by decide) h

end ISO.Props
