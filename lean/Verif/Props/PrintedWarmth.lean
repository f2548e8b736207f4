import Verif.Props.PrintedOrder
import Verif.Props.WarmerYear

/-! # C76, C78: what makes hours warmer never prints a higher number for heating nor a lower one for cooling -/

namespace ISO.Props
open ISO ISO.Numerals ISO.Spec ISO.Spec.Text ISO.Spec.Whole ISO.User ISO.CommandLine ISO.Epw ISO.Lemmas Dbl
open ISO.Spec.EndToEnd (Describes Inputs Timetable hourResult monthResult)
open ISO.Spec.HourlyWhole
open EndToEnd
open ISO.Spec.Editing (cell SameTable)
open ISO.Spec.PrintedOrder

variable {fs fs' : FileSystem} {o o' : Options} {file file' : Properties.Store} {text text' : Str}

/-- in every hour of two years the second takes no more heating and no less cooling -/
def PrintedOrder.Warms (x x' : Sim ℝ) (w w' : Weather ℝ) : Prop :=
  ∀ m r m' r' heat cool heat' cool', Hourly.simulate false (fresh x w) = some (m, r) → Hourly.simulate false (fresh x' w') = some (m', r') →
    Course r heat cool → Course r' heat' cool' → (∀ i, heat' i ≤ heat i) ∧ ∀ i, cool i ≤ cool' i

/-- in every hour of two years the second takes no more heating (if `heats`) and no more cooling (if `cools`) -/
def PrintedOrder.Lowers (heats cools : Prop) (x x' : Sim ℝ) (w w' : Weather ℝ) : Prop :=
  ∀ m r m' r' heat cool heat' cool', Hourly.simulate false (fresh x w) = some (m, r) → Hourly.simulate false (fresh x' w') = some (m', r') →
    Course r heat cool → Course r' heat' cool' → (heats → ∀ i, heat' i ≤ heat i) ∧ (cools → ∀ i, cool' i ≤ cool i)

/-- the course of energy of a year with demand -/
theorem PrintedOrder.course_of {x : Sim ℝ} {w : Weather ℝ} {air power : ℕ → ℝ} {h : List (Hourly.EndUses Dbl)} (hl : h.length = 8760)
    (hv : ∀ i (hi : i < h.length) k, h[i] k = if hi : i < 8760 then hourResult x w air power ⟨i, hi⟩ k else nan)
    (hd : ∃ j < 8760, power j ≠ 0) :
    Course h (fun i => heatEnergy x power i / 1000) (fun i => coolEnergy x power i / 1000) := by
  have nd : ∀ k : Fin 13, ¬ ((∀ j < 8760, power j = 0) ∧ (k = 1 ∨ k = if x.heating.energyType = 1 then 0 else 9)) := by
    rintro k ⟨h, -⟩
    obtain ⟨j, hj, hn⟩ := hd
    exact hn (h j hj)
  intro i
  have hi : i.1 < h.length := by rw [hl]; exact i.2
  have val : ∀ k, h[i.1] k = fin (endUse x w air power i k / 1000) := by
    intro k
    rw [hv i.1 hi k, dif_pos i.2]
    unfold hourResult
    rw [if_neg (nd k)]
  refine ⟨hi, ?_, val 1⟩
  rw [val 0, val 9, fin_add]
  congr 1
  show (if x.heating.energyType = 1 then heatEnergy x power i else 0) / 1000 + (if x.heating.energyType = 1 then 0 else heatEnergy x power i) / 1000 = _
  split_ifs <;> ring

/-- the printed tables of two years of which the second takes no more heating, or no more cooling, or neither -/
theorem PrintedOrder.lowers_printed (heats cools : Prop) (hi : Inputs fs o file text) (hi' : Inputs fs' o' file' text') (byMonth : Bool)
    (ho : o.monthly = false ∧ o.hourlyByMonth = byMonth ∧ o.hourlyByHour = !byMonth ∧ o.compare = none)
    (ho' : o'.monthly = false ∧ o'.hourlyByMonth = byMonth ∧ o'.hourlyByHour = !byMonth ∧ o'.compare = none)
    {x x' : Sim ℝ} (hx : Describes file x) (hx' : Describes file' x') (hp : Physical x) (hs : Systems x) (ht : Timetable x.pop)
    (hp' : Physical x') (hs' : Systems x') (ht' : Timetable x'.pop) {lat lon zone lat' lon' zone' : ℝ} {v v' : Fin 7 → Fin 8760 → ℝ}
    (hy : YearFile text lat lon zone v) (hlat : 28.1 ≤ |lat| ∧ |lat| ≤ 90) (hz : |zone| ≤ 24)
    (hy' : YearFile text' lat' lon' zone' v') (hlat' : 28.1 ≤ |lat'| ∧ |lat'| ≤ 90) (hz' : |zone'| ≤ 24) (junk junk' : Params Dbl)
    (hf : x'.heating.energyType = x.heating.energyType)
    (hW : PrintedOrder.Lowers heats cools x x' (Spec.EndToEnd.yearOf lat lon zone v) (Spec.EndToEnd.yearOf lat' lon' zone' v')) :
    ∃ out out', main standard Numerals.print fs junk o = .returns [.runHourly byMonth] out ∧
      main standard Numerals.print fs' junk' o' = .returns [.runHourly byMonth] out' ∧
      ∀ i < (if byMonth then 12 else 8760), (heats → CellNotAbove i 0 out' out ∧ CellNotAbove i 9 out' out) ∧ (cools → CellNotAbove i 1 out' out) := by
  obtain ⟨out, rs, h, ⟨mass, air, surface, power, e⟩, hT, hl, hv⟩ := PrintedOrder.hourly_printed hi byMonth ho hx hp hs ht hy hlat hz junk
  obtain ⟨out', rs', h', ⟨mass', air', surface', power', e'⟩, hT', hl', hv'⟩ :=
    PrintedOrder.hourly_printed hi' byMonth ho' hx' hp' hs' ht' hy' hlat' hz' junk'
  obtain ⟨m1, m1', h1, rr1, r1, -, l1, -, -, c1⟩ := PrintedOrder.course_values hp hs ht (w := Spec.EndToEnd.yearOf lat lon zone v) (suitable_overhead (lon := lon) (zone := zone) (v := v) hlat)
  obtain ⟨m2, m2', h2, rr2, r2, -, l2, -, -, c2⟩ := PrintedOrder.course_values hp' hs' ht' (w := Spec.EndToEnd.yearOf lat' lon' zone' v') (suitable_overhead (lon := lon') (zone := zone') (v := v') hlat')
  replace hv := hv _ _ _ _ e
  replace hv' := hv' _ _ _ _ e'
  replace c1 := (c1 _ _ _ _ e).1
  replace c2 := (c2 _ _ _ _ e').1
  generalize Spec.EndToEnd.yearOf lat lon zone v = w at *
  generalize Spec.EndToEnd.yearOf lat' lon' zone' v' = w' at *
  refine ⟨out, out', h, h', fun i hi => ?_⟩
  have c := PrintedOrder.cell_of hT i (hl ▸ hi)
  have c' := PrintedOrder.cell_of hT' i (hl' ▸ hi)
  have nan_eq : Numerals.print 6 nan = "nan".toList := rfl
  -- a year without demand prints "nan"
  have none : ∀ {x : Sim ℝ} {w : Weather ℝ} {air power : ℕ → ℝ} {rs : List (Fin 13 → Dbl)} {out : Str} (hl : rs.length = if byMonth then 12 else 8760),
      (∀ i (hi : i < rs.length) k, rs[i] k = if byMonth then monthResult x w air power i k
        else if hi : i < 8760 then hourResult x w air power ⟨i, hi⟩ k else nan) →
      (∀ k : Fin 13, cell out (i + 2) (k + 1) = some (Numerals.print 6 ((rs[i]'(hl ▸ hi)) k))) → (∀ j < 8760, power j = 0) →
      ∀ k : Fin 13, (k = 1 ∨ k = if x.heating.energyType = 1 then 0 else 9) → cell out (i + 2) (k + 1) = some "nan".toList := by
    intro x w air power rs out hl hv hc hd k hk
    rw [hc, hv, ← nan_eq]
    cases byMonth
    · simp only [Bool.false_eq_true, if_false] at hi ⊢
      rw [dif_pos hi]
      unfold hourResult
      rw [if_pos ⟨hd, hk⟩]
    · simp only [if_true]
      unfold monthResult
      rw [if_pos ⟨hd, hk⟩]
  -- every other cell is a number
  have value : ∀ {x : Sim ℝ} {w : Weather ℝ} {air power : ℕ → ℝ} {rs : List (Fin 13 → Dbl)} {out : Str} (hl : rs.length = if byMonth then 12 else 8760),
      (∀ i (hi : i < rs.length) k, rs[i] k = if byMonth then monthResult x w air power i k
        else if hi : i < 8760 then hourResult x w air power ⟨i, hi⟩ k else nan) →
      (∀ k : Fin 13, cell out (i + 2) (k + 1) = some (Numerals.print 6 ((rs[i]'(hl ▸ hi)) k))) →
      ∀ k : Fin 13, ¬ ((∀ j < 8760, power j = 0) ∧ (k = 1 ∨ k = if x.heating.energyType = 1 then 0 else 9)) →
      cell out (i + 2) (k + 1) = some (Numerals.print 6 (fin ((if byMonth then monthUse x w air power (i + 1) k
        else if hi : i < 8760 then endUse x w air power ⟨i, hi⟩ k else 0) / 1000))) := by
    intro x w air power rs out hl hv hc k hk
    rw [hc, hv]
    cases byMonth
    · simp only [Bool.false_eq_true, if_false] at hi ⊢
      rw [dif_pos hi, dif_pos hi]
      unfold hourResult
      rw [if_neg hk]
    · simp only [if_true]
      unfold monthResult
      rw [if_neg hk]
  have shown : ∀ {x x' : Sim ℝ} {w w' : Weather ℝ} {air power air' power' : ℕ → ℝ} {rs rs' : List (Fin 13 → Dbl)} {out out' : Str} (k : Fin 13)
      (hl : rs.length = if byMonth then 12 else 8760) (hl' : rs'.length = if byMonth then 12 else 8760),
      (∀ i (hi : i < rs.length) k, rs[i] k = if byMonth then monthResult x w air power i k
        else if hi : i < 8760 then hourResult x w air power ⟨i, hi⟩ k else nan) →
      (∀ i (hi : i < rs'.length) k, rs'[i] k = if byMonth then monthResult x' w' air' power' i k
        else if hi : i < 8760 then hourResult x' w' air' power' ⟨i, hi⟩ k else nan) →
      (∀ k : Fin 13, cell out (i + 2) (k + 1) = some (Numerals.print 6 ((rs[i]'(hl ▸ hi)) k))) →
      (∀ k : Fin 13, cell out' (i + 2) (k + 1) = some (Numerals.print 6 ((rs'[i]'(hl' ▸ hi)) k))) →
      ((¬ ((∀ j < 8760, power j = 0) ∧ (k = 1 ∨ k = if x.heating.energyType = 1 then 0 else 9))) →
        (¬ ((∀ j < 8760, power' j = 0) ∧ (k = 1 ∨ k = if x'.heating.energyType = 1 then 0 else 9))) →
        ∀ i : Fin 8760, endUse x' w' air' power' i k ≤ endUse x w air power i k) → CellNotAbove i k out' out := by
    intro x x' w w' air power air' power' rs rs' out out' k hl hl' hv hv' hc hc' hle
    by_cases n1 : (∀ j < 8760, power j = 0) ∧ (k = 1 ∨ k = if x.heating.energyType = 1 then 0 else 9)
    · exact .inr (.inr (none hl hv hc n1.1 k n1.2))
    by_cases n2 : (∀ j < 8760, power' j = 0) ∧ (k = 1 ∨ k = if x'.heating.energyType = 1 then 0 else 9)
    · exact .inr (.inl (none hl' hv' hc' n2.1 k n2.2))
    refine .inl ⟨_, _, value hl' hv' hc' k n2, value hl hv hc k n1, C76_print (by norm_num) (div_le_div_of_nonneg_right ?_ (by norm_num))⟩
    have hle := hle n1 n2
    cases byMonth
    · simp only [Bool.false_eq_true, if_false] at hi ⊢
      rw [dif_pos hi, dif_pos hi]
      exact hle _
    · simp only [if_true]
      unfold monthUse
      refine Finset.sum_le_sum fun j _ => ?_
      split_ifs
      · exact hle _
      · exact le_rfl
  have order : (¬ ∀ j < 8760, power j = 0) → (¬ ∀ j < 8760, power' j = 0) →
      (heats → ∀ i : Fin 8760, heatEnergy x' power' i ≤ heatEnergy x power i) ∧ (cools → ∀ i : Fin 8760, coolEnergy x' power' i ≤ coolEnergy x power i) := by
    intro d d'
    push Not at d d'
    obtain ⟨k1, k2⟩ := hW _ _ _ _ _ _ _ _ r1 r2 (PrintedOrder.course_of l1 c1 d) (PrintedOrder.course_of l2 c2 d')
    have scale : ∀ a b : ℝ, a / 1000 ≤ b / 1000 → a ≤ b := fun a b h => by linarith
    exact ⟨fun H i => scale _ _ (k1 H i), fun H i => scale _ _ (k2 H i)⟩
  refine ⟨fun H => ⟨shown 0 hl hl' hv hv' c c' fun n1 n2 j => ?_, shown 9 hl hl' hv hv' c c' fun n1 n2 j => ?_⟩,
    fun H => shown 1 hl hl' hv hv' c c' fun n1 n2 j => ?_⟩
  · show (if x'.heating.energyType = 1 then _ else _) ≤ if x.heating.energyType = 1 then _ else _
    rw [hf] at n2 ⊢
    split_ifs with ht
    · rw [if_pos ht] at n1 n2
      exact (order (fun h => n1 ⟨h, .inr rfl⟩) (fun h => n2 ⟨h, .inr rfl⟩)).1 H j
    · exact le_rfl
  · show (if x'.heating.energyType = 1 then _ else _) ≤ if x.heating.energyType = 1 then _ else _
    rw [hf] at n2 ⊢
    split_ifs with ht
    · exact le_rfl
    · rw [if_neg ht] at n1 n2
      exact (order (fun h => n1 ⟨h, .inr rfl⟩) (fun h => n2 ⟨h, .inr rfl⟩)).1 H j
  · exact (order (fun h => n1 ⟨h, .inl rfl⟩) (fun h => n2 ⟨h, .inl rfl⟩)).2 H j

/-- the printed tables of two years of which the second is the warmer one -/
theorem PrintedOrder.warms_printed (hi : Inputs fs o file text) (hi' : Inputs fs' o' file' text') (byMonth : Bool)
    (ho : o.monthly = false ∧ o.hourlyByMonth = byMonth ∧ o.hourlyByHour = !byMonth ∧ o.compare = none)
    (ho' : o'.monthly = false ∧ o'.hourlyByMonth = byMonth ∧ o'.hourlyByHour = !byMonth ∧ o'.compare = none)
    {x x' : Sim ℝ} (hx : Describes file x) (hx' : Describes file' x') (hp : Physical x) (hs : Systems x) (ht : Timetable x.pop)
    (hp' : Physical x') (hs' : Systems x') (ht' : Timetable x'.pop) {lat lon zone lat' lon' zone' : ℝ} {v v' : Fin 7 → Fin 8760 → ℝ}
    (hy : YearFile text lat lon zone v) (hlat : 28.1 ≤ |lat| ∧ |lat| ≤ 90) (hz : |zone| ≤ 24)
    (hy' : YearFile text' lat' lon' zone' v') (hlat' : 28.1 ≤ |lat'| ∧ |lat'| ≤ 90) (hz' : |zone'| ≤ 24) (junk junk' : Params Dbl)
    (hf : x'.heating.energyType = x.heating.energyType)
    (hW : PrintedOrder.Warms x x' (Spec.EndToEnd.yearOf lat lon zone v) (Spec.EndToEnd.yearOf lat' lon' zone' v')) :
    ∃ out out', main standard Numerals.print fs junk o = .returns [.runHourly byMonth] out ∧
      main standard Numerals.print fs' junk' o' = .returns [.runHourly byMonth] out' ∧
      ∀ i < (if byMonth then 12 else 8760), CellNotAbove i 0 out' out ∧ CellNotAbove i 9 out' out ∧ CellNotAbove i 1 out out' := by
  obtain ⟨out, out', h, h', k⟩ := PrintedOrder.lowers_printed True False hi hi' byMonth ho ho' hx hx' hp hs ht hp' hs' ht' hy hlat hz hy' hlat' hz' junk junk' hf
    fun _ _ _ _ _ _ _ _ e1 e2 c1 c2 => ⟨fun _ => (hW _ _ _ _ _ _ _ _ e1 e2 c1 c2).1, False.elim⟩
  obtain ⟨out2', out2, h2', h2, k'⟩ := PrintedOrder.lowers_printed False True hi' hi byMonth ho' ho hx' hx hp' hs' ht' hp hs ht hy' hlat' hz' hy hlat hz junk' junk hf.symm
    fun _ _ _ _ _ _ _ _ e1 e2 c1 c2 => ⟨False.elim, fun _ => (hW _ _ _ _ _ _ _ _ e2 e1 c2 c1).2⟩
  rw [h] at h2
  rw [h'] at h2'
  injection h2 with _ h2
  injection h2' with _ h2'
  subst h2 h2'
  exact ⟨out, out', h, h', fun i hi => ⟨((k i hi).1 trivial).1, ((k i hi).1 trivial).2, (k' i hi).2 trivial⟩⟩

/-- **C78, printed.** If two weather files for the same place differ in nothing but the temperature (and dew point and humidity) and the second
is in no hour the cooler one, then the tables of the hourly simulation, by month or by hour, show for the second no higher number for heating
and no lower one for cooling in any line; apart from heating, cooling, fans and pumps they are the same texts. -/
theorem C78_printed (hi : Inputs fs o file text) (hi' : Inputs fs' o' file text') (byMonth : Bool)
    (ho : o.monthly = false ∧ o.hourlyByMonth = byMonth ∧ o.hourlyByHour = !byMonth ∧ o.compare = none)
    (ho' : o'.monthly = false ∧ o'.hourlyByMonth = byMonth ∧ o'.hourlyByHour = !byMonth ∧ o'.compare = none)
    {x : Sim ℝ} (hx : Describes file x) (hp : Physical x) (hs : Systems x) (ht : Timetable x.pop) (hw : x.heating.hotcoldWasteFactor = 0)
    (he : 0 < x.heating.efficiency ∧ 0 < x.cooling.cop) (hm : HeavyEnough x)
    (hr : 0 ≤ x.ventilation.heatRecoveryEfficiency ∧ x.ventilation.heatRecoveryEfficiency ≤ 1) {lat lon zone : ℝ} {v v' : Fin 7 → Fin 8760 → ℝ}
    (hy : YearFile text lat lon zone v) (hy' : YearFile text' lat lon zone v') (hlat : 28.1 ≤ |lat| ∧ |lat| ≤ 90) (hz : |zone| ≤ 24)
    (hsame : ∀ c, c ∉ [Spec.WeatherEditing.dryBulb, Spec.WeatherEditing.dewPoint, Spec.WeatherEditing.humidity] → ∀ i, v' c i = v c i)
    (hwarm : ∀ i, v Spec.WeatherEditing.dryBulb i ≤ v' Spec.WeatherEditing.dryBulb i)
    {low high low' high' : ℝ} (hd : WindDriven x (Spec.EndToEnd.yearOf lat lon zone v) low high) (hd' : WindDriven x (Spec.EndToEnd.yearOf lat lon zone v') low' high')
    (junk junk' : Params Dbl) :
    ∃ out out', main standard Numerals.print fs junk o = .returns [.runHourly byMonth] out ∧
      main standard Numerals.print fs' junk' o' = .returns [.runHourly byMonth] out' ∧ SameTable [0, 1, 9, 4, 5] out out' ∧
      ∀ i < (if byMonth then 12 else 8760), CellNotAbove i 0 out' out ∧ CellNotAbove i 9 out' out ∧ CellNotAbove i 1 out out' := by
  have hW : WarmerYear (Spec.EndToEnd.yearOf lat lon zone v) (Spec.EndToEnd.yearOf lat lon zone v') := by
    refine ⟨rfl, rfl, rfl, ?_, ?_, ?_, ?_, hwarm⟩
    · exact funext (hsame 6 (by decide))
    · exact funext (hsame 4 (by decide))
    · exact funext (hsame 5 (by decide))
    · exact funext (hsame 3 (by decide))
  have hpl : PlainSystems x := ⟨he.1, he.2, hs.lossHeating, hs.lossCooling, hw⟩
  obtain ⟨out, out', h, h', hc⟩ := PrintedOrder.warms_printed hi hi' byMonth ho ho' hx hx hp hs ht hp hs ht hy hlat hz hy' hlat hz junk junk' rfl
    fun _ _ _ _ _ _ _ _ e1 e2 c1 c2 =>
      C78_warmer hp hpl hm hr.1 hr.2 (HourlyWhole.overhead_iff (suitable_overhead hlat)) (HourlyWhole.overhead_iff (suitable_overhead hlat)) hW hd hd' e1 e2 c1 c2
  refine ⟨out, out', h, h', ?_, hc⟩
  obtain ⟨t, ht, hs⟩ := C77_hourly (data := [Spec.WeatherEditing.dewPoint, Spec.WeatherEditing.humidity, Spec.WeatherEditing.dryBulb,
      Spec.WeatherEditing.windSpeed]) (place := false) (columns := [0, 1, 9, 4, 5])
    (by unfold Spec.WeatherEditing.hourlyGroups; exact List.mem_cons_of_mem _ List.mem_cons_self) hi hi' byMonth ho ho'
    ⟨fun c hc i => hsame c (fun h => hc (by revert h; revert c; decide)) i, fun _ => ⟨rfl, rfl, rfl⟩⟩ hy hz hy' hz junk junk' h
  rw [h'] at ht
  injection ht with h1 h2
  subst h2
  exact hs

/-- **C76, appliances.** If two building files describe the same building, the second with electric appliances that give off more heat, then
the tables of the hourly simulation show for the second no higher number for heating and no lower one for cooling in any line. -/
theorem C76_appliances (hi : Inputs fs o file text) (hi' : Inputs fs' o' file' text) (byMonth : Bool)
    (ho : o.monthly = false ∧ o.hourlyByMonth = byMonth ∧ o.hourlyByHour = !byMonth ∧ o.compare = none)
    (ho' : o'.monthly = false ∧ o'.hourlyByMonth = byMonth ∧ o'.hourlyByHour = !byMonth ∧ o'.compare = none)
    {x y : Sim ℝ} (hx : Describes file x) (hx' : Describes file' (takeAppliances x y))
    (h1 : x.building.electricApplianceHeatGainOccupied ≤ y.building.electricApplianceHeatGainOccupied)
    (h2 : x.building.electricApplianceHeatGainUnoccupied ≤ y.building.electricApplianceHeatGainUnoccupied)
    (hp : Physical x) (hs : Systems x) (ht : Timetable x.pop) (hw : x.heating.hotcoldWasteFactor = 0)
    (he : 0 < x.heating.efficiency ∧ 0 < x.cooling.cop) (hm : HeavyEnough x)
    (hi0 : 0 ≤ x.simSettings.phiIntFractionToAirNode ∧ x.simSettings.phiIntFractionToAirNode ≤ 1)
    (hA : massArea x + windowConductance x / massCoefficient x ≤ x.bldg.totalAreaPerFloorArea)
    {lat lon zone : ℝ} {v : Fin 7 → Fin 8760 → ℝ} (hy : YearFile text lat lon zone v) (hlat : 28.1 ≤ |lat| ∧ |lat| ≤ 90) (hz : |zone| ≤ 24)
    {low high : ℝ} (hd : WindDriven x (Spec.EndToEnd.yearOf lat lon zone v) low high) (junk junk' : Params Dbl) :
    ∃ out out', main standard Numerals.print fs junk o = .returns [.runHourly byMonth] out ∧
      main standard Numerals.print fs' junk' o' = .returns [.runHourly byMonth] out' ∧
      ∀ i < (if byMonth then 12 else 8760), CellNotAbove i 0 out' out ∧ CellNotAbove i 9 out' out ∧ CellNotAbove i 1 out out' :=
  PrintedOrder.warms_printed hi hi' byMonth ho ho' hx hx' hp hs ht (physical_appliances hp y) { hs with } ht hy hlat hz hy hlat hz junk junk' rfl
    fun _ _ _ _ _ _ _ _ e1 e2 c1 c2 =>
      C72_appliances hp ⟨he.1, he.2, hs.lossHeating, hs.lossCooling, hw⟩ hm hi0.1 hi0.2 hA (HourlyWhole.overhead_iff (suitable_overhead hlat)) hd h1 h2 e1 e2 c1 c2

/-- **C76, sun protection.** If two building files describe the same building, the second with better sun protection, then the tables of the
hourly simulation show for the second no higher number for cooling and no lower one for heating in any line. -/
theorem C76_sun (hi : Inputs fs o file text) (hi' : Inputs fs' o' file' text) (byMonth : Bool)
    (ho : o.monthly = false ∧ o.hourlyByMonth = byMonth ∧ o.hourlyByHour = !byMonth ∧ o.compare = none)
    (ho' : o'.monthly = false ∧ o'.hourlyByMonth = byMonth ∧ o'.hourlyByHour = !byMonth ∧ o'.compare = none)
    {x y : Sim ℝ} (hx : Describes file x) (hx' : Describes file' (takeSunProtection x y)) (hb : BetterProtected x y)
    (hp : Physical x) (hs : Systems x) (ht : Timetable x.pop) (hw : x.heating.hotcoldWasteFactor = 0)
    (he : 0 < x.heating.efficiency ∧ 0 < x.cooling.cop) (hm : HeavyEnough x)
    (hs0 : 0 ≤ x.simSettings.phiSolFractionToAirNode ∧ x.simSettings.phiSolFractionToAirNode ≤ 1)
    (hA : massArea x + windowConductance x / massCoefficient x ≤ x.bldg.totalAreaPerFloorArea)
    {lat lon zone : ℝ} {v : Fin 7 → Fin 8760 → ℝ} (hy : YearFile text lat lon zone v) (hlat : 28.1 ≤ |lat| ∧ |lat| ≤ 90) (hz : |zone| ≤ 24)
    {low high : ℝ} (hd : WindDriven x (Spec.EndToEnd.yearOf lat lon zone v) low high)
    (hrad : ∀ i, 0 ≤ v Spec.WeatherEditing.directRadiation i ∧ 0 ≤ v Spec.WeatherEditing.diffuseRadiation i ∧
      0 ≤ v Spec.WeatherEditing.globalRadiation i ∧
      (0 ≤ Sun.up (placeOf (Spec.EndToEnd.yearOf lat lon zone v)) (HourlyWhole.dayOf i) (HourlyWhole.hourOf i) ∨
        (v Spec.WeatherEditing.directRadiation i = 0 ∧ v Spec.WeatherEditing.diffuseRadiation i = 0))) (junk junk' : Params Dbl) :
    ∃ out out', main standard Numerals.print fs junk o = .returns [.runHourly byMonth] out ∧
      main standard Numerals.print fs' junk' o' = .returns [.runHourly byMonth] out' ∧
      ∀ i < (if byMonth then 12 else 8760), CellNotAbove i 0 out out' ∧ CellNotAbove i 9 out out' ∧ CellNotAbove i 1 out' out := by
  obtain ⟨out', out, h', h, hc⟩ := PrintedOrder.warms_printed hi' hi byMonth ho' ho hx' hx (physical_protected hp hb.positive) { hs with } ht hp hs ht
    hy hlat hz hy hlat hz junk' junk rfl
    fun _ _ _ _ _ _ _ _ e1 e2 c1 c2 => (C72_sun hp ⟨he.1, he.2, hs.lossHeating, hs.lossCooling, hw⟩ hm hb hs0.1 hs0.2 hA
      (HourlyWhole.overhead_iff (suitable_overhead hlat)) hd hrad e2 e1 c2 c1).symm
  exact ⟨out, out', h, h', hc⟩

end ISO.Props
