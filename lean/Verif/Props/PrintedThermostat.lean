import Verif.Props.PrintedWarmth
import Verif.Props.WholeYear

/-! # C76: turning down the heating never prints a higher number for cooling, and turning up the cooling none for heating -/

namespace ISO.Props
open ISO ISO.Numerals ISO.Spec ISO.Spec.Text ISO.Spec.Whole ISO.User ISO.CommandLine ISO.Epw ISO.Lemmas Dbl
open ISO.Spec.EndToEnd (Describes Inputs Timetable)
open ISO.Spec.HourlyWhole
open EndToEnd
open ISO.Spec.PrintedOrder

variable {fs fs' : FileSystem} {o o' : Options} {file file' : Properties.Store} {text : Str}

/-- **C76, heating turned down, hourly.** If two building files describe the same building, the second with lower set-points for heating, then
the tables of the hourly simulation, by month or by hour, show for the second no higher number for cooling in any line. -/
theorem C76_setback (hi : Inputs fs o file text) (hi' : Inputs fs' o' file' text) (byMonth : Bool)
    (ho : o.monthly = false ∧ o.hourlyByMonth = byMonth ∧ o.hourlyByHour = !byMonth ∧ o.compare = none)
    (ho' : o'.monthly = false ∧ o'.hourlyByMonth = byMonth ∧ o'.hourlyByHour = !byMonth ∧ o'.compare = none)
    {x y : Sim ℝ} (hx : Describes file x) (hx' : Describes file' (takeSetPoints x y))
    (h1 : y.heating.temperatureSetPointOccupied ≤ x.heating.temperatureSetPointOccupied)
    (h2 : y.heating.temperatureSetPointUnoccupied ≤ x.heating.temperatureSetPointUnoccupied)
    (h3 : y.cooling.temperatureSetPointOccupied = x.cooling.temperatureSetPointOccupied)
    (h4 : y.cooling.temperatureSetPointUnoccupied = x.cooling.temperatureSetPointUnoccupied)
    (hp : Physical x) (hp' : Physical (takeSetPoints x y)) (hs : Systems x) (hs' : Systems (takeSetPoints x y)) (ht : Timetable x.pop) (hw : x.heating.hotcoldWasteFactor = 0)
    (he : 0 < x.heating.efficiency ∧ 0 < x.cooling.cop) (hm : HeavyEnough x)
    {lat lon zone : ℝ} {v : Fin 7 → Fin 8760 → ℝ} (hy : YearFile text lat lon zone v) (hlat : 28.1 ≤ |lat| ∧ |lat| ≤ 90) (hz : |zone| ≤ 24)
    {low high : ℝ} (hd : WindDriven x (Spec.EndToEnd.yearOf lat lon zone v) low high)
    (hd' : WindDriven (takeSetPoints x y) (Spec.EndToEnd.yearOf lat lon zone v) low high) (junk junk' : Params Dbl) :
    ∃ out out', main standard Numerals.print fs junk o = .returns [.runHourly byMonth] out ∧
      main standard Numerals.print fs' junk' o' = .returns [.runHourly byMonth] out' ∧
      ∀ i < (if byMonth then 12 else 8760), CellNotAbove i 1 out' out := by
  obtain ⟨out, out', h, h', k⟩ := PrintedOrder.lowers_printed False True hi hi' byMonth ho ho' hx hx' hp hs ht hp' hs' ht hy hlat hz hy hlat hz
    junk junk' rfl fun _ _ _ _ _ _ _ _ e1 e2 c1 c2 => ⟨False.elim, fun _ =>
      (C72_heating hp hp' ⟨he.1, he.2, hs.lossHeating, hs.lossCooling, hw⟩ hm (HourlyWhole.overhead_iff (suitable_overhead hlat)) hd hd' h1 h2 h3 h4
        e1 e2 c1 c2).2⟩
  exact ⟨out, out', h, h', fun i hi => (k i hi).2 trivial⟩

/-- **C76, cooling turned up, hourly.** If two building files describe the same building, the second with higher set-points for cooling, then
the tables of the hourly simulation, by month or by hour, show for the second no higher number for heating in any line. -/
theorem C76_setup (hi : Inputs fs o file text) (hi' : Inputs fs' o' file' text) (byMonth : Bool)
    (ho : o.monthly = false ∧ o.hourlyByMonth = byMonth ∧ o.hourlyByHour = !byMonth ∧ o.compare = none)
    (ho' : o'.monthly = false ∧ o'.hourlyByMonth = byMonth ∧ o'.hourlyByHour = !byMonth ∧ o'.compare = none)
    {x y : Sim ℝ} (hx : Describes file x) (hx' : Describes file' (takeSetPoints x y))
    (h1 : y.heating.temperatureSetPointOccupied = x.heating.temperatureSetPointOccupied)
    (h2 : y.heating.temperatureSetPointUnoccupied = x.heating.temperatureSetPointUnoccupied)
    (h3 : x.cooling.temperatureSetPointOccupied ≤ y.cooling.temperatureSetPointOccupied)
    (h4 : x.cooling.temperatureSetPointUnoccupied ≤ y.cooling.temperatureSetPointUnoccupied)
    (hp : Physical x) (hp' : Physical (takeSetPoints x y)) (hs : Systems x) (hs' : Systems (takeSetPoints x y)) (ht : Timetable x.pop) (hw : x.heating.hotcoldWasteFactor = 0)
    (he : 0 < x.heating.efficiency ∧ 0 < x.cooling.cop) (hm : HeavyEnough x)
    {lat lon zone : ℝ} {v : Fin 7 → Fin 8760 → ℝ} (hy : YearFile text lat lon zone v) (hlat : 28.1 ≤ |lat| ∧ |lat| ≤ 90) (hz : |zone| ≤ 24)
    {low high : ℝ} (hd : WindDriven x (Spec.EndToEnd.yearOf lat lon zone v) low high)
    (hd' : WindDriven (takeSetPoints x y) (Spec.EndToEnd.yearOf lat lon zone v) low high) (junk junk' : Params Dbl) :
    ∃ out out', main standard Numerals.print fs junk o = .returns [.runHourly byMonth] out ∧
      main standard Numerals.print fs' junk' o' = .returns [.runHourly byMonth] out' ∧
      ∀ i < (if byMonth then 12 else 8760), CellNotAbove i 0 out' out ∧ CellNotAbove i 9 out' out := by
  obtain ⟨out, out', h, h', k⟩ := PrintedOrder.lowers_printed True False hi hi' byMonth ho ho' hx hx' hp hs ht hp' hs' ht hy hlat hz hy hlat hz
    junk junk' rfl fun _ _ _ _ _ _ _ _ e1 e2 c1 c2 => ⟨fun _ =>
      (C72_cooling hp hp' ⟨he.1, he.2, hs.lossHeating, hs.lossCooling, hw⟩ hm (HourlyWhole.overhead_iff (suitable_overhead hlat)) hd hd' h1 h2 h3 h4
        e1 e2 c1 c2).2, False.elim⟩
  exact ⟨out, out', h, h', fun i hi => (k i hi).1 trivial⟩

end ISO.Props
