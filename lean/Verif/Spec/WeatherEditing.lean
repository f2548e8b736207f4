import Verif.Spec.Editing

/-!
# Specification: what an edit of the weather file changes in the printed tables

The columns of the weather file that the program reads, and the columns of the tables they belong to.
-/

namespace ISO.Spec.WeatherEditing
open ISO ISO.Spec

/-- the seven columns of the weather file: dry-bulb temperature, dew point, relative humidity, global horizontal radiation, direct normal
radiation, diffuse horizontal radiation, wind speed -/
def dryBulb : Fin 7 := 0
def dewPoint : Fin 7 := 1
def humidity : Fin 7 := 2
def globalRadiation : Fin 7 := 3
def directRadiation : Fin 7 := 4
def diffuseRadiation : Fin 7 := 5
def windSpeed : Fin 7 := 6

/-- Two weather years with the same numbers but for those in the given columns; unless `place` is set, latitude, longitude and time zone
are the same as well. -/
structure Edited (data : List (Fin 7)) (place : Bool) (lat lon zone : ℝ) (v : Fin 7 → Fin 8760 → ℝ) (lat' lon' zone' : ℝ)
    (v' : Fin 7 → Fin 8760 → ℝ) : Prop where
  data : ∀ c, c ∉ data → ∀ r, v' c r = v c r
  place : place = false → lat' = lat ∧ lon' = lon ∧ zone' = zone

/-- Groups of columns of the weather file, whether the place belongs to the group, and the columns of the monthly table the group can
change (0: electric heating, 1: electric cooling, 2: lighting, 3: exterior lighting, 4: fans, 5: pumps, 6: electric equipment, 7: exterior
equipment, 8: electric hot water, 9: gas heating, 10: gas cooling, 11: gas equipment, 12: gas hot water).  Dew point and humidity change
nothing; the hours of the lights outside follow the global radiation alone. -/
def monthlyGroups : List (List (Fin 7) × Bool × List (Fin 13)) :=
  [([dewPoint, humidity], false, []),
   ([dewPoint, humidity, dryBulb, directRadiation, diffuseRadiation, windSpeed], true, [0, 1, 4, 5, 9, 10])]

/-- the columns of the monthly table that the weather file can change -/
def monthlyAny : List (Fin 13) := [3, 0, 1, 4, 5, 9, 10]

/-- the same for the tables of the hourly simulation: dew point and humidity change nothing, temperature and wind nothing but heating,
cooling, fans and pumps, the radiation also the lights inside, and the global radiation the lights outside -/
def hourlyGroups : List (List (Fin 7) × Bool × List (Fin 13)) :=
  [([dewPoint, humidity], false, []),
   ([dewPoint, humidity, dryBulb, windSpeed], false, [0, 1, 9, 4, 5]),
   ([dewPoint, humidity, dryBulb, windSpeed, directRadiation, diffuseRadiation], true, [2, 0, 1, 9, 4, 5]),
   ([dewPoint, humidity, dryBulb, windSpeed, directRadiation, diffuseRadiation, globalRadiation], true, [3, 2, 0, 1, 9, 4, 5])]

end ISO.Spec.WeatherEditing
