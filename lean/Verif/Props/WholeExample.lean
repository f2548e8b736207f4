import Verif.Props.Shipped

/-! # C61: a complete input -/

namespace ISO.Props
open ISO ISO.Numerals ISO.Properties ISO.Spec ISO.Spec.Text ISO.Spec.Whole ISO.User ISO.CommandLine ISO.Epw ISO.Lemmas Dbl

/-- the example building of C52 and a weather file with the given text -/
def diskWith (text : Str) : FileSystem where
  exists_ p := decide (p ∈ ["models/office.ism".toList, "models/chicago.epw".toList])
  read p := if p = "models/office.ism".toList then some exampleFile else some text

theorem diskWith_office (text : Str) : (diskWith text).read "models/office.ism".toList = some exampleFile := by
  unfold diskWith
  dsimp only
  rw [if_pos rfl]

theorem diskWith_weather (text : Str) : (diskWith text).read "models/chicago.epw".toList = some text := by
  unfold diskWith
  dsimp only
  rw [if_neg (by decide)]

theorem diskWith_exists (text p : Str) :
    (diskWith text).exists_ p = decide (p ∈ ["models/office.ism".toList, "models/chicago.epw".toList]) := by
  simp only [diskWith]

theorem office_occupied : Occupied officeStore := by
  refine ⟨(1 : ℚ), (1 : ℚ), (1 : ℚ), (17 : ℚ), number_value (by decide +kernel), number_value (by decide +kernel), number_value (by decide +kernel),
    number_value (by decide +kernel), ?_⟩
  norm_num

theorem office_shaded : Shaded officeStore := by
  refine ⟨_, facades_value (name := "windowSDF") (n := .number 1) (ne := .number 1) (e := .number 1) (se := .number 1) (s := .number 1)
    (sw := .number 1) (w := .number 1) (nw := .number 1) (roof := .number 1) (by decide +kernel), fun i => ⟨1, ?_, le_refl _, by norm_num⟩⟩
  fin_cases i <;> simp [toDouble]

theorem office_finite : Finite officeStore := plainStore_finite (by decide +kernel)

theorem office_accepted : ∀ r ∈ Param.table, Param.judge Numerals.stod officeStore r = .accepted := accepted_value (by decide +kernel)

theorem office_runs (junk : Params Dbl) (text : Str) (lat lon zone : ℝ) (v : Fin 7 → Fin 8760 → ℝ) (hy : YearFile text lat lon zone v)
    (hs : Suitable lat zone v) : ∃ out,
    main standard Numerals.print (diskWith text) junk ⟨"models/office.ism".toList, none, false, false, false, none⟩ = .returns [.runMonthly] out ∧
    (readTable ',' out).length = 14 ∧ ∀ row ∈ (readTable ',' out).drop 1, row.length = 14 := by
  have hp : parsed (diskWith text) ⟨"models/office.ism".toList, none, false, false, false, none⟩ = .ok officeStore := by
    unfold parsed
    simp only
    rw [diskWith_office]
    exact officeStore_eq
  have hg : Param.given officeStore "weatherfilepath" = some "chicago.epw".toList := by decide +kernel
  have hw : if (diskWith text).exists_ "chicago.epw".toList then "models/chicago.epw".toList = "chicago.epw".toList else
      "models/chicago.epw".toList = resolveFilename "models/office.ism".toList "chicago.epw".toList ∧
        (diskWith text).exists_ "models/chicago.epw".toList = true := by
    rw [diskWith_exists, diskWith_exists]
    decide +kernel
  exact (C61_runs (diskWith text) junk ⟨"models/office.ism".toList, none, false, false, false, none⟩ (by rw [diskWith_exists]; decide +kernel) (by simp) officeStore hp
    office_accepted office_finite office_occupied office_shaded _ _ hg hw text (diskWith_weather text) lat lon zone v hy hs).2 ⟨rfl, rfl, rfl, rfl⟩

/-- the hypotheses of `C61_runs` are met -/
example (junk : Params Dbl) : ∃ out,
    main standard Numerals.print (diskWith someYear) junk ⟨"models/office.ism".toList, none, false, false, false, none⟩ = .returns [.runMonthly] out ∧
    (readTable ',' out).length = 14 ∧ ∀ row ∈ (readTable ',' out).drop 1, row.length = 14 :=
  office_runs junk someYear _ _ _ _ someYear_complete someYear_suitable

/-- a disk with a building file and a weather file -/
def twoFiles (building text : Str) : FileSystem where
  exists_ _ := true
  read p := if p = "SmallOffice_v2.ism".toList then some building else some text

theorem twoFiles_building (b t : Str) : (twoFiles b t).read "SmallOffice_v2.ism".toList = some b := by
  unfold twoFiles
  dsimp only
  rw [if_pos rfl]

theorem twoFiles_weather (b t : Str) : (twoFiles b t).read "ORD.epw".toList = some t := by
  unfold twoFiles
  dsimp only
  rw [if_neg (by decide)]

theorem twoFiles_exists (b t p : Str) : (twoFiles b t).exists_ p = true := rfl

/-- so are those of `C61_shipped` -/
example (junk : Params Dbl) :
    main standard Numerals.print (twoFiles shipped someYear) junk ⟨"SmallOffice_v2.ism".toList, none, false, false, false, none⟩ = .undefined :=
  C61_shipped (twoFiles shipped someYear) junk ⟨"SmallOffice_v2.ism".toList, none, false, false, false, none⟩ ⟨rfl, rfl, rfl, rfl⟩ rfl
    (twoFiles_exists _ _ _) (twoFiles_building _ _) "ORD.epw".toList (by rw [if_pos (twoFiles_exists _ _ _)]) someYear (twoFiles_weather _ _)
    _ _ _ _ someYear_complete someYear_suitable

end ISO.Props
