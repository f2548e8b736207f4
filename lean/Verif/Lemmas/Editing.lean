import Verif.Spec.Editing
import Verif.Spec.EffectsInside

/-! # Lemmas: which part of the input an edit of the building file changes -/

namespace ISO.Lemmas.Editing
open ISO ISO.User ISO.CommandLine ISO.Spec ISO.Spec.Editing ISO.Spec.Param

variable {α : Type} [CNum α] {stod : Str → Except Properties.ConvError α} {file file' : Properties.Store} {u : Params α} {w : WeatherData α}

theorem number_of {n : String} (h : given file' n = given file n) : number stod file' n = number stod file n := by unfold number; rw [h]
theorem integer_of {n : String} (h : given file' n = given file n) : integer file' n = integer file n := by unfold integer; rw [h]
theorem boolean_of {n : String} (h : given file' n = given file n) : boolean file' n = boolean file n := by unfold boolean; rw [h]
theorem code_of {n : String} (h : given file' n = given file n) (l : List (String × α)) : code file' n l = code file n l := by unfold code; rw [h]
theorem facades_of {n : String} (h : given file' n = given file n) : facades stod file' n = facades stod file n := by
  unfold facades Properties.getPropertyAsDoubleVector
  unfold given at h
  rw [h]

theorem edit_HotWater (h : Edited hotWaterNames file file') : simOf (stored stod file' u) w =
    takeHotWater (simOf (stored stod file u) w) (simOf (stored stod file' u) w) := by
  have hg : ∀ r ∈ Param.table, r.name ∉ hotWaterNames → number stod file' r.name = number stod file r.name ∧
      integer file' r.name = integer file r.name ∧ boolean file' r.name = boolean file r.name ∧
      (∀ l : List (String × α), code file' r.name l = code file r.name l) ∧ facades stod file' r.name = facades stod file r.name :=
    fun r hr hn => ⟨number_of (h r hr hn), integer_of (h r hr hn), boolean_of (h r hr hn), code_of (h r hr hn), facades_of (h r hr hn)⟩
  simp only [table, List.forall_mem_cons, List.not_mem_nil, IsEmpty.forall_iff, implies_true, and_true] at hg
  simp only [hotWaterNames, List.mem_cons, List.not_mem_nil, or_false, or_true, true_or, or_self, String.reduceEq, not_false_eq_true,
    not_true_eq_false, forall_true_left, false_implies, true_and, IsEmpty.forall_iff, implies_true, and_true] at hg
  simp only [simOf, takeHotWater, stored, hg]

theorem edit_HeatingSystem (h : Edited heatingSystemNames file file') : simOf (stored stod file' u) w =
    takeHeatingSystem (simOf (stored stod file u) w) (simOf (stored stod file' u) w) := by
  have hg : ∀ r ∈ Param.table, r.name ∉ heatingSystemNames → number stod file' r.name = number stod file r.name ∧
      integer file' r.name = integer file r.name ∧ boolean file' r.name = boolean file r.name ∧
      (∀ l : List (String × α), code file' r.name l = code file r.name l) ∧ facades stod file' r.name = facades stod file r.name :=
    fun r hr hn => ⟨number_of (h r hr hn), integer_of (h r hr hn), boolean_of (h r hr hn), code_of (h r hr hn), facades_of (h r hr hn)⟩
  simp only [table, List.forall_mem_cons, List.not_mem_nil, IsEmpty.forall_iff, implies_true, and_true] at hg
  simp only [heatingSystemNames, List.mem_cons, List.not_mem_nil, or_false, or_true, true_or, or_self, String.reduceEq, not_false_eq_true,
    not_true_eq_false, forall_true_left, false_implies, true_and, IsEmpty.forall_iff, implies_true, and_true] at hg
  simp only [simOf, takeHeatingSystem, stored, hg]

theorem edit_CoolingSystem (h : Edited coolingSystemNames file file') : simOf (stored stod file' u) w =
    takeCoolingSystem (simOf (stored stod file u) w) (simOf (stored stod file' u) w) := by
  have hg : ∀ r ∈ Param.table, r.name ∉ coolingSystemNames → number stod file' r.name = number stod file r.name ∧
      integer file' r.name = integer file r.name ∧ boolean file' r.name = boolean file r.name ∧
      (∀ l : List (String × α), code file' r.name l = code file r.name l) ∧ facades stod file' r.name = facades stod file r.name :=
    fun r hr hn => ⟨number_of (h r hr hn), integer_of (h r hr hn), boolean_of (h r hr hn), code_of (h r hr hn), facades_of (h r hr hn)⟩
  simp only [table, List.forall_mem_cons, List.not_mem_nil, IsEmpty.forall_iff, implies_true, and_true] at hg
  simp only [coolingSystemNames, List.mem_cons, List.not_mem_nil, or_false, or_true, true_or, or_self, String.reduceEq, not_false_eq_true,
    not_true_eq_false, forall_true_left, false_implies, true_and, IsEmpty.forall_iff, implies_true, and_true] at hg
  simp only [simOf, takeCoolingSystem, stored, hg]

theorem edit_Distribution (h : Edited distributionNames file file') : simOf (stored stod file' u) w =
    takeDistribution (simOf (stored stod file u) w) (simOf (stored stod file' u) w) := by
  have hg : ∀ r ∈ Param.table, r.name ∉ distributionNames → number stod file' r.name = number stod file r.name ∧
      integer file' r.name = integer file r.name ∧ boolean file' r.name = boolean file r.name ∧
      (∀ l : List (String × α), code file' r.name l = code file r.name l) ∧ facades stod file' r.name = facades stod file r.name :=
    fun r hr hn => ⟨number_of (h r hr hn), integer_of (h r hr hn), boolean_of (h r hr hn), code_of (h r hr hn), facades_of (h r hr hn)⟩
  simp only [table, List.forall_mem_cons, List.not_mem_nil, IsEmpty.forall_iff, implies_true, and_true] at hg
  simp only [distributionNames, List.mem_cons, List.not_mem_nil, or_false, or_true, true_or, or_self, String.reduceEq, not_false_eq_true,
    not_true_eq_false, forall_true_left, false_implies, true_and, IsEmpty.forall_iff, implies_true, and_true] at hg
  simp only [simOf, takeDistribution, stored, hg]

theorem edit_Pumps (h : Edited pumpsNames file file') : simOf (stored stod file' u) w =
    takePumps (simOf (stored stod file u) w) (simOf (stored stod file' u) w) := by
  have hg : ∀ r ∈ Param.table, r.name ∉ pumpsNames → number stod file' r.name = number stod file r.name ∧
      integer file' r.name = integer file r.name ∧ boolean file' r.name = boolean file r.name ∧
      (∀ l : List (String × α), code file' r.name l = code file r.name l) ∧ facades stod file' r.name = facades stod file r.name :=
    fun r hr hn => ⟨number_of (h r hr hn), integer_of (h r hr hn), boolean_of (h r hr hn), code_of (h r hr hn), facades_of (h r hr hn)⟩
  simp only [table, List.forall_mem_cons, List.not_mem_nil, IsEmpty.forall_iff, implies_true, and_true] at hg
  simp only [pumpsNames, List.mem_cons, List.not_mem_nil, or_false, or_true, true_or, or_self, String.reduceEq, not_false_eq_true,
    not_true_eq_false, forall_true_left, false_implies, true_and, IsEmpty.forall_iff, implies_true, and_true] at hg
  simp only [simOf, takePumps, stored, hg]

theorem edit_HourlyOnly (h : Edited hourlyOnlyNames file file') : simOf (stored stod file' u) w =
    takeHourlyOnly (simOf (stored stod file u) w) (simOf (stored stod file' u) w) := by
  have hg : ∀ r ∈ Param.table, r.name ∉ hourlyOnlyNames → number stod file' r.name = number stod file r.name ∧
      integer file' r.name = integer file r.name ∧ boolean file' r.name = boolean file r.name ∧
      (∀ l : List (String × α), code file' r.name l = code file r.name l) ∧ facades stod file' r.name = facades stod file r.name :=
    fun r hr hn => ⟨number_of (h r hr hn), integer_of (h r hr hn), boolean_of (h r hr hn), code_of (h r hr hn), facades_of (h r hr hn)⟩
  simp only [table, List.forall_mem_cons, List.not_mem_nil, IsEmpty.forall_iff, implies_true, and_true] at hg
  simp only [hourlyOnlyNames, List.mem_cons, List.not_mem_nil, or_false, or_true, true_or, or_self, String.reduceEq, not_false_eq_true,
    not_true_eq_false, forall_true_left, false_implies, true_and, IsEmpty.forall_iff, implies_true, and_true] at hg
  simp only [simOf, takeHourlyOnly, stored, hg]

theorem edit_ExteriorLights (h : Edited exteriorLightsNames file file') : simOf (stored stod file' u) w =
    takeExteriorLights (simOf (stored stod file u) w) (simOf (stored stod file' u) w) := by
  have hg : ∀ r ∈ Param.table, r.name ∉ exteriorLightsNames → number stod file' r.name = number stod file r.name ∧
      integer file' r.name = integer file r.name ∧ boolean file' r.name = boolean file r.name ∧
      (∀ l : List (String × α), code file' r.name l = code file r.name l) ∧ facades stod file' r.name = facades stod file r.name :=
    fun r hr hn => ⟨number_of (h r hr hn), integer_of (h r hr hn), boolean_of (h r hr hn), code_of (h r hr hn), facades_of (h r hr hn)⟩
  simp only [table, List.forall_mem_cons, List.not_mem_nil, IsEmpty.forall_iff, implies_true, and_true] at hg
  simp only [exteriorLightsNames, List.mem_cons, List.not_mem_nil, or_false, or_true, true_or, or_self, String.reduceEq, not_false_eq_true,
    not_true_eq_false, forall_true_left, false_implies, true_and, IsEmpty.forall_iff, implies_true, and_true] at hg
  simp only [simOf, takeExteriorLights, stored, hg]

theorem edit_Fans (h : Edited fansNames file file') : simOf (stored stod file' u) w =
    takeFans (simOf (stored stod file u) w) (simOf (stored stod file' u) w) := by
  have hg : ∀ r ∈ Param.table, r.name ∉ fansNames → number stod file' r.name = number stod file r.name ∧
      integer file' r.name = integer file r.name ∧ boolean file' r.name = boolean file r.name ∧
      (∀ l : List (String × α), code file' r.name l = code file r.name l) ∧ facades stod file' r.name = facades stod file r.name :=
    fun r hr hn => ⟨number_of (h r hr hn), integer_of (h r hr hn), boolean_of (h r hr hn), code_of (h r hr hn), facades_of (h r hr hn)⟩
  simp only [table, List.forall_mem_cons, List.not_mem_nil, IsEmpty.forall_iff, implies_true, and_true] at hg
  simp only [fansNames, List.mem_cons, List.not_mem_nil, or_false, or_true, true_or, or_self, String.reduceEq, not_false_eq_true,
    not_true_eq_false, forall_true_left, false_implies, true_and, IsEmpty.forall_iff, implies_true, and_true] at hg
  simp only [simOf, takeFans, stored, hg]

theorem edit_Comfort (h : Edited comfortNames file file') : simOf (stored stod file' u) w =
    takeComfort (simOf (stored stod file u) w) (simOf (stored stod file' u) w) := by
  have hg : ∀ r ∈ Param.table, r.name ∉ comfortNames → number stod file' r.name = number stod file r.name ∧
      integer file' r.name = integer file r.name ∧ boolean file' r.name = boolean file r.name ∧
      (∀ l : List (String × α), code file' r.name l = code file r.name l) ∧ facades stod file' r.name = facades stod file r.name :=
    fun r hr hn => ⟨number_of (h r hr hn), integer_of (h r hr hn), boolean_of (h r hr hn), code_of (h r hr hn), facades_of (h r hr hn)⟩
  simp only [table, List.forall_mem_cons, List.not_mem_nil, IsEmpty.forall_iff, implies_true, and_true] at hg
  simp only [comfortNames, List.mem_cons, List.not_mem_nil, or_false, or_true, true_or, or_self, String.reduceEq, not_false_eq_true,
    not_true_eq_false, forall_true_left, false_implies, true_and, IsEmpty.forall_iff, implies_true, and_true] at hg
  simp only [simOf, takeComfort, stored, hg]

theorem edit_InteriorLights (h : Edited interiorLightsNames file file') : simOf (stored stod file' u) w =
    takeInteriorLights (simOf (stored stod file u) w) (simOf (stored stod file' u) w) := by
  have hg : ∀ r ∈ Param.table, r.name ∉ interiorLightsNames → number stod file' r.name = number stod file r.name ∧
      integer file' r.name = integer file r.name ∧ boolean file' r.name = boolean file r.name ∧
      (∀ l : List (String × α), code file' r.name l = code file r.name l) ∧ facades stod file' r.name = facades stod file r.name :=
    fun r hr hn => ⟨number_of (h r hr hn), integer_of (h r hr hn), boolean_of (h r hr hn), code_of (h r hr hn), facades_of (h r hr hn)⟩
  simp only [table, List.forall_mem_cons, List.not_mem_nil, IsEmpty.forall_iff, implies_true, and_true] at hg
  simp only [interiorLightsNames, List.mem_cons, List.not_mem_nil, or_false, or_true, true_or, or_self, String.reduceEq, not_false_eq_true,
    not_true_eq_false, forall_true_left, false_implies, true_and, IsEmpty.forall_iff, implies_true, and_true] at hg
  simp only [simOf, takeInteriorLights, stored, hg]

theorem edit_ElectricAppliances (h : Edited electricAppliancesNames file file') : simOf (stored stod file' u) w =
    takeElectricAppliances (simOf (stored stod file u) w) (simOf (stored stod file' u) w) := by
  have hg : ∀ r ∈ Param.table, r.name ∉ electricAppliancesNames → number stod file' r.name = number stod file r.name ∧
      integer file' r.name = integer file r.name ∧ boolean file' r.name = boolean file r.name ∧
      (∀ l : List (String × α), code file' r.name l = code file r.name l) ∧ facades stod file' r.name = facades stod file r.name :=
    fun r hr hn => ⟨number_of (h r hr hn), integer_of (h r hr hn), boolean_of (h r hr hn), code_of (h r hr hn), facades_of (h r hr hn)⟩
  simp only [table, List.forall_mem_cons, List.not_mem_nil, IsEmpty.forall_iff, implies_true, and_true] at hg
  simp only [electricAppliancesNames, List.mem_cons, List.not_mem_nil, or_false, or_true, true_or, or_self, String.reduceEq, not_false_eq_true,
    not_true_eq_false, forall_true_left, false_implies, true_and, IsEmpty.forall_iff, implies_true, and_true] at hg
  simp only [simOf, takeElectricAppliances, stored, hg]

theorem edit_GasAppliances (h : Edited gasAppliancesNames file file') : simOf (stored stod file' u) w =
    takeGasAppliances (simOf (stored stod file u) w) (simOf (stored stod file' u) w) := by
  have hg : ∀ r ∈ Param.table, r.name ∉ gasAppliancesNames → number stod file' r.name = number stod file r.name ∧
      integer file' r.name = integer file r.name ∧ boolean file' r.name = boolean file r.name ∧
      (∀ l : List (String × α), code file' r.name l = code file r.name l) ∧ facades stod file' r.name = facades stod file r.name :=
    fun r hr hn => ⟨number_of (h r hr hn), integer_of (h r hr hn), boolean_of (h r hr hn), code_of (h r hr hn), facades_of (h r hr hn)⟩
  simp only [table, List.forall_mem_cons, List.not_mem_nil, IsEmpty.forall_iff, implies_true, and_true] at hg
  simp only [gasAppliancesNames, List.mem_cons, List.not_mem_nil, or_false, or_true, true_or, or_self, String.reduceEq, not_false_eq_true,
    not_true_eq_false, forall_true_left, false_implies, true_and, IsEmpty.forall_iff, implies_true, and_true] at hg
  simp only [simOf, takeGasAppliances, stored, hg]

theorem edit_Occupancy (h : Edited occupancyNames file file') : simOf (stored stod file' u) w =
    takeOccupancy (simOf (stored stod file u) w) (simOf (stored stod file' u) w) := by
  have hg : ∀ r ∈ Param.table, r.name ∉ occupancyNames → number stod file' r.name = number stod file r.name ∧
      integer file' r.name = integer file r.name ∧ boolean file' r.name = boolean file r.name ∧
      (∀ l : List (String × α), code file' r.name l = code file r.name l) ∧ facades stod file' r.name = facades stod file r.name :=
    fun r hr hn => ⟨number_of (h r hr hn), integer_of (h r hr hn), boolean_of (h r hr hn), code_of (h r hr hn), facades_of (h r hr hn)⟩
  simp only [table, List.forall_mem_cons, List.not_mem_nil, IsEmpty.forall_iff, implies_true, and_true] at hg
  simp only [occupancyNames, List.mem_cons, List.not_mem_nil, or_false, or_true, true_or, or_self, String.reduceEq, not_false_eq_true,
    not_true_eq_false, forall_true_left, false_implies, true_and, IsEmpty.forall_iff, implies_true, and_true] at hg
  simp only [simOf, takeOccupancy, stored, hg]

theorem edit_Floor (h : Edited floorNames file file') : simOf (stored stod file' u) w =
    takeFloor (simOf (stored stod file u) w) (simOf (stored stod file' u) w) := by
  have hg : ∀ r ∈ Param.table, r.name ∉ floorNames → number stod file' r.name = number stod file r.name ∧
      integer file' r.name = integer file r.name ∧ boolean file' r.name = boolean file r.name ∧
      (∀ l : List (String × α), code file' r.name l = code file r.name l) ∧ facades stod file' r.name = facades stod file r.name :=
    fun r hr hn => ⟨number_of (h r hr hn), integer_of (h r hr hn), boolean_of (h r hr hn), code_of (h r hr hn), facades_of (h r hr hn)⟩
  simp only [table, List.forall_mem_cons, List.not_mem_nil, IsEmpty.forall_iff, implies_true, and_true] at hg
  simp only [floorNames, List.mem_cons, List.not_mem_nil, or_false, or_true, true_or, or_self, String.reduceEq, not_false_eq_true,
    not_true_eq_false, forall_true_left, false_implies, true_and, IsEmpty.forall_iff, implies_true, and_true] at hg
  simp only [simOf, takeFloor, stored, hg]

theorem edit_WeatherFile (h : Edited weatherFileNames file file') : simOf (stored stod file' u) w =
    simOf (stored stod file u) w := by
  have hg : ∀ r ∈ Param.table, r.name ∉ weatherFileNames → number stod file' r.name = number stod file r.name ∧
      integer file' r.name = integer file r.name ∧ boolean file' r.name = boolean file r.name ∧
      (∀ l : List (String × α), code file' r.name l = code file r.name l) ∧ facades stod file' r.name = facades stod file r.name :=
    fun r hr hn => ⟨number_of (h r hr hn), integer_of (h r hr hn), boolean_of (h r hr hn), code_of (h r hr hn), facades_of (h r hr hn)⟩
  simp only [table, List.forall_mem_cons, List.not_mem_nil, IsEmpty.forall_iff, implies_true, and_true] at hg
  simp only [weatherFileNames, List.mem_cons, List.not_mem_nil, or_false, or_true, true_or, or_self, String.reduceEq, not_false_eq_true,
    not_true_eq_false, forall_true_left, false_implies, true_and, IsEmpty.forall_iff, implies_true, and_true] at hg
  simp only [simOf, stored, hg]

theorem edit_Management (h : Edited managementNames file file') : simOf (stored stod file' u) w =
    takeManagement (simOf (stored stod file u) w) (simOf (stored stod file' u) w) := by
  have hg : ∀ r ∈ Param.table, r.name ∉ managementNames → number stod file' r.name = number stod file r.name ∧
      integer file' r.name = integer file r.name ∧ boolean file' r.name = boolean file r.name ∧
      (∀ l : List (String × α), code file' r.name l = code file r.name l) ∧ facades stod file' r.name = facades stod file r.name :=
    fun r hr hn => ⟨number_of (h r hr hn), integer_of (h r hr hn), boolean_of (h r hr hn), code_of (h r hr hn), facades_of (h r hr hn)⟩
  simp only [table, List.forall_mem_cons, List.not_mem_nil, IsEmpty.forall_iff, implies_true, and_true] at hg
  simp only [managementNames, List.mem_cons, List.not_mem_nil, or_false, or_true, true_or, or_self, String.reduceEq, not_false_eq_true,
    not_true_eq_false, forall_true_left, false_implies, true_and, IsEmpty.forall_iff, implies_true, and_true] at hg
  simp only [simOf, takeManagement, stored, hg]

theorem edit_ExteriorEquipment (h : Edited exteriorEquipmentNames file file') : simOf (stored stod file' u) w =
    takeExteriorEquipment (simOf (stored stod file u) w) (simOf (stored stod file' u) w) := by
  have hg : ∀ r ∈ Param.table, r.name ∉ exteriorEquipmentNames → number stod file' r.name = number stod file r.name ∧
      integer file' r.name = integer file r.name ∧ boolean file' r.name = boolean file r.name ∧
      (∀ l : List (String × α), code file' r.name l = code file r.name l) ∧ facades stod file' r.name = facades stod file r.name :=
    fun r hr hn => ⟨number_of (h r hr hn), integer_of (h r hr hn), boolean_of (h r hr hn), code_of (h r hr hn), facades_of (h r hr hn)⟩
  simp only [table, List.forall_mem_cons, List.not_mem_nil, IsEmpty.forall_iff, implies_true, and_true] at hg
  simp only [exteriorEquipmentNames, List.mem_cons, List.not_mem_nil, or_false, or_true, true_or, or_self, String.reduceEq, not_false_eq_true,
    not_true_eq_false, forall_true_left, false_implies, true_and, IsEmpty.forall_iff, implies_true, and_true] at hg
  simp only [simOf, takeExteriorEquipment, stored, hg]

theorem edit_MonthlyOnly (h : Edited monthlyOnlyNames file file') : simOf (stored stod file' u) w =
    takeMonthlyOnly (simOf (stored stod file u) w) (simOf (stored stod file' u) w) := by
  have hg : ∀ r ∈ Param.table, r.name ∉ monthlyOnlyNames → number stod file' r.name = number stod file r.name ∧
      integer file' r.name = integer file r.name ∧ boolean file' r.name = boolean file r.name ∧
      (∀ l : List (String × α), code file' r.name l = code file r.name l) ∧ facades stod file' r.name = facades stod file r.name :=
    fun r hr hn => ⟨number_of (h r hr hn), integer_of (h r hr hn), boolean_of (h r hr hn), code_of (h r hr hn), facades_of (h r hr hn)⟩
  simp only [table, List.forall_mem_cons, List.not_mem_nil, IsEmpty.forall_iff, implies_true, and_true] at hg
  simp only [monthlyOnlyNames, List.mem_cons, List.not_mem_nil, or_false, or_true, true_or, or_self, String.reduceEq, not_false_eq_true,
    not_true_eq_false, forall_true_left, false_implies, true_and, IsEmpty.forall_iff, implies_true, and_true] at hg
  simp only [simOf, takeMonthlyOnly, stored, hg]

theorem edit_Climate (h : Edited climateNames file file') : simOf (stored stod file' u) w =
    takeClimate (simOf (stored stod file u) w) (simOf (stored stod file' u) w) := by
  have hg : ∀ r ∈ Param.table, r.name ∉ climateNames → number stod file' r.name = number stod file r.name ∧
      integer file' r.name = integer file r.name ∧ boolean file' r.name = boolean file r.name ∧
      (∀ l : List (String × α), code file' r.name l = code file r.name l) ∧ facades stod file' r.name = facades stod file r.name :=
    fun r hr hn => ⟨number_of (h r hr hn), integer_of (h r hr hn), boolean_of (h r hr hn), code_of (h r hr hn), facades_of (h r hr hn)⟩
  simp only [table, List.forall_mem_cons, List.not_mem_nil, IsEmpty.forall_iff, implies_true, and_true] at hg
  simp only [climateNames, List.mem_cons, List.not_mem_nil, or_false, or_true, true_or, or_self, String.reduceEq, not_false_eq_true,
    not_true_eq_false, forall_true_left, false_implies, true_and, IsEmpty.forall_iff, implies_true, and_true] at hg
  simp only [simOf, takeClimate, stored, hg]

theorem edit_Windows (h : Edited windowsNames file file') : simOf (stored stod file' u) w =
    takeWindows (simOf (stored stod file u) w) (simOf (stored stod file' u) w) := by
  have hg : ∀ r ∈ Param.table, r.name ∉ windowsNames → number stod file' r.name = number stod file r.name ∧
      integer file' r.name = integer file r.name ∧ boolean file' r.name = boolean file r.name ∧
      (∀ l : List (String × α), code file' r.name l = code file r.name l) ∧ facades stod file' r.name = facades stod file r.name :=
    fun r hr hn => ⟨number_of (h r hr hn), integer_of (h r hr hn), boolean_of (h r hr hn), code_of (h r hr hn), facades_of (h r hr hn)⟩
  simp only [table, List.forall_mem_cons, List.not_mem_nil, IsEmpty.forall_iff, implies_true, and_true] at hg
  simp only [windowsNames, List.mem_cons, List.not_mem_nil, or_false, or_true, true_or, or_self, String.reduceEq, not_false_eq_true,
    not_true_eq_false, forall_true_left, false_implies, true_and, IsEmpty.forall_iff, implies_true, and_true] at hg
  simp only [simOf, takeWindows, stored, hg]

theorem edit_Shades (h : Edited shadesNames file file') : simOf (stored stod file' u) w =
    takeShades (simOf (stored stod file u) w) (simOf (stored stod file' u) w) := by
  have hg : ∀ r ∈ Param.table, r.name ∉ shadesNames → number stod file' r.name = number stod file r.name ∧
      integer file' r.name = integer file r.name ∧ boolean file' r.name = boolean file r.name ∧
      (∀ l : List (String × α), code file' r.name l = code file r.name l) ∧ facades stod file' r.name = facades stod file r.name :=
    fun r hr hn => ⟨number_of (h r hr hn), integer_of (h r hr hn), boolean_of (h r hr hn), code_of (h r hr hn), facades_of (h r hr hn)⟩
  simp only [table, List.forall_mem_cons, List.not_mem_nil, IsEmpty.forall_iff, implies_true, and_true] at hg
  simp only [shadesNames, List.mem_cons, List.not_mem_nil, or_false, or_true, true_or, or_self, String.reduceEq, not_false_eq_true,
    not_true_eq_false, forall_true_left, false_implies, true_and, IsEmpty.forall_iff, implies_true, and_true] at hg
  simp only [simOf, takeShades, stored, hg]

end ISO.Lemmas.Editing
