import Verif.Lemmas.HourlyHour
import Verif.Lemmas.Solar

/-! Helper lemmas: what `simulate(false)` returns, and the occupancy window. -/

namespace ISO.Hourly
open ISO CNum Dbl Epw

section
variable {α : Type} [CNum α] [OfInt α]

theorem simulate_false {m m' : Model α} {hourly : List (EndUses α)} (h : simulate false m = some (m', hourly)) :
    ∃ win, window m.sim.pop = some win ∧ m' = { m with pushed := pushAll m.sim.bldg m.pushed } ∧
      hourly = endUses m.sim (rawResults m.sim (pushAll m.sim.bldg m.pushed).ratios win m.weather) := by
  unfold simulate at h
  cases hw : window m.sim.pop with
  | none => rw [hw] at h; cases h
  | some win =>
    rw [hw] at h
    simp only [Option.bind_eq_bind, Option.bind_some, Bool.false_eq_true, if_false, Option.pure_def,
      Option.some.injEq, Prod.mk.injEq] at h
    exact ⟨win, rfl, h.1.symm, h.2.symm⟩

theorem simulate_of_window {m : Model α} {win : Window} (h : window m.sim.pop = some win) :
    simulate false m = some ({ m with pushed := pushAll m.sim.bldg m.pushed },
      endUses m.sim (rawResults m.sim (pushAll m.sim.bldg m.pushed).ratios win m.weather)) := by
  unfold simulate; rw [h]; rfl

theorem rawResults_length (x : Sim α) (r : Ratios α) (win : Window) (w : Weather α) :
    (rawResults x r win w).length = 8760 := by
  rw [rawResults, runHours_length, List.length_ofFn]

omit [OfInt α] in
theorem endUses_get (x : Sim α) (rs : List (HourResults α)) (i : ℕ) (h : i < (endUses x rs).length) (h' : i < rs.length) :
    (endUses x rs)[i]'h = hourEndUses x (yearDistribution x rs) (rs[i]'h') := by
  simp only [endUses, List.getElem_map]

/-- hour `i` of the year -/
theorem rawResults_get (x : Sim α) (r : Ratios α) (win : Window) (w : Weather α) {rs : List (HourResults α)}
    (hrs : rs = rawResults x r win w) (i : ℕ) (h : i < rs.length) (h' : i < 8760) :
    ∃ st, rs[i]'h = (calculateHour x (initConsts x) r (hourInput x win w ⟨i, h'⟩).1
      (hourInput x win w ⟨i, h'⟩).2 st).2 := by
  have key : ∀ (l : List (Schedule α × HourWeather α)) (hl : i < l.length) (hh : i < (runHours x (initConsts x) r l initialState).length),
      (runHours x (initConsts x) r l initialState)[i]'hh =
        (calculateHour x (initConsts x) r (l[i]'hl).1 (l[i]'hl).2 (stateAt x (initConsts x) r l initialState i)).2 :=
    fun l hl hh => runHours_get x (initConsts x) r l initialState i hh hl
  unfold rawResults at hrs
  generalize hl : List.ofFn (hourInput x win w) = l at hrs
  have hli : i < l.length := by rw [← hl, List.length_ofFn]; exact h'
  have hlg : l[i]'hli = hourInput x win w ⟨i, h'⟩ := by
    simp only [← hl, List.getElem_ofFn]
  subst hrs
  exact ⟨_, by rw [key l hli h, hlg]⟩

end

theorem trunc_le_iff (a : ℝ) (n : ℕ) : truncR a ≤ (n : ℤ) ↔ a < n + 1 := by
  unfold truncR
  split_ifs with h
  · rw [Int.floor_le_iff]; push_cast; rfl
  · rw [Int.ceil_le]
    have h' : a < 0 := not_le.mp h
    have hn : (0:ℝ) ≤ n := Nat.cast_nonneg n
    constructor
    · intro _; linarith
    · intro _; push_cast; linarith

theorem le_trunc_iff {a : ℝ} (ha : 0 ≤ a) (n : ℕ) : (n : ℤ) ≤ truncR a ↔ (n : ℝ) ≤ a := by
  unfold truncR
  rw [if_pos ha, Int.le_floor]; push_cast; rfl

theorem window_fin {p : Population ℝ} {win : Window} (h : window (p.map fin) = some win) :
    win = ⟨truncR p.daysStart, truncR p.daysEnd, truncR p.hoursStart, truncR p.hoursEnd⟩ := by
  have key : ∀ {a : ℝ} {n : Int}, cint (fin a) = some n → n = truncR a := by
    intro a n h
    have h' : cintR a = some n := h
    unfold cintR at h'
    split_ifs at h'
    exact (Option.some.inj h').symm
  simp only [window, Population.map] at h
  cases h1 : cint (fin p.daysStart) with
  | none => rw [h1] at h; cases h
  | some a =>
  cases h2 : cint (fin p.daysEnd) with
  | none => rw [h1, h2] at h; cases h
  | some b =>
  cases h3 : cint (fin p.hoursStart) with
  | none => rw [h1, h2, h3] at h; cases h
  | some c =>
  cases h4 : cint (fin p.hoursEnd) with
  | none => rw [h1, h2, h3, h4] at h; cases h
  | some d =>
    rw [h1, h2, h3, h4] at h
    rw [← key h1, ← key h2, ← key h3, ← key h4]
    exact (Option.some.inj h).symm

theorem window_ok {p : Population ℝ} (h1 : |p.daysStart| ≤ 2147483647) (h2 : |p.daysEnd| ≤ 2147483647)
    (h3 : |p.hoursStart| ≤ 2147483647) (h4 : |p.hoursEnd| ≤ 2147483647) : ∃ win, window (p.map fin) = some win := by
  have key : ∀ {a : ℝ}, |a| ≤ 2147483647 → ∃ n, cint (fin a) = some n := by
    intro a ha
    have ha' := abs_le.mp ha
    refine ⟨truncR a, ?_⟩
    show cintR a = _
    unfold cintR
    rw [if_pos]
    unfold truncR
    split_ifs with h
    · constructor
      · have : 0 ≤ ⌊a⌋ := Int.floor_nonneg.mpr h
        omega
      · have : ⌊a⌋ ≤ ⌊(2147483647:ℝ)⌋ := Int.floor_le_floor ha'.2
        simpa using this
    · constructor
      · have : ⌈(-2147483647:ℝ)⌉ ≤ ⌈a⌉ := Int.ceil_le_ceil ha'.1
        have e : ⌈(-2147483647:ℝ)⌉ = -2147483647 := by
          rw [Int.ceil_eq_iff]; norm_num
        omega
      · have : ⌈a⌉ ≤ 0 := by rw [Int.ceil_le]; push_cast; exact (not_le.mp h).le
        omega
  obtain ⟨a, ha⟩ := key h1
  obtain ⟨b, hb⟩ := key h2
  obtain ⟨c, hc⟩ := key h3
  obtain ⟨d, hd⟩ := key h4
  exact ⟨⟨a, b, c, d⟩, by simp only [window, Population.map, ha, hb, hc, hd]; rfl⟩

end ISO.Hourly
