import Verif.Props.Auxiliary
import Verif.Lemmas.Pushed

/-!
# C27: repeated simulation with one hourly model object
-/

namespace ISO.Props
open ISO ISO.Spec ISO.Hourly ISO.Epw CNum Dbl

/-- what a caller can do with an hourly model object: replace parameters and weather through the setters, or simulate -/
inductive Call (α : Type) where
  | set (x : Sim α) (w : Weather α)
  | run (byMonth : Bool)

section
variable {α : Type} [CNum α] [OfInt α]

/-- a sequence of calls; the object afterwards (`none` if a call is undefined behaviour) -/
def after : List (Call α) → Model α → Option (Model α)
  | [], m => some m
  | .set x w :: cs, m => after cs { m with sim := x, weather := w }
  | .run b :: cs, m => (simulate b m).bind fun r => after cs r.1

/-- a newly constructed object -/
def newObject (x : Sim α) (w : Weather α) : Model α := ⟨x, w, Pushed.empty⟩

/-- the structure parameters during the first simulation of a sequence of calls, if there is one -/
def firstStructure : List (Call α) → Structure α → Option (Structure α)
  | [], _ => none
  | .set x _ :: cs, _ => firstStructure cs x.bldg
  | .run _ :: _, s => some s

theorem simulate_eq (b : Bool) (m : Model α) : simulate b m = (window m.sim.pop).bind fun win =>
    (if b then aggregate (endUses m.sim (rawResults m.sim (pushAll m.sim.bldg m.pushed).ratios win m.weather))
      else some (endUses m.sim (rawResults m.sim (pushAll m.sim.bldg m.pushed).ratios win m.weather))).map
      fun out => ({ m with pushed := pushAll m.sim.bldg m.pushed }, out) := by
  unfold simulate
  cases window m.sim.pop with
  | none => rfl
  | some win =>
    simp only [Option.bind_eq_bind, Option.bind_some]
    generalize endUses m.sim _ = o
    cases b with
    | true => simp only [if_true]; cases aggregate o <;> rfl
    | false => rfl

theorem simulate_model {b : Bool} {m m' : Model α} {o : List (EndUses α)} (h : simulate b m = some (m', o)) :
    m' = { m with pushed := pushAll m.sim.bldg m.pushed } := by
  rw [simulate_eq, Option.bind_eq_some_iff] at h
  obtain ⟨win, -, h⟩ := h
  rw [Option.map_eq_some_iff] at h
  obtain ⟨o', -, e⟩ := h
  exact (congrArg Prod.fst e).symm

theorem after_full {cs : List (Call α)} {m m' : Model α} (h : after cs m = some m') (hf : m.pushed.Full) :
    m'.pushed.Full ∧ m'.pushed.ratios = m.pushed.ratios := by
  induction cs generalizing m with
  | nil => cases h; exact ⟨hf, rfl⟩
  | cons c cs ih =>
    cases c with
    | set x w => exact ih (m := { m with sim := x, weather := w }) h hf
    | run b =>
      simp only [after, Option.bind_eq_some_iff] at h
      obtain ⟨⟨m1, o⟩, h1, h2⟩ := h
      have e := simulate_model h1
      obtain ⟨f1, f2⟩ := pushAll_full m.sim.bldg hf
      obtain ⟨g1, g2⟩ := ih h2 (by rw [e]; exact f1)
      exact ⟨g1, by rw [g2, e]; exact f2⟩

theorem after_pushed {cs : List (Call α)} {m m' : Model α} (h : after cs m = some m') (he : m.pushed = Pushed.empty) :
    match firstStructure cs m.sim.bldg with
    | none => m'.pushed = Pushed.empty
    | some s => m'.pushed.Full ∧ m'.pushed.ratios = freshRatios s := by
  induction cs generalizing m with
  | nil => cases h; exact he
  | cons c cs ih =>
    cases c with
    | set x w => exact ih (m := { m with sim := x, weather := w }) h he
    | run b =>
      simp only [after, Option.bind_eq_some_iff] at h
      obtain ⟨⟨m1, o⟩, h1, h2⟩ := h
      have e := simulate_model h1
      rw [he] at e
      obtain ⟨g1, g2⟩ := after_full h2 (by rw [e]; exact pushAll_empty_full _)
      exact ⟨g1, by rw [g2, e]; exact pushAll_empty _⟩

theorem simulate_ratios (b : Bool) (x : Sim α) (w : Weather α) {p q : Pushed α}
    (h : (pushAll x.bldg p).ratios = (pushAll x.bldg q).ratios) :
    (simulate b ⟨x, w, p⟩).map Prod.snd = (simulate b ⟨x, w, q⟩).map Prod.snd := by
  rw [simulate_eq, simulate_eq]
  simp only [h]
  cases window x.pop with
  | none => rfl
  | some win =>
    simp only [Option.bind_some, Option.map_map]
    rfl

theorem ratios_of_after {cs : List (Call α)} {x0 : Sim α} {w0 : Weather α} {m : Model α}
    (h : after cs (newObject x0 w0) = some m) :
    (pushAll m.sim.bldg m.pushed).ratios = freshRatios ((firstStructure cs x0.bldg).getD m.sim.bldg) := by
  have := after_pushed h rfl
  change match firstStructure cs x0.bldg with | none => _ | some s => _ at this
  cases hs : firstStructure cs x0.bldg with
  | none => rw [hs] at this; simp only at this; rw [this]; exact pushAll_empty _
  | some s => rw [hs] at this; simp only at this; rw [(pushAll_full _ this.1).2, this.2]; rfl

/-- C27: after any sequence of calls on an object, simulating twice in a row gives the same results. -/
theorem C27_twice (cs : List (Call α)) (x0 : Sim α) (w0 : Weather α) (b : Bool) {m m1 : Model α} {o : List (EndUses α)}
    (h : after cs (newObject x0 w0) = some m) (h1 : simulate b m = some (m1, o)) :
    ∃ m2, simulate b m1 = some (m2, o) ∧ m1.sim = m.sim ∧ m1.weather = m.weather := by
  have e := simulate_model h1
  have hf : m1.pushed.Full ∧ m1.pushed.ratios = (pushAll m.sim.bldg m.pushed).ratios := by
    rw [e]
    have := after_pushed h rfl
    change match firstStructure cs x0.bldg with | none => _ | some s => _ at this
    cases hs : firstStructure cs x0.bldg with
    | none => rw [hs] at this; simp only at this; rw [this]; exact ⟨pushAll_empty_full _, rfl⟩
    | some s => rw [hs] at this; simp only at this; exact ⟨(pushAll_full _ this.1).1, rfl⟩
  have k := simulate_ratios b m.sim m.weather (p := m1.pushed) (q := m.pushed)
    (by rw [(pushAll_full _ hf.1).2, hf.2])
  have k1 : simulate b ⟨m.sim, m.weather, m.pushed⟩ = some (m1, o) := h1
  rw [k1] at k
  have em : m1 = ⟨m.sim, m.weather, m1.pushed⟩ := by rw [e]
  simp only [Option.map_eq_some_iff, Option.map_some] at k
  obtain ⟨⟨m2, o2⟩, k2, k3⟩ := k
  simp only at k3
  subst k3
  exact ⟨m2, by rw [em]; exact k2, by rw [e], by rw [e]⟩

/-- C27: as long as the structure parameters (facades, floor area) are those of the first simulation, an object that has
been used in any way gives what a new object with the current parameters gives. -/
theorem C27_history (cs : List (Call α)) (x0 : Sim α) (w0 : Weather α) (b : Bool) {m : Model α}
    (h : after cs (newObject x0 w0) = some m) (hs : ∀ s, firstStructure cs x0.bldg = some s → s = m.sim.bldg) :
    (simulate b m).map Prod.snd = (simulate b (newObject m.sim m.weather)).map Prod.snd := by
  refine simulate_ratios b m.sim m.weather ?_
  rw [ratios_of_after h, pushAll_empty]
  cases hf : firstStructure cs x0.bldg with
  | none => rfl
  | some s => rw [hs s hf]; rfl

end

/-! ## a changed window area does not take full effect -/

/-- the small office with constant lighting and a roof window of `a` m² -/
noncomputable def skylight (a : ℝ) : Sim ℝ :=
  { smallOffice with
    lights := { smallOffice.lights with powerDensityOccupied := 6, powerDensityUnoccupied := 6 }
    bldg := { smallOffice.bldg with windowArea := nineOf 20.65 11.16 16.74 11.16 a } }

theorem skylight_physical {a : ℝ} (ha : 0 ≤ a) : Physical (skylight a) := by
  constructor
  case opaque_ =>
    simp only [skylight, smallOffice, Fin.sum_univ_succ, Fin.sum_univ_zero]
    norm_num [nineOf, Fin.succ]
  case wallArea => intro i; fin_cases i <;> norm_num [skylight, smallOffice, nineOf]
  case wallU => intro i; fin_cases i <;> norm_num [skylight, smallOffice, nineOf]
  case windowArea => intro i; fin_cases i <;> norm_num [skylight, smallOffice, nineOf, ha]
  case windowU => intro i; fin_cases i <;> norm_num [skylight, smallOffice, nineOf]
  all_goals norm_num [skylight, smallOffice]

/-- horizontal surfaces receive 200 W/m², facades nothing -/
noncomputable def roofSun : Weather ℝ where
  latitude := 41.98
  longitude := -87.92
  timezone := -6
  data := fun c _ => if c = DBT then 20 else if c = EGH then 200 else 0

theorem roofSun_facade (i : Fin 8760) (k : Fin 8) : Solar.eglobe roofSun i k = 0 := by
  have hz : NotOverhead roofSun := notOverhead_of_lat rfl
  have e := C20_sum roofSun i k (hz i)
  rw [Solar.eglobe_fin roofSun i k (hz.cos i)] at e
  rw [Dbl.fin.inj e]
  have d1 : roofSun.data EB i = 0 := by simp [roofSun, EB, DBT, EGH]
  have d2 : roofSun.data ED i = 0 := by simp [roofSun, ED, DBT, EGH]
  rw [d1, d2]
  simp [Spec.Sun.direct, Spec.Sun.sky, Spec.Sun.ground]

theorem roofSun_input (a : ℝ) (win : Window) (i : Fin 8760) :
    (∀ k : Fin 9, k ≠ 8 → (hourInput (skylight a) win roofSun i).2.solarRadiation k = 0) ∧
    (hourInput (skylight a) win roofSun i).2.solarRadiation 8 = 200 := by
  constructor
  · intro k hk
    have : k.1 < 8 := by omega
    show (if h : k.1 < 8 then Solar.eglobe roofSun i ⟨k.1, h⟩ else roofSun.data EGH i) = 0
    rw [dif_pos this]; exact roofSun_facade i _
  · show roofSun.data EGH i = 200
    simp [roofSun, DBT, EGH]

/-- the roof's share of the daylight -/
theorem skylight_ratio (a : ℝ) : (freshRatios (skylight a).bldg).naturalLightRatio 8 = a / 0.87 / 511.16 ∧
    (freshRatios (skylight a).bldg).naturalLightShadeRatioReduction 8 = 0 := by
  constructor
  · simp only [freshRatios, facade, structureCalculations, skylight, smallOffice, nineOf]; rw [mul_one_div]
  · simp only [freshRatios, facade, structureCalculations, sub_self]

theorem skylight_consts (a : ℝ) : (initConsts (skylight a)).areaNaturallyLightedRatio = 0.0001 / 511.16 ∧
    (initConsts (skylight a)).maxRatioElectricLighting = 1 ∧ (initConsts (skylight a)).elightNatural = 500 := by
  refine ⟨?_, ?_, ?_⟩
  · simp only [initConsts, skylight, smallOffice, realnum]
    rw [max_eq_left (by norm_num)]
  · rw [maxRatio_eq]; unfold lightingFactor; norm_num [skylight, smallOffice]
  · have k : clt (1:ℝ) 1.0 = false := (clt_real_false _ _).mpr (by norm_num)
    simp only [initConsts, skylight, smallOffice, lightingControl, k, Bool.and_self, cond_false]

/-- electric lighting of the office with a roof window of `a`, if the ratios are those of a roof window of `b` -/
theorem skylight_electric (a b : ℝ) (win : Window) (i : Fin 8760) :
    electricForTotalLightArea (skylight a).bldg (initConsts (skylight a)) (freshRatios (skylight b).bldg)
      (hourInput (skylight a) win roofSun i).2.solarRadiation =
      max 0 (1 - 53 / (0.0001 / 511.16) * 200 * (b / 0.87 / 511.16) / 500) * (0.0001 / 511.16) + (1 - 0.0001 / 511.16) := by
  obtain ⟨h, h8⟩ := roofSun_input a win i
  obtain ⟨c1, c2, c3⟩ := skylight_consts a
  obtain ⟨r1, r2⟩ := skylight_ratio b
  simp only [electricForTotalLightArea]
  rw [csum_nine_real, c1, c2, c3, cmax_real, Finset.sum_eq_single (8 : Fin 9), h8, r1, r2]
  · have k0 : (0.0:ℝ) = 0 := by norm_num
    have k1 : (1.0:ℝ) = 1 := by norm_num
    have k53 : (53.0:ℝ) = 53 := by norm_num
    rw [k0, k1, k53, mul_zero, zero_mul, add_zero, one_mul, mul_one]
  · intro i _ hi; rw [h i hi, mul_zero, zero_mul]
  · intro h; exact absurd (Finset.mem_univ _) h

/-- lighting energy of the first hour for an object whose first simulation had a roof window of `b` -/
theorem skylight_lit {a b : ℝ} (ha : 0 ≤ a) (p : Pushed Dbl)
    (hp : (pushAll ((skylight a).map fin).bldg p).ratios = freshRatios ((skylight b).map fin).bldg)
    {m' : Model Dbl} {o : List (EndUses Dbl)} (h : simulate false ⟨(skylight a).map fin, roofSun.map fin, p⟩ = some (m', o))
    (hi : 0 < o.length) :
    o[0] 2 = fin ((max 0 (1 - 53 / (0.0001 / 511.16) * 200 * (b / 0.87 / 511.16) / 500) * (0.0001 / 511.16) +
        (1 - 0.0001 / 511.16)) * 6 / 1000) := by
  obtain ⟨win, eta, st, hl, hw, e⟩ := simulate_hour h 0 hi
  rw [e]
  generalize (⟨0, hl⟩ : Fin 8760) = i8 at *
  have hz : NotOverhead roofSun := notOverhead_of_lat rfl
  have hx := skylight_physical ha
  have hc := (physical_consts hx).2
  have e0 : ((skylight b).map fin).bldg = (skylight b).bldg.map fin := rfl
  have fb : (skylight b).bldg.floorArea ≠ 0 := by norm_num [skylight, smallOffice]
  have hcell := C13_schedule ((skylight a).map fin) (skylight a).pop rfl (by norm_num [skylight, smallOffice])
    (by norm_num [skylight, smallOffice]) hw (roofSun.map fin) i8
  have hil : (hourInput (skylight a) win roofSun i8).1.interiorLighting = 6 := by
    rw [hourInput_fin _ win _ i8 (hz.cos i8)] at hcell
    have k := congrArg Schedule.interiorLighting hcell
    have k1 : ((skylight a).map fin).lights.powerDensityOccupied = fin 6 := rfl
    have k2 : ((skylight a).map fin).lights.powerDensityUnoccupied = fin 6 := rfl
    simp only [k1, k2, ite_self] at k
    exact Dbl.fin.inj k
  have z : (1000.0 : ℝ) ≠ 0 := by norm_num
  have z' : (1000.0 : ℝ) = 1000 := by norm_num
  have hi2 := hourInput_fin (skylight a) win roofSun i8 (hz.cos i8)
  have hE := skylight_electric a b win i8
  show (electricForTotalLightArea ((skylight a).map fin).bldg (initConsts ((skylight a).map fin))
      (pushAll ((skylight a).map fin).bldg p).ratios (hourInput ((skylight a).map fin) win (roofSun.map fin) i8).2.solarRadiation *
      (hourInput ((skylight a).map fin) win (roofSun.map fin) i8).1.interiorLighting) / 1000.0 = _
  rw [hp, hi2, e0, freshRatios_fin _ fb, initConsts_fin _ (physical_consts hx).1]
  have e1 : ((skylight a).map fin).bldg = (skylight a).bldg.map fin := rfl
  have := electric_fin (skylight a).bldg (initConsts (skylight a)) (freshRatios (skylight b).bldg)
    (hourInput (skylight a) win roofSun i8).2.solarRadiation hc.nat.ne' hc.lux.ne'
  rw [hE] at this
  rw [e1]
  simp only [HourWeather.map, Schedule.map]
  rw [this, hil, fin_mul, fin_lit, fin_div _ z, z']

theorem skylight_less :
    (max 0 (1 - 53 / (0.0001 / 511.16) * 200 * (10 / 0.87 / 511.16) / 500) * (0.0001 / 511.16) + (1 - 0.0001 / 511.16)) * 6 / 1000
    < (max 0 (1 - 53 / (0.0001 / 511.16) * 200 * (0 / 0.87 / 511.16) / 500) * (0.0001 / 511.16) + (1 - 0.0001 / 511.16)) * 6 /
      (1000:ℝ) := by
  rw [max_eq_left (by norm_num)]
  norm_num

theorem skylight_some (a : ℝ) (w : Weather Dbl) (p : Pushed Dbl) : ∃ o, simulate false ⟨(skylight a).map fin, w, p⟩ =
      some (⟨(skylight a).map fin, w, pushAll ((skylight a).map fin).bldg p⟩, o) ∧ 0 < o.length := by
  obtain ⟨win, hwin⟩ := window_ok (p := (skylight a).pop) (by norm_num [skylight, smallOffice, abs_of_pos])
    (by norm_num [skylight, smallOffice, abs_of_pos]) (by norm_num [skylight, smallOffice, abs_of_pos])
    (by norm_num [skylight, smallOffice, abs_of_pos])
  refine ⟨_, simulate_of_window (m := ⟨(skylight a).map fin, w, p⟩) hwin, ?_⟩
  rw [endUses_length, rawResults_length]; norm_num

/-- C27, the part that is false: simulate, change the roof window from 0 to 10 m² with the setter, simulate again.
The lighting energy is still that of the old window; a new object gives less. -/
theorem C27_stale : ∃ (cs : List (Call Dbl)) (m m1 m2 : Model Dbl) (o1 o2 : List (EndUses Dbl)) (used new : ℝ),
    cs = [.run false, .set ((skylight 10).map fin) (roofSun.map fin)] ∧
    after cs (newObject ((skylight 0).map fin) (roofSun.map fin)) = some m ∧
    simulate false m = some (m1, o1) ∧
    simulate false (newObject ((skylight 10).map fin) (roofSun.map fin)) = some (m2, o2) ∧
    (o1[0]?.map fun u => u 2) = some (fin used) ∧ (o2[0]?.map fun u => u 2) = some (fin new) ∧ new < used := by
  obtain ⟨o0, s0, -⟩ := skylight_some 0 (roofSun.map fin) Pushed.empty
  obtain ⟨o1, s1, l1⟩ := skylight_some 10 (roofSun.map fin) (pushAll ((skylight 0).map fin).bldg Pushed.empty)
  obtain ⟨o2, s2, l2⟩ := skylight_some 10 (roofSun.map fin) Pushed.empty
  have v1 := skylight_lit (a := 10) (b := 0) (by norm_num) _
    (by rw [(pushAll_full _ (pushAll_empty_full _)).2, pushAll_empty]) s1 l1
  have v2 := skylight_lit (a := 10) (b := 10) (by norm_num) _ (pushAll_empty _) s2 l2
  refine ⟨_, ⟨(skylight 10).map fin, roofSun.map fin, pushAll ((skylight 0).map fin).bldg Pushed.empty⟩, _, _, o1, o2, _, _,
    rfl, ?_, s1, s2, ?_, ?_, skylight_less⟩
  · simp only [after, newObject]; rw [s0]; rfl
  · rw [List.getElem?_eq_getElem l1]; exact congrArg some v1
  · rw [List.getElem?_eq_getElem l2]; exact congrArg some v2

/-- the hypotheses of `C27_twice` and `C27_history` are met by using an office twice with different weather -/
example : ∃ m, after [.run false, .set ((skylight 10).map fin) (someWeather.map fin), .run false]
    (newObject ((skylight 10).map fin) (roofSun.map fin)) = some m ∧
    ∀ s, firstStructure [.run false, .set ((skylight 10).map fin) (someWeather.map fin), .run false]
      ((skylight 10).map fin).bldg = some s → s = m.sim.bldg := by
  obtain ⟨o1, h1, -⟩ := skylight_some 10 (roofSun.map fin) Pushed.empty
  obtain ⟨o2, h2, -⟩ := skylight_some 10 (someWeather.map fin) (pushAll ((skylight 10).map fin).bldg Pushed.empty)
  refine ⟨⟨(skylight 10).map fin, someWeather.map fin, pushAll ((skylight 10).map fin).bldg
    (pushAll ((skylight 10).map fin).bldg Pushed.empty)⟩, ?_, ?_⟩
  · simp only [after, newObject]
    rw [h1]; simp only [Option.bind_some]
    rw [h2]; simp only [Option.bind_some]
  · intro s hs; cases hs; rfl

end ISO.Props
