import Verif.Spec.ColdYear
import Verif.Props.Insulation
import Verif.Props.WholeYear

/-! # C79: insulation, airtightness and heat recovery over a whole year of the hourly model -/

namespace ISO.Props
open ISO ISO.Spec ISO.Hourly ISO.Epw CNum Dbl

/-- two runs of which the second loses less, while it is never warmer outdoors than the mass -/
theorem run_losses {N : ℕ} {net net' : ℕ → ThreeNodes} {H C mass air surface power mass' air' surface' power' : ℕ → ℝ}
    (r : Run N net H C mass air surface power) (r' : Run N net' H C mass' air' surface' power') (hs : ∀ i < N, Solid (net i))
    (h3 : ∀ i < N, 0 < (net' i).massOutdoor) (h5 : ∀ i < N, 0 ≤ (net' i).surfaceOutdoor) (hl : ∀ i < N, LosesLess (net i) (net' i))
    (h0 : mass 0 ≤ mass' 0) (hm : ∀ i < N, (net i).outdoor ≤ mass i) (hH : ∀ i < N, (net i).outdoor ≤ H i) :
    ∀ i < N, power' i ≤ power i := by
  have step : ∀ i < N, mass i ≤ mass' i → power' i ≤ power i ∧ mass (i + 1) ≤ mass' (i + 1) := by
    intro i hi h
    have s := hs i hi
    have l := hl i hi
    obtain ⟨k1, -, k2⟩ := compare_losses s.capacity s.massSurface s.massOutdoor s.surfaceAir s.surfaceOutdoor s.airExchange (h3 i hi) (h5 i hi)
      l.capacity l.massSurface l.surfaceAir l.outdoor l.massOutdoor l.surfaceOutdoor l.air l.toAir l.toSurface l.toMass
      (l.toAir0.trans l.toAir) (l.toSurface0.trans l.toSurface) (l.toMass0.trans l.toMass) (r.balanced i hi) (r'.balanced i hi)
      (r.controlled i hi) (r'.controlled i hi) h (.inr s.heavy) ((hm i hi).trans h) (hH i hi)
    exact ⟨k1, k2⟩
  have hmass : ∀ i ≤ N, mass i ≤ mass' i := by
    intro i
    induction i with
    | zero => intro _; exact h0
    | succ i ih => intro hi; exact (step i (by omega) (ih (by omega))).2
  exact fun i hi => (step i hi (hmass i hi.le)).1

/-- a mass that would settle no lower than `level` stays there -/
theorem run_level {N : ℕ} {net : ℕ → ThreeNodes} {H C mass air surface power : ℕ → ℝ} (r : Run N net H C mass air surface power)
    (hs : ∀ i < N, Solid (net i)) {lowest level s set : ℝ} (h0 : level ≤ mass 0) (ho : ∀ i < N, lowest ≤ (net i).outdoor) (hH : ∀ i < N, set ≤ H i)
    (g2 : ∀ i < N, 0 ≤ (net i).toSurface) (g3 : ∀ i < N, 0 ≤ (net i).toMass)
    (e1 : ∀ i < N, 0 ≤ (net i).massSurface * (level - s) + (net i).surfaceOutdoor * (lowest - s) + (net i).surfaceAir * (set - s))
    (e2 : ∀ i < N, (net i).massOutdoor * (level - lowest) ≤ (net i).massSurface * (s - level)) : ∀ i ≤ N, level ≤ mass i := by
  intro i
  induction i with
  | zero => intro _; exact h0
  | succ i ih =>
    intro hi
    have hi' : i < N := by omega
    have hm := ih hi'.le
    have d := hs i hi'
    generalize hn : net i = n at d
    have b := r.balanced i hi'
    rw [hn] at b
    have o := ho i hi'
    have a2 := g2 i hi'
    have a3 := g3 i hi'
    have a4 := e1 i hi'
    have a5 := e2 i hi'
    rw [hn] at o a2 a3 a4 a5
    have b0 : Balanced { n with
        outdoor := lowest
        toSurface := -(n.massSurface * (level - s) + n.surfaceOutdoor * (lowest - s) + n.surfaceAir * (set - s))
        toMass := -(n.massSurface * (s - level) - n.massOutdoor * (level - lowest)) } level level s set
        (-(n.toAir + n.surfaceAir * (s - set) + n.airExchange * (n.entering - set))) := by
      constructor <;> simp only <;> ring
    have hw : Warmer { n with
        outdoor := lowest
        toSurface := -(n.massSurface * (level - s) + n.surfaceOutdoor * (lowest - s) + n.surfaceAir * (set - s))
        toMass := -(n.massSurface * (s - level) - n.massOutdoor * (level - lowest)) } n := by
      constructor <;> try first | rfl | exact le_rfl
      · exact o
      · simp only; linarith
      · simp only; linarith
    exact compare_mass hw d.capacity d.massSurface d.massOutdoor d.surfaceAir d.surfaceOutdoor hm b0 b
      ((hH i hi').trans (r.controlled i hi').above) (.inr d.heavy)

/-- sun never cools -/
theorem solar_nonneg {x : Sim ℝ} (hx : Physical x) (hg : OnlyGains x) {sun : Fin 9 → ℝ} (h : ∀ k, 0 ≤ sun k) : 0 ≤ solarGain x sun := by
  unfold solarGain
  refine div_nonneg (Finset.sum_nonneg fun i _ => mul_nonneg (h i) (add_nonneg ?_ (mul_nonneg (hx.windowArea i) ?_))) hx.floor.le
  · exact mul_nonneg (mul_nonneg (mul_nonneg (hx.wallArea i) (hg.absorption i)) (hx.wallU i)) hg.resistance
  · have hi := hx.irradiance
    have q0 : 0 ≤ min (sun i) x.bldg.irradianceForMaxShadingUse / x.bldg.irradianceForMaxShadingUse := div_nonneg (le_min (h i) hi.le) hi.le
    have q1 : min (sun i) x.bldg.irradianceForMaxShadingUse / x.bldg.irradianceForMaxShadingUse ≤ 1 := by
      rw [div_le_one hi]; exact min_le_right _ _
    generalize min (sun i) x.bldg.irradianceForMaxShadingUse / x.bldg.irradianceForMaxShadingUse = q at *
    have f0 : 0 ≤ x.bldg.shadingFactorAtMaxUse * q := mul_nonneg hg.shadingUse0 q0
    have f1 : x.bldg.shadingFactorAtMaxUse * q ≤ 1 := by nlinarith [hg.shadingUse0, hg.shadingUse1]
    have := mul_nonneg (hg.glass i) (sub_nonneg.mpr f1)
    have := mul_nonneg (hg.shaded i) f0
    linarith

/-- a tighter building is driven by the same wind -/
theorem insulated_driven {x : Sim ℝ} (y : Sim ℝ) {w : Weather ℝ} {low high : ℝ} (hd : WindDriven x w low high) :
    WindDriven (takeInsulation x y) w low high := by
  refine ⟨hd.fans, fun i t h1 h2 => ?_, hd.startLow, hd.startHigh, hd.heatOccupied, hd.heatUnoccupied, hd.coolOccupied, hd.coolUnoccupied⟩
  have l : ∀ z : Sim ℝ, 0 < leakageAt4Pa z := fun z => lt_of_lt_of_le (by norm_num) (le_max_left _ _)
  have f1 : ∀ z : Sim ℝ, stackFlow z (w.data DBT i) t = leakageAt4Pa z *
      (0.0146 * (0.5 * max 0.1 z.ventilation.hzone * max 0.00001 |w.data DBT i - t|) ^ (0.667 : ℝ)) := by
    intro z; unfold stackFlow; ring
  have f2 : ∀ z : Sim ℝ, windFlow z (w.data WSPD i) = leakageAt4Pa z * (0.0769 * (z.ventilation.dCp * (w.data WSPD i) ^ 2) ^ (0.667 : ℝ)) := by
    intro z; unfold windFlow; ring
  have h := hd.wind i t h1 h2
  rw [f1, f2] at h ⊢
  exact mul_le_mul_of_nonneg_left (le_of_mul_le_mul_left h (l x)) (l _).le

theorem insulated_powers {x y : Sim ℝ} (hx : Physical x) (ha : Auxiliary x) (hg : OnlyGains x) (hm : HeavyEnough x) (h : BetterInsulated x y)
    (hh : 0 ≤ x.bldg.buildingHeight) {w : Weather ℝ} (hz : NotOverhead w) (hrad : DaylightOnly w)
    (hsun : y.bldg.wallUniform = x.bldg.wallUniform ∨ ∀ i, w.data EB i = 0 ∧ w.data ED i = 0 ∧ w.data EGH i = 0)
    {lowest level surf : ℝ} (hc : ColdYear x w lowest level surf) (win : Window)
    {mass air surface power mass' air' surface' power' : ℕ → ℝ} (m0 : mass 0 = 20) (m0' : mass' 0 = 20)
    (run : Run 8760 (windNetwork x win w) (fun i => (hourAt x win w i).1.heatingSetpoint)
      (fun i => (hourAt x win w i).1.coolingSetpoint) mass air surface power)
    (run' : Run 8760 (windNetwork (takeInsulation x y) win w) (fun i => (hourAt (takeInsulation x y) win w i).1.heatingSetpoint)
      (fun i => (hourAt (takeInsulation x y) win w i).1.coolingSetpoint) mass' air' surface' power') : ∀ i < 8760, power' i ≤ power i := by
  have hy := physical_insulated hx h
  have hat : ∀ i, hourAt (takeInsulation x y) win w i = hourAt x win w i := by
    intro i; unfold hourAt; split_ifs <;> rfl
  have hH : (fun i => (hourAt (takeInsulation x y) win w i).1.heatingSetpoint) = fun i => (hourAt x win w i).1.heatingSetpoint := by
    funext i; rw [hat]
  have hC : (fun i => (hourAt (takeInsulation x y) win w i).1.coolingSetpoint) = fun i => (hourAt x win w i).1.coolingSetpoint := by
    funext i; rw [hat]
  have sun0 : ∀ i k, 0 ≤ (hourAt x win w i).2.solarRadiation k := by
    have one : ∀ j k, 0 ≤ (hourInput x win w j).2.solarRadiation k := fun j k =>
      sun_nonneg hz j (hrad j).1 (hrad j).2.1 (hrad j).2.2.1 (hrad j).2.2.2 k
    intro i k
    unfold hourAt
    split_ifs
    · exact one _ k
    · exact one _ k
  have dark : (∀ i, w.data EB i = 0 ∧ w.data ED i = 0 ∧ w.data EGH i = 0) → ∀ i k, (hourAt x win w i).2.solarRadiation k = 0 := by
    intro hd
    have one : ∀ j k, (hourInput x win w j).2.solarRadiation k = 0 := by
      intro j k
      show (if h : k.1 < 8 then Solar.eglobe w j ⟨k.1, h⟩ else w.data EGH j) = 0
      split_ifs with hk
      · have e2 := C20_sum w j ⟨k.1, hk⟩ (hz j)
        rw [Solar.eglobe_fin w j ⟨k.1, hk⟩ (hz.cos j)] at e2
        rw [Dbl.fin.inj e2, (hd j).1, (hd j).2.1]
        simp [Spec.Sun.direct, Spec.Sun.sky, Spec.Sun.ground]
      · exact (hd j).2.2
    intro i k
    unfold hourAt
    split_ifs
    · exact one _ k
    · exact one _ k
  have inside0 : ∀ i, 0 ≤ insideOf x (hourAt x win w i) := by
    intro i
    unfold insideOf
    have q1 : 0 ≤ (hourAt x win w i).1.interiorEquipment := by
      obtain ⟨b, hb⟩ := hour_sets x win w i
      rw [(hb x rfl).2.2]
      cases b
      · exact ha.applianceUnoccupied
      · exact ha.applianceOccupied
    have q2 : 0 ≤ (hourAt x win w i).1.interiorLighting := by
      have one : ∀ j, 0 ≤ (hourInput x win w j).1.interiorLighting := by
        intro j
        show 0 ≤ (bif _ then x.lights.powerDensityOccupied else x.lights.powerDensityUnoccupied)
        generalize (_ && _ : Bool) = b
        cases b
        · exact ha.lightingUnoccupied
        · exact ha.lightingOccupied
      unfold hourAt
      split_ifs
      · exact one _
      · exact one _
    obtain ⟨b1, -⟩ := electric_bounds hx ha (sun0 i)
    have b2 := mul_nonneg (sub_nonneg.mpr ha.daylit) ha.factor
    exact add_nonneg q1 (mul_nonneg (mul_nonneg (b2.trans b1) q2) hg.lampHeat)
  have temp : ∀ i, lowest ≤ (hourAt x win w i).2.temperature ∧ (hourAt x win w i).2.temperature ≤ level := by
    intro i
    unfold hourAt
    split_ifs
    · exact hc.temperature _
    · exact hc.temperature _
  have hv : ∀ i, 0 ≤ (hourAt x win w i).1.ventilation * 3.6 / x.bldg.floorArea := by
    intro i
    have := (hourAt_ok hx win w i).vent
    have := hx.floor
    positivity
  have hl : ∀ i < 8760, LosesLess (windNetwork x win w i) (windNetwork (takeInsulation x y) win w i) := by
    intro i _
    have k := insulated_network hx h hh hg.sunAir0 hg.sunAir1 hg.insideAir0 hg.insideAir1 hg.surfaceShare (t := 20) (W := (hourAt x win w i).2.windMps)
      (hv i) (inside0 i) (sun := (hourAt x win w i).2.solarRadiation)
      (hsun.elim (fun e => .inr ⟨e, solar_nonneg hx hg (sun0 i)⟩) fun e => .inl (dark e i)) ((temp i).2.trans hc.recovery)
    unfold windNetwork
    rw [hat]
    exact k
  have solid : ∀ i < 8760, Solid (windNetwork x win w i) := fun i _ => wind_solid hx hm win w i
  have set : ∀ i < 8760, min x.heating.temperatureSetPointOccupied x.heating.temperatureSetPointUnoccupied ≤ (hourAt x win w i).1.heatingSetpoint :=
    fun i _ => (hourAt_ok hx win w i).lo
  have hlev := run_level run solid (lowest := lowest) (level := level) (s := surf) (by rw [m0]; exact hc.recovery) (fun i _ => (temp i).1) set
    (fun i hi => (hl i hi).toSurface0) (fun i hi => (hl i hi).toMass0) (fun i _ => hc.surfaces) (fun i _ => hc.mass)
  rw [hH, hC] at run'
  have pos : ∀ i, 0 < (windNetwork (takeInsulation x y) win w i).massOutdoor ∧ 0 ≤ (windNetwork (takeInsulation x y) win w i).surfaceOutdoor := by
    intro i
    have hv' : 0 ≤ (hourAt (takeInsulation x y) win w i).1.ventilation * 3.6 / (takeInsulation x y).bldg.floorArea := by rw [hat]; exact hv i
    obtain ⟨-, -, p3, -, p5, -⟩ := network_positive hy hv' 20 (insideOf (takeInsulation x y) (hourAt (takeInsulation x y) win w i))
      (hourAt (takeInsulation x y) win w i).2.temperature (hourAt (takeInsulation x y) win w i).2.windMps
      (hourAt (takeInsulation x y) win w i).2.solarRadiation
    exact ⟨p3, p5⟩
  exact run_losses run run' solid (fun i _ => (pos i).1) (fun i _ => (pos i).2) hl (m0.trans m0'.symm).le
    (fun i hi => (temp i).2.trans (hlev i hi.le)) (fun i hi => (temp i).2.trans ((le_min hc.heatOccupied hc.heatUnoccupied).trans (set i hi)))

/-- **C79** Over a whole cold year of the hourly simulation, the building with lower U-values, fewer air changes at 50 Pa and better heat recovery takes
no more energy for heating in any hour (and no less for cooling).  Either the walls are the same, or the sun does not shine: through a wall, sun gets in in
proportion to its U-value. -/
theorem C79_year {x y : Sim ℝ} (hx : Physical x) (ha : Auxiliary x) (hg : OnlyGains x) (hp : PlainSystems x) (hm : HeavyEnough x)
    (h : BetterInsulated x y) (hh : 0 ≤ x.bldg.buildingHeight) {w : Weather ℝ} (hz : NotOverhead w) (hrad : DaylightOnly w)
    (hsun : y.bldg.wallUniform = x.bldg.wallUniform ∨ ∀ i, w.data EB i = 0 ∧ w.data ED i = 0 ∧ w.data EGH i = 0)
    {low high : ℝ} (hd : WindDriven x w low high) {lowest level surface : ℝ} (hcold : ColdYear x w lowest level surface)
    {m m' : Model Dbl} {r r' : List (EndUses Dbl)} (hr : simulate false (fresh x w) = some (m, r))
    (hr' : simulate false (fresh (takeInsulation x y) w) = some (m', r')) {heat cool heat' cool' : Fin 8760 → ℝ}
    (hc : Course r heat cool) (hc' : Course r' heat' cool') :
    (∀ i, heat' i ≤ heat i) ∧ ∀ i, cool i ≤ cool' i := by
  obtain ⟨win, hwin⟩ := year_window hr
  obtain ⟨mass, air, surface, power, m0, run, e⟩ := wind_energy hx hp hz hd hwin hr hc
  obtain ⟨mass', air', surface', power', m0', run', e'⟩ := wind_energy (physical_insulated hx h) ⟨hp.1, hp.2, hp.3, hp.4, hp.5⟩ hz
    (insulated_driven y hd) hwin hr' hc'
  have k := insulated_powers hx ha hg hm h hh hz hrad hsun hcold win m0 m0' run run'
  exact ⟨scaled_hour (heating_factor hp) (fun i hi => max_le_max le_rfl (k i hi)) (fun i => (e i).1) (fun i => (e' i).1),
    scaled_hour (cooling_factor hp) (fun i hi => max_le_max le_rfl (neg_le_neg (k i hi))) (fun i => (e' i).2) (fun i => (e i).2)⟩

end ISO.Props
