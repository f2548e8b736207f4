import Verif.Spec.Insulation
import Verif.Props.Response
import Verif.Props.Auxiliary

/-! # C67: insulation, airtightness and heat recovery in the hourly model -/

namespace ISO.Props
open ISO ISO.Spec ISO.Hourly ISO.Epw CNum Dbl

/-- with gains not below zero, and mass and air not cooler than outdoors, neither are the surfaces nor the mass on average -/
theorem above_outdoor {n : ThreeNodes} (h1 : 0 < n.capacity) (h2 : 0 < n.massSurface) (h3 : 0 < n.massOutdoor) (h4 : 0 < n.surfaceAir)
    (h5 : 0 ≤ n.surfaceOutdoor) (g1 : 0 ≤ n.toAir) (g2 : 0 ≤ n.toSurface) (g3 : 0 ≤ n.toMass) {m₀ m₁ s a p : ℝ}
    (b : Balanced n m₀ m₁ s a p) (hm : n.outdoor ≤ m₀) (ha : n.outdoor ≤ a) : n.outdoor ≤ s ∧ n.outdoor ≤ (m₀ + m₁) / 2 := by
  have b0 : Balanced { n with toAir := 0, toSurface := 0, toMass := 0 } n.outdoor n.outdoor n.outdoor n.outdoor
      (-(n.airExchange * (n.entering - n.outdoor))) := by
    constructor <;> simp only <;> ring
  have hw : Warmer { n with toAir := 0, toSurface := 0, toMass := 0 } n := by
    constructor <;> first | rfl | exact le_rfl | assumption
  obtain ⟨r1, r2⟩ := compare_pinned hw h1 h2 h3 h4 h5 hm b0 b ha
  exact ⟨r1, by linarith⟩

/-- a network that loses less, in an hour in which there is something to lose -/
theorem compare_losses {n n' : ThreeNodes} (h1 : 0 < n.capacity) (h2 : 0 < n.massSurface) (h3 : 0 < n.massOutdoor) (h4 : 0 < n.surfaceAir)
    (h5 : 0 ≤ n.surfaceOutdoor) (h6 : 0 < n.airExchange) (h3' : 0 < n'.massOutdoor) (h5' : 0 ≤ n'.surfaceOutdoor)
    (e1 : n'.capacity = n.capacity) (e2 : n'.massSurface = n.massSurface) (e4 : n'.surfaceAir = n.surfaceAir)
    (eo : n'.outdoor = n.outdoor) (l3 : n'.massOutdoor ≤ n.massOutdoor) (l5 : n'.surfaceOutdoor ≤ n.surfaceOutdoor)
    (la : ∀ a, n.outdoor ≤ a → n'.airExchange * (a - n'.entering) ≤ n.airExchange * (a - n.entering))
    (g1 : n.toAir ≤ n'.toAir) (g2 : n.toSurface ≤ n'.toSurface) (g3 : n.toMass ≤ n'.toMass)
    (p1 : 0 ≤ n'.toAir) (p2 : 0 ≤ n'.toSurface) (p3 : 0 ≤ n'.toMass) {m₀ m₀' m₁ m₁' s s' a a' p p' H C : ℝ}
    (b : Balanced n m₀ m₁ s a p) (b' : Balanced n' m₀' m₁' s' a' p') (c : Controlled H C a p) (c' : Controlled H C a' p')
    (hm₀ : m₀ ≤ m₀') (hv : m₀ = m₀' ∨ (n.massSurface + n.massOutdoor) / 2 ≤ n.capacity / 3.6)
    (hm : n.outdoor ≤ m₀') (hH : n.outdoor ≤ H) : p' ≤ p ∧ a ≤ a' ∧ m₁ ≤ m₁' := by
  have ha' : n.outdoor ≤ a' := hH.trans c'.above
  obtain ⟨q1, q2⟩ := above_outdoor (e1 ▸ h1) (e2 ▸ h2) h3' (e4 ▸ h4) h5' p1 p2 p3 b' (eo ▸ hm) (eo ▸ ha')
  rw [eo] at q1 q2
  have b2 : Balanced { n with
      toAir := n'.toAir + (n.airExchange * (a' - n.entering) - n'.airExchange * (a' - n'.entering))
      toSurface := n'.toSurface + (n.surfaceOutdoor - n'.surfaceOutdoor) * (s' - n.outdoor)
      toMass := n'.toMass + (n.massOutdoor - n'.massOutdoor) * ((m₀' + m₁') / 2 - n.outdoor) } m₀' m₁' s' a' p' := by
    obtain ⟨i1, i2, i3⟩ := b'
    rw [e1, e2, eo] at i1
    rw [e2, e4, eo] at i2
    rw [e4] at i3
    refine ⟨?_, ?_, ?_⟩ <;> simp only
    · linear_combination i1
    · linear_combination i2
    · linear_combination i3
  have hw : Warmer n { n with
      toAir := n'.toAir + (n.airExchange * (a' - n.entering) - n'.airExchange * (a' - n'.entering))
      toSurface := n'.toSurface + (n.surfaceOutdoor - n'.surfaceOutdoor) * (s' - n.outdoor)
      toMass := n'.toMass + (n.massOutdoor - n'.massOutdoor) * ((m₀' + m₁') / 2 - n.outdoor) } := by
    have k1 := la a' ha'
    have k2 : 0 ≤ (n.surfaceOutdoor - n'.surfaceOutdoor) * (s' - n.outdoor) := mul_nonneg (by linarith) (by linarith)
    have k3 : 0 ≤ (n.massOutdoor - n'.massOutdoor) * ((m₀' + m₁') / 2 - n.outdoor) := mul_nonneg (by linarith) (by linarith)
    constructor <;> try first | rfl | exact le_rfl
    · simp only; linarith
    · simp only; linarith
    · simp only; linarith
  have ha := compare_controlled hw h1 h2 h3 h4 h5 h6 hm₀ b b2 c c' le_rfl le_rfl
  exact ⟨compare_gains hw h1 h2 h3 h4 h5 h6 hm₀ b b2 c c', ha, compare_mass hw h1 h2 h3 h4 h5 hm₀ b b2 ha hv⟩

theorem physical_insulated {x y : Sim ℝ} (hx : Physical x) (h : BetterInsulated x y) : Physical (takeInsulation x y) :=
  { floor := hx.floor, wallArea := hx.wallArea, wallU := h.walls0, windowArea := hx.windowArea, windowU := h.windows0
    hci := hx.hci, hri := hx.hri, totalArea := hx.totalArea, irradiance := hx.irradiance, interiorHeatCapacity := hx.interiorHeatCapacity
    wallHeatCapacity := hx.wallHeatCapacity
    opaque_ := lt_of_le_of_lt (max_le_max (div_le_div_of_nonneg_right (Finset.sum_le_sum fun i _ =>
      mul_le_mul_of_nonneg_left (h.walls i) (hx.wallArea i)) hx.floor.le) le_rfl) hx.opaque_
    luxSensor := hx.luxSensor, luxAuto := hx.luxAuto
    luxBoth := hx.luxBoth, luxManual := hx.luxManual, supplyRate := hx.supplyRate, dCp := hx.dCp
    setOccupied := hx.setOccupied, setUnoccupied := hx.setUnoccupied }

/-- what leaks in grows with the leakage -/
theorem leak_mono {k k' s w d : ℝ} (hk : 0 < k') (hkk : k' ≤ k) (hs : 0 < s) (hw : 0 ≤ w) (hd : 0 ≤ d) :
    max 0 (max (k' * s) (k' * w) - d * (0.5 * (k' * s) + 0.667 * (k' * w) / (k' * s + k' * w))) ≤
      max 0 (max (k * s) (k * w) - d * (0.5 * (k * s) + 0.667 * (k * w) / (k * s + k * w))) := by
  have hk0 : 0 < k := by linarith
  have r : ∀ {c : ℝ}, 0 < c → 0.667 * (c * w) / (c * s + c * w) = 0.667 * w / (s + w) := by
    intro c hc
    have : 0 < s + w := by linarith
    rw [← mul_add]
    field_simp
  rw [r hk, r hk0, ← mul_max_of_nonneg _ _ hk.le, ← mul_max_of_nonneg _ _ hk0.le]
  have hr : 0 ≤ 0.667 * w / (s + w) := by positivity
  generalize 0.667 * w / (s + w) = q at hr
  generalize max s w = m
  have e : ∀ c : ℝ, c * m - d * (0.5 * (c * s) + q) = c * (m - d * (0.5 * s)) - d * q := by intro c; ring
  rw [e, e]
  have hdq := mul_nonneg hd hr
  rcases le_total 0 (m - d * (0.5 * s)) with h | h
  · exact max_le_max le_rfl (by nlinarith)
  · rw [max_eq_left]
    · exact le_max_left _ _
    · nlinarith

/-- the better insulated building is a network that loses less -/
structure LosesLess (n n' : ThreeNodes) : Prop where
  capacity : n'.capacity = n.capacity
  massSurface : n'.massSurface = n.massSurface
  surfaceAir : n'.surfaceAir = n.surfaceAir
  outdoor : n'.outdoor = n.outdoor
  massOutdoor : n'.massOutdoor ≤ n.massOutdoor
  surfaceOutdoor : n'.surfaceOutdoor ≤ n.surfaceOutdoor
  air : ∀ a, n.outdoor ≤ a → n'.airExchange * (a - n'.entering) ≤ n.airExchange * (a - n.entering)
  toAir : n.toAir ≤ n'.toAir
  toSurface : n.toSurface ≤ n'.toSurface
  toMass : n.toMass ≤ n'.toMass
  toAir0 : 0 ≤ n.toAir
  toSurface0 : 0 ≤ n.toSurface
  toMass0 : 0 ≤ n.toMass

theorem insulated_network {x y : Sim ℝ} (hx : Physical x) (h : BetterInsulated x y) (hh : 0 ≤ x.bldg.buildingHeight)
    (s0 : 0 ≤ x.simSettings.phiSolFractionToAirNode) (s1 : x.simSettings.phiSolFractionToAirNode ≤ 1)
    (i0 : 0 ≤ x.simSettings.phiIntFractionToAirNode) (i1 : x.simSettings.phiIntFractionToAirNode ≤ 1)
    (hA : massArea x + windowConductance x / massCoefficient x ≤ x.bldg.totalAreaPerFloorArea)
    {ext inside t T W : ℝ} {sun : Fin 9 → ℝ} (hv' : 0 ≤ ext) (hin : 0 ≤ inside)
    (hsun : (∀ i, sun i = 0) ∨ y.bldg.wallUniform = x.bldg.wallUniform ∧ 0 ≤ solarGain x sun) (o3 : T ≤ 20) :
    LosesLess (buildingNetwork x ext t inside T W sun) (buildingNetwork (takeInsulation x y) ext t inside T W sun) := by
  have hy := physical_insulated hx h
  obtain ⟨p1, p2, p3, p4, p5, p6⟩ := network_positive hx hv' t inside T W sun
  obtain ⟨q1, q2, q3, q4, q5, q6⟩ := network_positive hy hv' t inside T W sun
  have hmc : 0 < massCoefficient x := by have := hx.hci; have := hx.hri; unfold massCoefficient; positivity
  have hma : 0 < massArea x := by
    have : 0 < massCoefficient x * massArea x := p2
    exact (mul_pos_iff_of_pos_left hmc).mp this
  have hta := hx.totalArea
  have hwin : windowConductance (takeInsulation x y) ≤ windowConductance x :=
    div_le_div_of_nonneg_right (Finset.sum_le_sum fun i _ => mul_le_mul_of_nonneg_left (h.windows i) (hx.windowArea i)) hx.floor.le
  have hwal : wallConductance (takeInsulation x y) ≤ wallConductance x :=
    max_le_max (div_le_div_of_nonneg_right (Finset.sum_le_sum fun i _ => mul_le_mul_of_nonneg_left (h.walls i) (hx.wallArea i)) hx.floor.le)
      le_rfl
  -- the sun
  have hsg : solarGain (takeInsulation x y) sun = solarGain x sun ∧ 0 ≤ solarGain x sun := by
    rcases hsun with hs | ⟨hs, hs'⟩
    · have z : ∀ z : Sim ℝ, solarGain z sun = 0 := by
        intro z
        unfold solarGain
        simp only [hs, zero_mul, Finset.sum_const_zero, zero_div]
      rw [z, z]
      exact ⟨rfl, le_rfl⟩
    · refine ⟨?_, hs'⟩
      unfold solarGain
      simp only [takeInsulation, hs]
  obtain ⟨sg, sg0⟩ := hsg
  have em : massArea (takeInsulation x y) = massArea x := rfl
  have ec : massCoefficient (takeInsulation x y) = massCoefficient x := rfl
  have et : (takeInsulation x y).bldg.totalAreaPerFloorArea = x.bldg.totalAreaPerFloorArea := rfl
  have es : (takeInsulation x y).simSettings = x.simSettings := rfl
  have hsh : 0 ≤ 1 - massArea x / x.bldg.totalAreaPerFloorArea -
      windowConductance x / (massCoefficient x * x.bldg.totalAreaPerFloorArea) := by
    have : 1 - massArea x / x.bldg.totalAreaPerFloorArea - windowConductance x / (massCoefficient x * x.bldg.totalAreaPerFloorArea)
      = (x.bldg.totalAreaPerFloorArea - (massArea x + windowConductance x / massCoefficient x)) / x.bldg.totalAreaPerFloorArea := by
      field_simp; ring
    rw [this]; exact div_nonneg (by linarith) hta.le
  have hsh' : 1 - massArea x / x.bldg.totalAreaPerFloorArea - windowConductance x / (massCoefficient x * x.bldg.totalAreaPerFloorArea) ≤
      1 - massArea x / x.bldg.totalAreaPerFloorArea -
        windowConductance (takeInsulation x y) / (massCoefficient x * x.bldg.totalAreaPerFloorArea) :=
    sub_le_sub_left (div_le_div_of_nonneg_right hwin (by positivity)) _
  have hg0 : 0 ≤ (1 - x.simSettings.phiSolFractionToAirNode) * solarGain x sun +
      (1 - x.simSettings.phiIntFractionToAirNode) * inside :=
    add_nonneg (mul_nonneg (by linarith) sg0) (mul_nonneg (by linarith) hin)
  have ga : 0 ≤ x.simSettings.phiSolFractionToAirNode * solarGain x sun +
      x.simSettings.phiIntFractionToAirNode * inside := add_nonneg (mul_nonneg s0 sg0) (mul_nonneg i0 hin)
  -- the air
  have hsup : 0 ≤ supplied x ext := mul_nonneg hv' (le_trans (by norm_num) (le_max_left _ _))
  have henv : throughEnvelope (takeInsulation x y) ext T t W ≤
      throughEnvelope x ext T t W := by
    have hl : leakageAt4Pa (takeInsulation x y) ≤ leakageAt4Pa x :=
      max_le_max le_rfl (mul_le_mul_of_nonneg_right (mul_le_mul_of_nonneg_left h.tightness (by norm_num)) hh)
    have hl0 : 0 < leakageAt4Pa (takeInsulation x y) := lt_of_lt_of_le (by norm_num) (le_max_left _ _)
    have f1 : ∀ z : Sim ℝ, stackFlow z T t = leakageAt4Pa z *
        (0.0146 * (0.5 * max 0.1 z.ventilation.hzone * max 0.00001 |T - t|) ^ (0.667 : ℝ)) := by
      intro z; unfold stackFlow; ring
    have f2 : ∀ z : Sim ℝ, windFlow z W = leakageAt4Pa z * (0.0769 * (z.ventilation.dCp * W ^ 2) ^ (0.667 : ℝ)) := by
      intro z; unfold windFlow; ring
    unfold throughEnvelope
    rw [f1, f1, f2, f2]
    refine add_le_add le_rfl (leak_mono hl0 hl ?_ ?_ (abs_nonneg _))
    · have a1 : (0 : ℝ) < max 0.1 x.ventilation.hzone := lt_of_lt_of_le (by norm_num) (le_max_left _ _)
      have a2 : (0 : ℝ) < max 0.00001 |T - t| := lt_of_lt_of_le (by norm_num) (le_max_left _ _)
      have : 0 < (0.5 * max 0.1 x.ventilation.hzone * max 0.00001 |T - t|) ^ (0.667 : ℝ) :=
        Real.rpow_pos_of_pos (by positivity) _
      show 0 < 0.0146 * (0.5 * max 0.1 x.ventilation.hzone * max 0.00001 |T - t|) ^ (0.667 : ℝ)
      positivity
    · have : 0 ≤ (x.ventilation.dCp * W ^ 2) ^ (0.667 : ℝ) := Real.rpow_nonneg (mul_nonneg hx.dCp (sq_nonneg _)) _
      show 0 ≤ 0.0769 * (x.ventilation.dCp * W ^ 2) ^ (0.667 : ℝ)
      positivity
  have hrec : supplyTemperature x T ≤ supplyTemperature (takeInsulation x y) T :=
    max_le_max le_rfl (add_le_add le_rfl (mul_le_mul_of_nonneg_right h.recovery (by linarith)))
  have hair : ∀ a, T ≤ a →
      (buildingNetwork (takeInsulation x y) ext t inside T W sun).airExchange *
        (a - (buildingNetwork (takeInsulation x y) ext t inside T W sun).entering) ≤
      (buildingNetwork x ext t inside T W sun).airExchange *
        (a - (buildingNetwork x ext t inside T W sun).entering) := by
    intro a hwa
    have u : ∀ {z : Sim ℝ}, 0 < (buildingNetwork z ext t inside T W sun).airExchange →
        (buildingNetwork z ext t inside T W sun).airExchange *
          (a - (buildingNetwork z ext t inside T W sun).entering) =
        0.34 * (throughEnvelope z ext T t W * (a - T) +
          supplied z ext * (a - supplyTemperature z T)) := by
      intro z hz
      simp only [buildingNetwork] at hz ⊢
      have : 0 < throughEnvelope z ext T t W + supplied z ext := by linarith
      field_simp
      ring
    rw [u q6, u p6]
    have k1 : throughEnvelope (takeInsulation x y) ext T t W * (a - T) ≤
        throughEnvelope x ext T t W * (a - T) :=
      mul_le_mul_of_nonneg_right henv (by linarith)
    have k2 : supplied (takeInsulation x y) ext * (a - supplyTemperature (takeInsulation x y) T) ≤
        supplied x ext * (a - supplyTemperature x T) := mul_le_mul_of_nonneg_left (by linarith) hsup
    linarith
  have hmo : (buildingNetwork (takeInsulation x y) ext t inside T W sun).massOutdoor ≤
      (buildingNetwork x ext t inside T W sun).massOutdoor := by
    simp only [buildingNetwork, em, ec] at p3 q3 ⊢
    have w0 : 0 < wallConductance (takeInsulation x y) := lt_of_lt_of_le (by norm_num) (le_max_right _ _)
    refine one_div_le_one_div_of_le (one_div_pos.mp p3) (sub_le_sub_right (one_div_le_one_div_of_le w0 hwal) _)
  refine ⟨rfl, rfl, rfl, rfl, hmo, hwin, hair, ?_, ?_, ?_, ?_, ?_, ?_⟩
  · simp only [buildingNetwork, sg, es]; exact le_rfl
  · simp only [buildingNetwork, sg, es, em, ec, et]; exact mul_le_mul_of_nonneg_right hsh' hg0
  · simp only [buildingNetwork, sg, es, em, et]; exact le_rfl
  · simp only [buildingNetwork]; exact ga
  · simp only [buildingNetwork]; exact mul_nonneg hsh hg0
  · simp only [buildingNetwork]; exact mul_nonneg (by positivity) hg0

/-- **C67** In an hour with the same weather, schedule and start, in which it is no warmer outdoors than the mass of the building, the heating set-point and
the 20 degrees of the heat recovery, the better insulated, tighter building with the better heat recovery needs at most as much heating, and its air and its
mass are no cooler at the end (it needs at least as much cooling).  The hour is without sun, or the walls are the same: through a wall, sun gets in in proportion
to its U-value. -/
theorem C67_hour {x y : Sim ℝ} (hx : Physical x) (h : BetterInsulated x y) (hh : 0 ≤ x.bldg.buildingHeight)
    (s0 : 0 ≤ x.simSettings.phiSolFractionToAirNode) (s1 : x.simSettings.phiSolFractionToAirNode ≤ 1)
    (i0 : 0 ≤ x.simSettings.phiIntFractionToAirNode) (i1 : x.simSettings.phiIntFractionToAirNode ≤ 1)
    (hA : massArea x + windowConductance x / massCoefficient x ≤ x.bldg.totalAreaPerFloorArea)
    {sch : Schedule ℝ} (hv : 0 ≤ sch.ventilation) (hset : sch.heatingSetpoint ≤ sch.coolingSetpoint)
    {w : HourWeather ℝ} {st : ThermalState ℝ}
    (hsun : (∀ i, w.solarRadiation i = 0) ∨ y.bldg.wallUniform = x.bldg.wallUniform ∧ 0 ≤ solarGain x w.solarRadiation)
    (o1 : w.temperature ≤ st.TMT1) (o2 : w.temperature ≤ sch.heatingSetpoint) (o3 : w.temperature ≤ 20)
    {mass air heat cool inside mass' air' heat' cool' inside' : ℝ} (hin : 0 ≤ inside)
    (e : HourIs x (hourOf x sch w st) mass air heat cool inside)
    (e' : HourIs (takeInsulation x y) (hourOf (takeInsulation x y) sch w st) mass' air' heat' cool' inside') :
    heat' ≤ heat ∧ cool ≤ cool' ∧ air ≤ air' ∧ mass ≤ mass' ∧ inside' = inside := by
  have hy := physical_insulated hx h
  have hie : inside' = inside := by
    have k := e.inside
    have k' := e'.inside
    have p1 : (hourOf (takeInsulation x y) sch w st).2.phi_plug = (hourOf x sch w st).2.phi_plug := rfl
    have p2 : (hourOf (takeInsulation x y) sch w st).2.Q_illum_tot = (hourOf x sch w st).2.Q_illum_tot := rfl
    rw [p1, p2] at k'
    exact Dbl.fin.inj (k'.symm.trans k)
  subst hie
  obtain ⟨r1, r2, ⟨s, b⟩, c⟩ := hourOf_real hx hv w st e hset
  obtain ⟨r1', r2', ⟨s', b'⟩, c'⟩ := hourOf_real hy hv w st e' hset
  have hv' : 0 ≤ sch.ventilation * 3.6 / x.bldg.floorArea := by have := hx.floor; positivity
  have ef : (takeInsulation x y).bldg.floorArea = x.bldg.floorArea := rfl
  rw [ef] at b'
  generalize sch.ventilation * 3.6 / x.bldg.floorArea = ext at b b' hv'
  obtain ⟨p1, p2, p3, p4, p5, p6⟩ := network_positive hx hv' st.tiHeatCool inside' w.temperature w.windMps w.solarRadiation
  obtain ⟨q1, q2, q3, q4, q5, q6⟩ := network_positive hy hv' st.tiHeatCool inside' w.temperature w.windMps w.solarRadiation
  have l := insulated_network hx h hh s0 s1 i0 i1 hA (t := st.tiHeatCool) (T := w.temperature) (W := w.windMps) hv' hin hsun o3
  obtain ⟨f1, f2, f3⟩ := compare_losses p1 p2 p3 p4 p5 p6 q3 q5 rfl rfl rfl rfl l.massOutdoor l.surfaceOutdoor l.air l.toAir l.toSurface l.toMass
    (l.toAir0.trans l.toAir) (l.toSurface0.trans l.toSurface) (l.toMass0.trans l.toMass) b b' c c' le_rfl (.inl rfl) o1 o2
  exact ⟨r1'.le.trans ((max_le_max le_rfl f1).trans r1.ge), r2.le.trans ((max_le_max le_rfl (by linarith)).trans r2'.ge), f2, f3, rfl⟩

/-- the small office with half the U-values, half the air change at 50 Pa and heat recovery better by a half -/
noncomputable def insulated : Sim ℝ :=
  { smallOffice with
    bldg := { smallOffice.bldg with
      wallUniform := fun i => smallOffice.bldg.wallUniform i / 2
      windowUniform := fun i => smallOffice.bldg.windowUniform i / 2 }
    ventilation := { smallOffice.ventilation with
      n50 := smallOffice.ventilation.n50 / 2
      heatRecoveryEfficiency := smallOffice.ventilation.heatRecoveryEfficiency + 0.5 } }

/-- the hypotheses of `C67_hour` hold for the small office and its insulated version in a freezing hour without sun, for which there are results -/
example (st : ThermalState ℝ) (h : 20 ≤ st.TMT1) :
    Physical smallOffice ∧ BetterInsulated smallOffice insulated ∧ 0 ≤ smallOffice.bldg.buildingHeight ∧
    massArea smallOffice + windowConductance smallOffice / massCoefficient smallOffice ≤ smallOffice.bldg.totalAreaPerFloorArea ∧
    ∃ mass air heat cool inside mass' air' heat' cool' inside',
      HourIs smallOffice (hourOf smallOffice morning ⟨3, -5, fun _ => 0⟩ st) mass air heat cool inside ∧
      HourIs (takeInsulation smallOffice insulated) (hourOf (takeInsulation smallOffice insulated) morning ⟨3, -5, fun _ => 0⟩ st)
        mass' air' heat' cool' inside' ∧ 0 ≤ inside ∧ heat' ≤ heat := by
  have b : BetterInsulated smallOffice insulated := by
    refine ⟨fun i => ?_, fun i => ?_, fun i => ?_, fun i => ?_, ?_, ?_⟩
    · have := smallOffice_physical.wallU i
      show 0 ≤ smallOffice.bldg.wallUniform i / 2
      linarith
    · have := smallOffice_physical.wallU i
      show smallOffice.bldg.wallUniform i / 2 ≤ _
      linarith
    · have := smallOffice_physical.windowU i
      show 0 ≤ smallOffice.bldg.windowUniform i / 2
      linarith
    · have := smallOffice_physical.windowU i
      show smallOffice.bldg.windowUniform i / 2 ≤ _
      linarith
    · norm_num [insulated, smallOffice]
    · norm_num [insulated, smallOffice]
  obtain ⟨m, a, q, c, i, e⟩ := C53_exists smallOffice_physical (sch := morning) (by norm_num [morning]) ⟨3, -5, fun _ => 0⟩ st
  obtain ⟨m', a', q', c', i', e'⟩ := C53_exists (physical_insulated smallOffice_physical b) (sch := morning) (by norm_num [morning])
    ⟨3, -5, fun _ => 0⟩ st
  have hi : 0 ≤ i := by
    have g := e.inside
    have e0 : freshRatios (smallOffice.map fin).bldg = (freshRatios smallOffice.bldg).map fin :=
      freshRatios_fin smallOffice.bldg smallOffice_physical.floor.ne'
    unfold hourOf at g
    rw [e0, initConsts_fin smallOffice (physical_consts smallOffice_physical).1,
      calculateHour_fin' smallOffice_physical _ (by norm_num [morning]) ⟨3, -5, fun _ => 0⟩ st] at g
    have g5 : (calculateHour smallOffice (initConsts smallOffice) (freshRatios smallOffice.bldg) morning ⟨3, -5, fun _ => 0⟩ st).2.phi_plug +
        (calculateHour smallOffice (initConsts smallOffice) (freshRatios smallOffice.bldg) morning ⟨3, -5, fun _ => 0⟩ st).2.Q_illum_tot *
          smallOffice.lights.elecInternalGains = i := by
      simp only [HourResults.map, fin_mul, fin_add] at g
      exact Dbl.fin.inj g
    rw [← g5]
    obtain ⟨b1, -⟩ := electric_bounds smallOffice_physical smallOffice_auxiliary (sol := fun _ => 0) (fun _ => le_rfl)
    have b2 := mul_nonneg (sub_nonneg.mpr smallOffice_auxiliary.daylit) smallOffice_auxiliary.factor
    show 0 ≤ morning.interiorEquipment + electricForTotalLightArea smallOffice.bldg (initConsts smallOffice) (freshRatios smallOffice.bldg)
      (fun _ => 0) * morning.interiorLighting * smallOffice.lights.elecInternalGains
    have b3 : (0 : ℝ) ≤ morning.interiorEquipment := by norm_num [morning]
    have b4 : (0 : ℝ) ≤ morning.interiorLighting := by norm_num [morning]
    have b5 : (0 : ℝ) ≤ smallOffice.lights.elecInternalGains := by norm_num [smallOffice]
    exact add_nonneg b3 (mul_nonneg (mul_nonneg (b2.trans b1) b4) b5)
  have r := C67_hour smallOffice_physical b (by norm_num [smallOffice]) (by norm_num [smallOffice]) (by norm_num [smallOffice])
    (by norm_num [smallOffice]) (by norm_num [smallOffice]) smallOffice_shares.1 (by norm_num [morning]) (by norm_num [morning])
    (.inl fun _ => rfl) (by show (-5 : ℝ) ≤ _; linarith) (by norm_num [morning]) (by norm_num) hi e e'
  exact ⟨smallOffice_physical, b, by norm_num [smallOffice], smallOffice_shares.1, m, a, q, c, i, m', a', q', c', i', e, e', hi, r.1⟩

end ISO.Props
