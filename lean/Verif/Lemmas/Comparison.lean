import Verif.Lemmas.HeatBalance

/-! Helper lemmas: comparison of two hours of the network of three nodes. -/

namespace ISO.Hourly
open ISO CNum Dbl Spec

/-- two networks with the same conductances, the second with at least the gains of the first -/
structure Warmer (n n' : ThreeNodes) : Prop where
  capacity : n.capacity = n'.capacity
  massSurface : n.massSurface = n'.massSurface
  massOutdoor : n.massOutdoor = n'.massOutdoor
  surfaceAir : n.surfaceAir = n'.surfaceAir
  surfaceOutdoor : n.surfaceOutdoor = n'.surfaceOutdoor
  airExchange : n.airExchange = n'.airExchange
  outdoor : n.outdoor ≤ n'.outdoor
  entering : n.entering ≤ n'.entering
  toAir : n.toAir ≤ n'.toAir
  toSurface : n.toSurface ≤ n'.toSurface
  toMass : n.toMass ≤ n'.toMass

theorem Warmer.refl (n : ThreeNodes) : Warmer n n := by constructor <;> first | rfl | exact le_rfl

/-- surface and mass are no cooler when the air is no cooler -/
theorem compare_pinned {n n' : ThreeNodes} (hw : Warmer n n') (h1 : 0 < n.capacity) (h2 : 0 < n.massSurface)
    (h3 : 0 < n.massOutdoor) (h4 : 0 < n.surfaceAir) (h5 : 0 ≤ n.surfaceOutdoor)
    {T T' T₁ T₁' s s' a a' p p' : ℝ} (hT : T ≤ T') (b : Balanced n T T₁ s a p) (b' : Balanced n' T' T₁' s' a' p')
    (ha : a ≤ a') : s ≤ s' ∧ T + T₁ ≤ T' + T₁' := by
  obtain ⟨m1, f1, -⟩ := b
  obtain ⟨m2, f2, -⟩ := b'
  obtain ⟨w1, w2, w3, w4, w5, w6, w7, w8, w9, w10, w11⟩ := hw
  rw [← w1, ← w2, ← w3] at m2
  rw [← w2, ← w4, ← w5] at f2
  have hc : 0 < n.capacity / 3.6 := by positivity
  generalize n.capacity / 3.6 = c at *
  generalize n.massSurface = A at *
  generalize n.massOutdoor = B at *
  generalize n.surfaceAir = C at *
  generalize n.surfaceOutdoor = D at *
  have e1 : (2 * c + A + B) * ((T' + T₁') / 2 - (T + T₁) / 2) = 2 * c * (T' - T) + (n'.toMass - n.toMass) + A * (s' - s) +
      B * (n'.outdoor - n.outdoor) := by linear_combination m2 - m1
  have e2 : (A + C + D) * (s' - s) = (n'.toSurface - n.toSurface) + A * ((T' + T₁') / 2 - (T + T₁) / 2) +
      D * (n'.outdoor - n.outdoor) + C * (a' - a) := by linear_combination f2 - f1
  have g1 : A * (s' - s) ≤ (2 * c + A + B) * ((T' + T₁') / 2 - (T + T₁) / 2) := by
    rw [e1]
    have : 0 ≤ 2 * c * (T' - T) := mul_nonneg (by linarith) (by linarith)
    have : 0 ≤ B * (n'.outdoor - n.outdoor) := mul_nonneg (by linarith) (by linarith)
    linarith
  have g2 : A * ((T' + T₁') / 2 - (T + T₁) / 2) ≤ (A + C + D) * (s' - s) := by
    rw [e2]
    have : 0 ≤ D * (n'.outdoor - n.outdoor) := mul_nonneg h5 (by linarith)
    have : 0 ≤ C * (a' - a) := mul_nonneg (by linarith) (by linarith)
    linarith
  generalize hde : (T' + T₁') / 2 - (T + T₁) / 2 = d at *
  have hs : 0 ≤ s' - s := by
    by_contra hn
    rw [not_le] at hn
    have k : 0 < 2 * c + A + B := by positivity
    have k1 : A * (A * (s' - s)) ≤ (2 * c + A + B) * ((A + C + D) * (s' - s)) := by
      calc A * (A * (s' - s)) ≤ A * ((2 * c + A + B) * d) := mul_le_mul_of_nonneg_left g1 h2.le
        _ = (2 * c + A + B) * (A * d) := by ring
        _ ≤ _ := mul_le_mul_of_nonneg_left g2 k.le
    have k2 : 0 ≤ ((2 * c + A + B) * (A + C + D) - A * A) * (s' - s) := by linarith
    have k3 : 0 < (2 * c + A + B) * (A + C + D) - A * A := by
      have : (2 * c + A + B) * (A + C + D) - A * A = (2 * c + B) * (A + C + D) + A * (C + D) := by ring
      rw [this]; positivity
    exact absurd k2 (not_le.mpr (mul_neg_of_pos_of_neg k3 hn))
  have hd : 0 ≤ d := by
    have : 0 ≤ (2 * c + A + B) * d := le_trans (mul_nonneg h2.le hs) g1
    exact nonneg_of_mul_nonneg_right this (by positivity)
  exact ⟨by linarith, by linarith⟩

/-- at least the power: no node is cooler; more power: the air is warmer -/
theorem compare_powered {n n' : ThreeNodes} (hw : Warmer n n') (h1 : 0 < n.capacity) (h2 : 0 < n.massSurface)
    (h3 : 0 < n.massOutdoor) (h4 : 0 < n.surfaceAir) (h5 : 0 ≤ n.surfaceOutdoor) (h6 : 0 < n.airExchange)
    {T T' T₁ T₁' s s' a a' p p' : ℝ} (hT : T ≤ T') (b : Balanced n T T₁ s a p) (b' : Balanced n' T' T₁' s' a' p')
    (hp : p ≤ p') : a ≤ a' ∧ (p < p' → a < a') := by
  have e3 : (n.surfaceAir + n.airExchange) * (a' - a) = n'.toAir - n.toAir + (p' - p) +
      n.airExchange * (n'.entering - n.entering) + n.surfaceAir * (s' - s) := by
    have i1 := b.airBalance
    have i2 := b'.airBalance
    rw [← hw.surfaceAir, ← hw.airExchange] at i2
    linear_combination i2 - i1
  have k : 0 ≤ n.airExchange * (n'.entering - n.entering) := mul_nonneg h6.le (by linarith [hw.entering])
  have w9 := hw.toAir
  have ha : a ≤ a' := by
    by_contra hn
    rw [not_le] at hn
    -- the surfaces are cooler as well, by less than the air
    have hw' : n.surfaceAir * (a' - a) ≤ (n.massSurface + n.surfaceAir + n.surfaceOutdoor) * (s' - s) -
        n.massSurface * ((T' + T₁') / 2 - (T + T₁) / 2) := by
      have f1 := b.surfaceBalance
      have f2 := b'.surfaceBalance
      rw [← hw.massSurface, ← hw.surfaceAir, ← hw.surfaceOutdoor] at f2
      have : 0 ≤ n.surfaceOutdoor * (n'.outdoor - n.outdoor) := mul_nonneg h5 (by linarith [hw.outdoor])
      have := hw.toSurface
      linarith
    have hm : n.massSurface * (s' - s) ≤
        (2 * (n.capacity / 3.6) + n.massSurface + n.massOutdoor) * ((T' + T₁') / 2 - (T + T₁) / 2) := by
      have m1 := b.massBalance
      have m2 := b'.massBalance
      rw [← hw.massSurface, ← hw.capacity, ← hw.massOutdoor] at m2
      have : 0 ≤ n.massOutdoor * (n'.outdoor - n.outdoor) := mul_nonneg h3.le (by linarith [hw.outdoor])
      have hc : 0 < n.capacity / 3.6 := by positivity
      have : 0 ≤ 2 * (n.capacity / 3.6) * (T' - T) := mul_nonneg (by linarith) (by linarith)
      have := hw.toMass
      linarith
    have hc : 0 < n.capacity / 3.6 := by positivity
    generalize n.capacity / 3.6 = c at *
    generalize n.massSurface = A at *
    generalize n.massOutdoor = B at *
    generalize n.surfaceAir = C at *
    generalize n.surfaceOutdoor = D at *
    generalize (T' + T₁') / 2 - (T + T₁) / 2 = d at *
    have hs : s' - s < 0 := by
      have h : (C + n.airExchange) * (a' - a) < 0 := mul_neg_of_pos_of_neg (by positivity) (by linarith)
      have h' : C * (s' - s) < 0 := by linarith
      exact neg_of_mul_neg_right h' h4.le
    have hs2 : C * (s' - s) < C * (a' - a) := by
      have : n.airExchange * (a' - a) < 0 := mul_neg_of_pos_of_neg h6 (by linarith)
      have h : (C + n.airExchange) * (a' - a) < C * (a' - a) := by linarith
      linarith
    have g : A * d ≤ (A + D) * (s' - s) := by linarith
    have hd : d < 0 := by
      have : (A + D) * (s' - s) < 0 := mul_neg_of_pos_of_neg (by positivity) hs
      exact neg_of_mul_neg_right (lt_of_le_of_lt g this) h2.le
    have g' : A * d ≤ A * (s' - s) := by
      have : D * (s' - s) ≤ 0 := mul_nonpos_of_nonneg_of_nonpos h5 hs.le
      linarith
    have hlt : (2 * c + A + B) * d < A * d := by
      have : (2 * c + B) * d < 0 := mul_neg_of_pos_of_neg (by positivity) hd
      linarith
    linarith
  refine ⟨ha, fun hlt => ?_⟩
  have hs := (compare_pinned hw h1 h2 h3 h4 h5 hT b b' ha).1
  have : 0 ≤ n.surfaceAir * (s' - s) := mul_nonneg h4.le (by linarith)
  have h : 0 < (n.surfaceAir + n.airExchange) * (a' - a) := by linarith
  have := (mul_pos_iff_of_pos_left (by positivity : 0 < n.surfaceAir + n.airExchange)).mp h
  linarith

/-- warmer conditions and set-points, with a thermostat: the air is no cooler -/
theorem compare_controlled {n n' : ThreeNodes} (hw : Warmer n n') (h1 : 0 < n.capacity) (h2 : 0 < n.massSurface)
    (h3 : 0 < n.massOutdoor) (h4 : 0 < n.surfaceAir) (h5 : 0 ≤ n.surfaceOutdoor) (h6 : 0 < n.airExchange)
    {T T' T₁ T₁' s s' a a' p p' H H' C C' : ℝ} (hT : T ≤ T') (b : Balanced n T T₁ s a p)
    (b' : Balanced n' T' T₁' s' a' p') (c : Controlled H C a p) (c' : Controlled H' C' a' p') (hH : H ≤ H')
    (hC : C ≤ C') : a ≤ a' := by
  by_contra hn
  rw [not_le] at hn
  have k1 : 0 ≤ p' := by
    by_contra h
    have := c'.cooling (not_le.mp h)
    linarith [c.below]
  have k2 : p ≤ 0 := by
    by_contra h
    have := c.heating (not_le.mp h)
    linarith [c'.above]
  exact absurd (compare_powered hw h1 h2 h3 h4 h5 h6 hT b b' (by linarith)).1 (by linarith)

/-- warmer conditions, same set-points: no more heating, no less cooling -/
theorem compare_gains {n n' : ThreeNodes} (hw : Warmer n n') (h1 : 0 < n.capacity) (h2 : 0 < n.massSurface)
    (h3 : 0 < n.massOutdoor) (h4 : 0 < n.surfaceAir) (h5 : 0 ≤ n.surfaceOutdoor) (h6 : 0 < n.airExchange)
    {T T' T₁ T₁' s s' a a' p p' H C : ℝ} (hT : T ≤ T') (b : Balanced n T T₁ s a p)
    (b' : Balanced n' T' T₁' s' a' p') (c : Controlled H C a p) (c' : Controlled H C a' p') : p' ≤ p := by
  by_contra hn
  rw [not_le] at hn
  have h := (compare_powered hw h1 h2 h3 h4 h5 h6 hT b b' hn.le).2 hn
  rcases lt_or_ge 0 p' with hp | hp
  · linarith [c'.heating hp, c.above]
  · linarith [c.cooling (by linarith), c'.below]

/-- same conditions, higher set-points: no less heating, no more cooling -/
theorem compare_setpoints {n : ThreeNodes} (h1 : 0 < n.capacity) (h2 : 0 < n.massSurface)
    (h3 : 0 < n.massOutdoor) (h4 : 0 < n.surfaceAir) (h5 : 0 ≤ n.surfaceOutdoor) (h6 : 0 < n.airExchange)
    {T T₁ T₁' s s' a a' p p' H H' C C' : ℝ} (b : Balanced n T T₁ s a p)
    (b' : Balanced n T T₁' s' a' p') (c : Controlled H C a p) (c' : Controlled H' C' a' p') (hH : H ≤ H')
    (hC : C ≤ C') : p ≤ p' := by
  by_contra hn
  rw [not_le] at hn
  have h := (compare_powered (Warmer.refl n) h1 h2 h3 h4 h5 h6 le_rfl b' b hn.le).2 hn
  have := compare_controlled (Warmer.refl n) h1 h2 h3 h4 h5 h6 le_rfl b b' c c' hH hC
  linarith

/-- the thermostat does the least that keeps the air between the set-points -/
theorem least_power {n : ThreeNodes} (h1 : 0 < n.capacity) (h2 : 0 < n.massSurface)
    (h3 : 0 < n.massOutdoor) (h4 : 0 < n.surfaceAir) (h5 : 0 ≤ n.surfaceOutdoor) (h6 : 0 < n.airExchange)
    {T T₁ T₁' s s' a a' p p' H C : ℝ} (b : Balanced n T T₁ s a p)
    (b' : Balanced n T T₁' s' a' p') (c : Controlled H C a p) (hH : H ≤ a') (hC : a' ≤ C) :
    max 0 p ≤ max 0 p' ∧ max 0 (-p) ≤ max 0 (-p') := by
  constructor
  · apply max_le (le_max_left _ _)
    rcases le_or_gt p 0 with hp | hp
    · exact le_trans hp (le_max_left _ _)
    · refine le_trans ?_ (le_max_right _ _)
      by_contra hn
      rw [not_le] at hn
      have h := (compare_powered (Warmer.refl n) h1 h2 h3 h4 h5 h6 le_rfl b' b hn.le).2 hn
      linarith [c.heating hp]
  · apply max_le (le_max_left _ _)
    rcases le_or_gt 0 p with hp | hp
    · exact le_trans (by linarith) (le_max_left _ _)
    · refine le_trans ?_ (le_max_right _ _)
      by_contra hn
      rw [not_le] at hn
      have hn : p < p' := by linarith
      have h := (compare_powered (Warmer.refl n) h1 h2 h3 h4 h5 h6 le_rfl b b' hn.le).2 hn
      linarith [c.cooling hp]

/-- the mass is no cooler at the end of the hour -/
theorem compare_mass {n n' : ThreeNodes} (hw : Warmer n n') (h1 : 0 < n.capacity) (h2 : 0 < n.massSurface)
    (h3 : 0 < n.massOutdoor) (h4 : 0 < n.surfaceAir) (h5 : 0 ≤ n.surfaceOutdoor)
    {T T' T₁ T₁' s s' a a' p p' : ℝ} (hT : T ≤ T') (b : Balanced n T T₁ s a p) (b' : Balanced n' T' T₁' s' a' p')
    (ha : a ≤ a') (hm : T = T' ∨ (n.massSurface + n.massOutdoor) / 2 ≤ n.capacity / 3.6) : T₁ ≤ T₁' := by
  obtain ⟨hs, hd⟩ := compare_pinned hw h1 h2 h3 h4 h5 hT b b' ha
  rcases hm with hm | hm
  · linarith
  have m1 := b.massBalance
  have m2 := b'.massBalance
  rw [← hw.massSurface, ← hw.capacity, ← hw.massOutdoor] at m2
  have k1 : 0 ≤ n.massOutdoor * (n'.outdoor - n.outdoor) := mul_nonneg h3.le (by linarith [hw.outdoor])
  have k2 := hw.toMass
  have k3 : 0 ≤ n.massSurface * (s' - s) := mul_nonneg h2.le (by linarith)
  have hc : 0 < n.capacity / 3.6 := by positivity
  generalize n.capacity / 3.6 = c at *
  have e : (c - (n.massSurface + n.massOutdoor) / 2) * (T' - T) ≤
      (c + (n.massSurface + n.massOutdoor) / 2) * (T₁' - T₁) := by linarith
  have l : 0 ≤ (c - (n.massSurface + n.massOutdoor) / 2) * (T' - T) := mul_nonneg (by linarith) (by linarith)
  have := nonneg_of_mul_nonneg_right (le_trans l e) (by positivity)
  linarith

/-- the power of the program keeps to the rules of a thermostat -/
theorem hour_controlled {x : Sim ℝ} (hx : Physical x) {sch : Schedule ℝ} (hv : 0 ≤ sch.ventilation)
    (hset : sch.heatingSetpoint ≤ sch.coolingSetpoint) (w : HourWeather ℝ) (st : ThermalState ℝ) :
    Controlled sch.heatingSetpoint sch.coolingSetpoint
      (calculateHour x (initConsts x) (freshRatios x.bldg) sch w st).1.tiHeatCool
      ((calculateHour x (initConsts x) (freshRatios x.bldg) sch w st).2.Qneed_ht -
        (calculateHour x (initConsts x) (freshRatios x.bldg) sch w st).2.Qneed_cl) := by
  have hn := hourNet_pos hx (freshRatios x.bldg) hv w st
  obtain ⟨e1, e2, e3, e4⟩ := calculateHour_state x (initConsts x) (freshRatios x.bldg) sch w st
  have e8 : max 0 (hourPhi x (initConsts x) (freshRatios x.bldg) sch w st) -
      max 0 (-hourPhi x (initConsts x) (freshRatios x.bldg) sch w st) =
        hourPhi x (initConsts x) (freshRatios x.bldg) sch w st := by
    generalize hourPhi x (initConsts x) (freshRatios x.bldg) sch w st = p
    rcases le_total 0 p with h | h
    · rw [max_eq_right h, max_eq_left (by linarith)]; ring
    · rw [max_eq_left h, max_eq_right (by linarith)]; ring
  rw [e2, e3, e4, e8]
  obtain ⟨t1, t2, t3⟩ := tAir_controlled hn hset st.TMT1
  have ep : hourPhi x (initConsts x) (freshRatios x.bldg) sch w st =
    phiActual (hourNet x (initConsts x) (freshRatios x.bldg) sch w st) sch.heatingSetpoint sch.coolingSetpoint st.TMT1 := rfl
  rw [ep, t1]
  refine ⟨le_max_left _ _, max_le hset (min_le_left _ _), fun h => ?_, fun h => ?_⟩
  · have := t2.mp h
    rw [min_eq_right (by linarith), max_eq_left this.le]
  · have := t3.mp h
    rw [min_eq_left this.le, max_eq_right hset]

end ISO.Hourly
