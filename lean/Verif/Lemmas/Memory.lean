import Verif.Lemmas.YearComparison

/-! Helper lemmas: how far two courses of the network of three nodes drift apart. -/

namespace ISO.Hourly
open ISO CNum Dbl Spec

/-- two networks that differ in nothing but the temperatures of the air outdoors and of the air that enters, and in these by at most `D` -/
structure Near (D : ℝ) (n n' : ThreeNodes) : Prop where
  capacity : n'.capacity = n.capacity
  massSurface : n'.massSurface = n.massSurface
  massOutdoor : n'.massOutdoor = n.massOutdoor
  surfaceAir : n'.surfaceAir = n.surfaceAir
  surfaceOutdoor : n'.surfaceOutdoor = n.surfaceOutdoor
  airExchange : n'.airExchange = n.airExchange
  outdoor : |n'.outdoor - n.outdoor| ≤ D
  entering : |n'.entering - n.entering| ≤ D
  toAir : n'.toAir = n.toAir
  toSurface : n'.toSurface = n.toSurface
  toMass : n'.toMass = n.toMass

/-- a warmer room is not heated more -/
theorem controlled_opposed {H C a a' p p' : ℝ} (c : Controlled H C a p) (c' : Controlled H C a' p') : (a' - a) * (p' - p) ≤ 0 := by
  rcases lt_trichotomy a a' with h | h | h
  · have h1 : p' ≤ 0 := by
      by_contra hn
      have := c'.heating (not_le.mp hn)
      linarith [c.above]
    have h2 : 0 ≤ p := by
      by_contra hn
      have := c.cooling (not_le.mp hn)
      linarith [c'.below]
    exact mul_nonpos_of_nonneg_of_nonpos (by linarith) (by linarith)
  · rw [h, sub_self, zero_mul]
  · have h1 : p ≤ 0 := by
      by_contra hn
      have := c.heating (not_le.mp hn)
      linarith [c'.above]
    have h2 : 0 ≤ p' := by
      by_contra hn
      have := c'.cooling (not_le.mp hn)
      linarith [c.below]
    exact mul_nonpos_of_nonpos_of_nonneg (by linarith) (by linarith)

/-- the differences of two hours: no node gets further than the largest cause -/
theorem drift_upper {c A B C D E d M s a p o e R : ℝ} (hc : 0 < c) (hA : 0 < A) (hB : 0 < B) (hC : 0 < C) (hD : 0 ≤ D) (hE : 0 < E)
    (e1 : (2 * c + A + B) * M = 2 * c * d + A * s + B * o) (e2 : (A + C + D) * s = A * M + D * o + C * a)
    (e3 : (E + C) * a = p + E * e + C * s) (hp : a * p ≤ 0) (hR : 0 ≤ R) (hd : d ≤ R) (ho : o ≤ R) (he : e ≤ R) :
    M ≤ R ∧ s ≤ R ∧ a ≤ R := by
  have k1 : (2 * c + A + B) * (M - R) ≤ A * (s - R) := by
    have := mul_le_mul_of_nonneg_left hd hc.le
    have := mul_le_mul_of_nonneg_left ho hB.le
    linarith
  have k2 : (A + C + D) * (s - R) ≤ A * (M - R) + C * (a - R) := by
    have := mul_le_mul_of_nonneg_left ho hD
    linarith
  have k3 : R < a → (E + C) * (a - R) ≤ C * (s - R) := by
    intro h
    have : p ≤ 0 := by
      by_contra hn
      have : 0 < a * p := mul_pos (by linarith) (not_le.mp hn)
      linarith
    have := mul_le_mul_of_nonneg_left he hE.le
    linarith
  have key : s ≤ R := by
    by_contra hn
    rw [not_le] at hn
    have hs : 0 < s - R := by linarith
    have ha : C * (a - R) ≤ C * (s - R) := by
      rcases le_or_gt a R with h | h
      · exact mul_le_mul_of_nonneg_left (by linarith) hC.le
      · have := k3 h
        have : 0 < E * (a - R) := mul_pos hE (by linarith)
        have : 0 < E * (a - R) := mul_pos hE (by linarith)
        linarith
    have hD' : 0 ≤ D * (s - R) := mul_nonneg hD hs.le
    have k4 : A * (s - R) ≤ A * (M - R) := by linarith
    have k5 : s - R ≤ M - R := le_of_mul_le_mul_left k4 hA
    have k6 : 0 < (2 * c + B) * (M - R) := mul_pos (by linarith) (by linarith)
    linarith
  refine ⟨?_, key, ?_⟩
  · by_contra hn
    rw [not_le] at hn
    have : 0 < (2 * c + A + B) * (M - R) := mul_pos (by linarith) (by linarith)
    have : A * (s - R) ≤ 0 := mul_nonpos_of_nonneg_of_nonpos hA.le (by linarith)
    linarith
  · by_contra hn
    rw [not_le] at hn
    have := k3 hn
    have : 0 < (E + C) * (a - R) := mul_pos (by linarith) (by linarith)
    have : C * (s - R) ≤ 0 := mul_nonpos_of_nonneg_of_nonpos hC.le (by linarith)
    linarith

theorem drift_bound {c A B C D E d d₁ s a p o e R : ℝ} (hc : 0 < c) (hA : 0 < A) (hB : 0 < B) (hC : 0 < C) (hD : 0 ≤ D) (hE : 0 < E)
    (heavy : (A + B) / 2 ≤ c)
    (e1 : c * (d₁ - d) = A * (s - (d + d₁) / 2) + B * (o - (d + d₁) / 2)) (e2 : 0 = A * ((d + d₁) / 2 - s) + D * (o - s) + C * (a - s))
    (e3 : 0 = p + E * (e - a) + C * (s - a)) (hp : a * p ≤ 0) (hd : |d| ≤ R) (ho : |o| ≤ R) (he : |e| ≤ R) :
    |d₁| ≤ R ∧ |p| ≤ (C + E) * R := by
  have hR : 0 ≤ R := (abs_nonneg _).trans hd
  rw [abs_le] at hd ho he
  obtain ⟨u1, u2, u3⟩ := drift_upper (M := (d + d₁) / 2) (s := s) hc hA hB hC hD hE (by linarith) (by linarith) (by linarith) hp hR hd.2 ho.2 he.2
  obtain ⟨l1, l2, l3⟩ := drift_upper (M := -((d + d₁) / 2)) (d := -d) (s := -s) (a := -a) (p := -p) (o := -o) (e := -e) hc hA hB hC hD hE
    (by linarith) (by linarith) (by linarith) (by linarith) hR (by linarith) (by linarith) (by linarith)
  constructor
  · have k : (c + (A + B) / 2) * d₁ = (c - (A + B) / 2) * d + A * s + B * o := by linarith
    have g : 0 < c + (A + B) / 2 := by linarith
    have h0 : 0 ≤ c - (A + B) / 2 := by linarith
    rw [abs_le]
    constructor
    · refine le_of_mul_le_mul_left ?_ g
      have := mul_le_mul_of_nonneg_left hd.1 h0
      have := mul_le_mul_of_nonneg_left l2 hA.le
      have := mul_le_mul_of_nonneg_left ho.1 hB.le
      linarith
    · refine le_of_mul_le_mul_left ?_ g
      have := mul_le_mul_of_nonneg_left hd.2 h0
      have := mul_le_mul_of_nonneg_left u2 hA.le
      have := mul_le_mul_of_nonneg_left ho.2 hB.le
      linarith
  · rw [abs_le]
    have f1 := mul_le_mul_of_nonneg_left he.1 hE.le
    have f2 := mul_le_mul_of_nonneg_left he.2 hE.le
    have f3 := mul_le_mul_of_nonneg_left u2 hC.le
    have f4 := mul_le_mul_of_nonneg_left l2 hC.le
    have f0 : 0 ≤ (C + E) * R := mul_nonneg (by linarith) hR
    constructor
    · rcases le_or_gt 0 p with h | h
      · linarith
      · have : 0 ≤ a := by
          by_contra hn
          have := mul_pos_of_neg_of_neg (not_le.mp hn) h
          linarith
        have : 0 ≤ (E + C) * a := mul_nonneg (by linarith) this
        linarith
    · rcases le_or_gt p 0 with h | h
      · linarith
      · have : a ≤ 0 := by
          by_contra hn
          have := mul_pos (not_le.mp hn) h
          linarith
        have : (E + C) * a ≤ 0 := mul_nonpos_of_nonneg_of_nonpos (by linarith) this
        linarith

/-- with the same causes the difference shrinks, by the share that leaves through the envelope of the mass -/
theorem drift_up {c A B C D E d d₁ s a p : ℝ} (hc : 0 < c) (hA : 0 < A) (hB : 0 < B) (hC : 0 < C) (hD : 0 ≤ D) (hE : 0 < E)
    (heavy : (A + B) / 2 ≤ c)
    (e1 : c * (d₁ - d) = A * (s - (d + d₁) / 2) + B * (0 - (d + d₁) / 2)) (e2 : 0 = A * ((d + d₁) / 2 - s) + D * (0 - s) + C * (a - s))
    (e3 : 0 = p + E * (0 - a) + C * (s - a)) (hp : a * p ≤ 0) (hd : 0 ≤ d) :
    0 ≤ d₁ ∧ (c + B / 2) * d₁ ≤ (c - B / 2) * d ∧ p ≤ 0 ∧ -(C * d) ≤ p := by
  obtain ⟨l1, l2, l3⟩ := drift_upper (M := -((d + d₁) / 2)) (d := -d) (s := -s) (a := -a) (p := -p) (o := 0) (e := 0) (R := 0) hc hA hB hC hD hE
    (by linarith) (by linarith) (by linarith) (by linarith) le_rfl (by linarith) le_rfl le_rfl
  have hs : 0 ≤ s := by linarith
  have ha : 0 ≤ a := by linarith
  have hpn : p ≤ 0 := by
    rcases ha.lt_or_eq with h | h
    · by_contra hn
      have := mul_pos h (not_le.mp hn)
      linarith
    · rw [← h] at e3
      have : 0 ≤ C * s := mul_nonneg hC.le hs
      linarith
  have has : C * a ≤ C * s := by
    have : 0 ≤ E * a := mul_nonneg hE.le ha
    linarith
  have hDs : 0 ≤ D * s := mul_nonneg hD hs
  have hsM : A * s ≤ A * ((d + d₁) / 2) := by linarith
  have k : (c + (A + B) / 2) * d₁ = (c - (A + B) / 2) * d + A * s := by linarith
  have hd1 : 0 ≤ d₁ := by
    have g : 0 < c + (A + B) / 2 := by linarith
    have h0 : 0 ≤ (c - (A + B) / 2) * d := mul_nonneg (by linarith) hd
    have : 0 ≤ A * s := mul_nonneg hA.le hs
    by_contra hn
    have := mul_neg_of_pos_of_neg g (not_le.mp hn)
    linarith
  have kq : (c + B / 2) * d₁ ≤ (c - B / 2) * d := by linarith
  refine ⟨hd1, kq, hpn, ?_⟩
  have hle : d₁ ≤ d := by
    have g : 0 < c + B / 2 := by linarith
    refine le_of_mul_le_mul_left ?_ g
    have : 0 ≤ B * d := mul_nonneg hB.le hd
    linarith
  have h1 : s ≤ (d + d₁) / 2 := le_of_mul_le_mul_left hsM hA
  have h2 : C * s ≤ C * d := mul_le_mul_of_nonneg_left (by linarith) hC.le
  have : 0 ≤ (E + C) * a := mul_nonneg (by linarith) ha
  linarith

theorem drift_shrinks {c A B C D E d d₁ s a p : ℝ} (hc : 0 < c) (hA : 0 < A) (hB : 0 < B) (hC : 0 < C) (hD : 0 ≤ D) (hE : 0 < E)
    (heavy : (A + B) / 2 ≤ c)
    (e1 : c * (d₁ - d) = A * (s - (d + d₁) / 2) + B * (0 - (d + d₁) / 2)) (e2 : 0 = A * ((d + d₁) / 2 - s) + D * (0 - s) + C * (a - s))
    (e3 : 0 = p + E * (0 - a) + C * (s - a)) (hp : a * p ≤ 0) :
    |d₁| ≤ (c - B / 2) / (c + B / 2) * |d| ∧ |p| ≤ C * |d| := by
  have g : 0 < c + B / 2 := by linarith
  have one : ∀ {d d₁ p : ℝ}, 0 ≤ d → 0 ≤ d₁ ∧ (c + B / 2) * d₁ ≤ (c - B / 2) * d ∧ p ≤ 0 ∧ -(C * d) ≤ p →
      |d₁| ≤ (c - B / 2) / (c + B / 2) * |d| ∧ |p| ≤ C * |d| := by
    intro d d₁ p hd ⟨h1, h2, h3, h4⟩
    rw [abs_of_nonneg h1, abs_of_nonneg hd, abs_of_nonpos h3]
    refine ⟨?_, by linarith⟩
    rw [div_mul_eq_mul_div, le_div_iff₀ g]
    linarith
  rcases le_total 0 d with h | h
  · exact one h (drift_up hc hA hB hC hD hE heavy e1 e2 e3 hp h)
  · have := one (d := -d) (d₁ := -d₁) (p := -p) (by linarith)
      (drift_up (s := -s) (a := -a) hc hA hB hC hD hE heavy (by linarith) (by linarith) (by linarith) (by linarith) (by linarith))
    rwa [abs_neg, abs_neg, abs_neg] at this

variable {N : ℕ} {net net' : ℕ → ThreeNodes} {H C mass air surface power mass' air' surface' power' : ℕ → ℝ}

/-- the equations between the differences -/
theorem near_differences {D : ℝ} {n n' : ThreeNodes} (h : Near D n n') {T T' T₁ T₁' s s' a a' p p' : ℝ} (b : Balanced n T T₁ s a p)
    (b' : Balanced n' T' T₁' s' a' p') :
    n.capacity / 3.6 * ((T₁' - T₁) - (T' - T)) = n.massSurface * ((s' - s) - ((T' - T) + (T₁' - T₁)) / 2) +
      n.massOutdoor * ((n'.outdoor - n.outdoor) - ((T' - T) + (T₁' - T₁)) / 2) ∧
    0 = n.massSurface * (((T' - T) + (T₁' - T₁)) / 2 - (s' - s)) + n.surfaceOutdoor * ((n'.outdoor - n.outdoor) - (s' - s)) +
      n.surfaceAir * ((a' - a) - (s' - s)) ∧
    0 = (p' - p) + n.airExchange * ((n'.entering - n.entering) - (a' - a)) + n.surfaceAir * ((s' - s) - (a' - a)) := by
  obtain ⟨m1, f1, a1⟩ := b
  obtain ⟨m2, f2, a2⟩ := b'
  obtain ⟨w1, w2, w3, w4, w5, w6, -, -, w9, w10, w11⟩ := h
  rw [w1, w2, w3, w11] at m2
  rw [w2, w4, w5, w10] at f2
  rw [w4, w6, w9] at a2
  exact ⟨by linear_combination m2 - m1, by linear_combination f2 - f1, by linear_combination a2 - a1⟩

/-- an error of `D` degrees in the air outdoors is never an error of more than `D` degrees in the mass -/
theorem run_near {D : ℝ} (r : Run N net H C mass air surface power) (r' : Run N net' H C mass' air' surface' power')
    (hs : ∀ i < N, Solid (net i)) (hw : ∀ i < N, Near D (net i) (net' i)) (h0 : |mass' 0 - mass 0| ≤ D) :
    (∀ i ≤ N, |mass' i - mass i| ≤ D) ∧ ∀ i < N, |power' i - power i| ≤ ((net i).surfaceAir + (net i).airExchange) * D := by
  have step : ∀ i < N, |mass' i - mass i| ≤ D →
      |mass' (i + 1) - mass (i + 1)| ≤ D ∧ |power' i - power i| ≤ ((net i).surfaceAir + (net i).airExchange) * D := by
    intro i hi ih
    have s := hs i hi
    have w := hw i hi
    obtain ⟨e1, e2, e3⟩ := near_differences w (r.balanced i hi) (r'.balanced i hi)
    have hc := s.capacity
    exact drift_bound (by positivity) s.massSurface s.massOutdoor s.surfaceAir s.surfaceOutdoor s.airExchange s.heavy e1 e2 e3
      (controlled_opposed (r.controlled i hi) (r'.controlled i hi)) ih w.outdoor w.entering
  have all : ∀ i ≤ N, |mass' i - mass i| ≤ D := by
    intro i
    induction i with
    | zero => intro _; exact h0
    | succ i ih => intro hi; exact (step i (by omega) (ih (by omega))).1
  exact ⟨all, fun i hi => (step i hi (all i hi.le)).2⟩

/-- once the conditions are the same again, what is left of a difference shrinks by a fixed ratio in every hour -/
theorem run_fades {k n : ℕ} {c B : ℝ} (r : Run N net H C mass air surface power) (r' : Run N net' H C mass' air' surface' power')
    (hs : ∀ i < N, Solid (net i)) (hw : ∀ i < N, n ≤ i → Near 0 (net i) (net' i)) (hc : ∀ i < N, (net i).capacity / 3.6 = c)
    (hB : ∀ i < N, (net i).massOutdoor = B) (hk : n + k < N) :
    |mass' (n + k) - mass (n + k)| ≤ ((c - B / 2) / (c + B / 2)) ^ k * |mass' n - mass n| ∧
    |power' (n + k) - power (n + k)| ≤ (net (n + k)).surfaceAir * (((c - B / 2) / (c + B / 2)) ^ k * |mass' n - mass n|) := by
  have step : ∀ i < N, n ≤ i → |mass' (i + 1) - mass (i + 1)| ≤ (c - B / 2) / (c + B / 2) * |mass' i - mass i| ∧
      |power' i - power i| ≤ (net i).surfaceAir * |mass' i - mass i| := by
    intro i hi hn
    have s := hs i hi
    have w := hw i hi hn
    obtain ⟨e1, e2, e3⟩ := near_differences w (r.balanced i hi) (r'.balanced i hi)
    have o := abs_nonpos_iff.mp w.outdoor
    have e := abs_nonpos_iff.mp w.entering
    rw [o] at e1 e2
    rw [e] at e3
    have hcap := s.capacity
    have := drift_shrinks (by positivity) s.massSurface s.massOutdoor s.surfaceAir s.surfaceOutdoor s.airExchange s.heavy e1 e2 e3
      (controlled_opposed (r.controlled i hi) (r'.controlled i hi))
    rwa [hc i hi, hB i hi] at this
  have hq : 0 ≤ (c - B / 2) / (c + B / 2) := by
    have s := hs _ hk
    have h1 := s.heavy
    have h2 := s.massSurface
    have h3 := s.massOutdoor
    rw [hc _ hk] at h1
    rw [hB _ hk] at h1 h3
    exact div_nonneg (by linarith) (by linarith)
  have all : ∀ k, n + k < N → |mass' (n + k) - mass (n + k)| ≤ ((c - B / 2) / (c + B / 2)) ^ k * |mass' n - mass n| := by
    intro k
    induction k with
    | zero => intro _; simp
    | succ k ih =>
      intro hk
      have h1 := (step (n + k) (by omega) (by omega)).1
      have h2 := mul_le_mul_of_nonneg_left (ih (by omega)) hq
      rw [← add_assoc, pow_succ, mul_comm (_ ^ k), mul_assoc]
      exact h1.trans h2
  exact ⟨all k hk, ((step (n + k) hk (by omega)).2).trans (mul_le_mul_of_nonneg_left (all k hk) (hs _ hk).surfaceAir.le)⟩

end ISO.Hourly
