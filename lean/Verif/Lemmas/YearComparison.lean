import Verif.Lemmas.Comparison

/-! Helper lemmas: comparison of two courses of many hours of the network of three nodes. -/

namespace ISO.Hourly
open ISO CNum Dbl Spec

/-- hours `0 .. N-1` of a controlled building -/
structure Run (N : ℕ) (net : ℕ → ThreeNodes) (H C mass air surface power : ℕ → ℝ) : Prop where
  balanced : ∀ i < N, Balanced (net i) (mass i) (mass (i + 1)) (surface i) (air (i + 1)) (power i)
  controlled : ∀ i < N, Controlled (H i) (C i) (air (i + 1)) (power i)

/-- the signs of the conductances, and a mass that stores enough -/
structure Solid (n : ThreeNodes) : Prop where
  capacity : 0 < n.capacity
  massSurface : 0 < n.massSurface
  massOutdoor : 0 < n.massOutdoor
  surfaceAir : 0 < n.surfaceAir
  surfaceOutdoor : 0 ≤ n.surfaceOutdoor
  airExchange : 0 < n.airExchange
  heavy : (n.massSurface + n.massOutdoor) / 2 ≤ n.capacity / 3.6

variable {N : ℕ} {net net' : ℕ → ThreeNodes} {H C H' C' mass air surface power mass' air' surface' power' : ℕ → ℝ}

/-- in warmer conditions with higher set-points the building is never cooler -/
theorem run_warmer (r : Run N net H C mass air surface power) (r' : Run N net' H' C' mass' air' surface' power')
    (hs : ∀ i < N, Solid (net i)) (hw : ∀ i < N, Warmer (net i) (net' i)) (hH : ∀ i < N, H i ≤ H' i) (hC : ∀ i < N, C i ≤ C' i)
    (h0 : mass 0 ≤ mass' 0) : ∀ i ≤ N, mass i ≤ mass' i := by
  intro i
  induction i with
  | zero => intro _; exact h0
  | succ i ih =>
    intro hi
    have hT := ih (by omega)
    have s := hs i (by omega)
    have b := r.balanced i (by omega)
    have b' := r'.balanced i (by omega)
    have ha := compare_controlled (hw i (by omega)) s.capacity s.massSurface s.massOutdoor s.surfaceAir s.surfaceOutdoor s.airExchange hT
      b b' (r.controlled i (by omega)) (r'.controlled i (by omega)) (hH i (by omega)) (hC i (by omega))
    exact compare_mass (hw i (by omega)) s.capacity s.massSurface s.massOutdoor s.surfaceAir s.surfaceOutdoor hT b b' ha (.inr s.heavy)

/-- in warmer conditions with the same set-points no hour takes more heating or less cooling -/
theorem run_gains (r : Run N net H C mass air surface power) (r' : Run N net' H C mass' air' surface' power')
    (hs : ∀ i < N, Solid (net i)) (hw : ∀ i < N, Warmer (net i) (net' i)) (h0 : mass 0 ≤ mass' 0) :
    ∀ i < N, power' i ≤ power i := by
  intro i hi
  have s := hs i hi
  exact compare_gains (hw i hi) s.capacity s.massSurface s.massOutdoor s.surfaceAir s.surfaceOutdoor s.airExchange
    (run_warmer r r' hs hw (fun _ _ => le_rfl) (fun _ _ => le_rfl) h0 i hi.le) (r.balanced i hi) (r'.balanced i hi)
    (r.controlled i hi) (r'.controlled i hi)

/-- with higher set-points, the power of the year is no less -/
theorem run_sum (r : Run N net H C mass air surface power) (r' : Run N net H' C' mass' air' surface' power')
    (hs : ∀ i < N, Solid (net i)) {c : ℝ} (hc : ∀ i < N, (net i).capacity = c) (hH : ∀ i < N, H i ≤ H' i) (hC : ∀ i < N, C i ≤ C' i)
    (h0 : mass 0 = mass' 0) : ∑ i ∈ Finset.range N, power i ≤ ∑ i ∈ Finset.range N, power' i := by
  have hm := run_warmer r r' hs (fun i _ => Warmer.refl _) hH hC h0.le
  have step : ∀ i < N, c / 3.6 * ((mass' (i + 1) - mass (i + 1)) - (mass' i - mass i)) ≤ power' i - power i := by
    intro i hi
    have s := hs i hi
    have b := r.balanced i hi
    have b' := r'.balanced i hi
    have ha := compare_controlled (Warmer.refl _) s.capacity s.massSurface s.massOutdoor s.surfaceAir s.surfaceOutdoor s.airExchange
      (hm i hi.le) b b' (r.controlled i hi) (r'.controlled i hi) (hH i hi) (hC i hi)
    obtain ⟨h1, h2⟩ := compare_pinned (Warmer.refl _) s.capacity s.massSurface s.massOutdoor s.surfaceAir s.surfaceOutdoor
      (hm i hi.le) b b' ha
    have k1 : 0 ≤ (net i).massOutdoor * (mass' i + mass' (i + 1) - (mass i + mass (i + 1))) := mul_nonneg s.massOutdoor.le (by linarith)
    have k2 : 0 ≤ (net i).surfaceOutdoor * (surface' i - surface i) := mul_nonneg s.surfaceOutdoor (by linarith)
    have k3 : 0 ≤ (net i).airExchange * (air' (i + 1) - air (i + 1)) := mul_nonneg s.airExchange.le (by linarith)
    have m1 := b.massBalance
    have m2 := b'.massBalance
    rw [hc i hi] at m1 m2
    have f1 := b.surfaceBalance
    have f2 := b'.surfaceBalance
    have a1 := b.airBalance
    have a2 := b'.airBalance
    linarith
  have tel : ∀ n ≤ N, c / 3.6 * (mass' n - mass n) ≤ ∑ i ∈ Finset.range n, power' i - ∑ i ∈ Finset.range n, power i := by
    intro n
    induction n with
    | zero => intro _; rw [h0]; simp
    | succ n ih =>
      intro hn
      rw [Finset.sum_range_succ, Finset.sum_range_succ]
      have := ih (by omega)
      have := step n (by omega)
      linarith
  rcases Nat.eq_zero_or_pos N with h | h
  · subst h; simp
  have hc0 : 0 < c := by rw [← hc 0 h]; exact (hs 0 h).capacity
  have := tel N le_rfl
  have : 0 ≤ c / 3.6 * (mass' N - mass N) := mul_nonneg (by positivity) (by linarith [hm N le_rfl])
  linarith

theorem parts (p : ℝ) : max 0 p = p + max 0 (-p) := by
  rcases le_total 0 p with h | h
  · rw [max_eq_right h, max_eq_left (by linarith), add_zero]
  · rw [max_eq_left h, max_eq_right (by linarith)]; ring

/-- higher set-points for heating only: no hour takes less cooling, the year takes no less heating -/
theorem run_heating (r : Run N net H C mass air surface power) (r' : Run N net H' C mass' air' surface' power')
    (hs : ∀ i < N, Solid (net i)) {c : ℝ} (hc : ∀ i < N, (net i).capacity = c) (hH : ∀ i < N, H i ≤ H' i)
    (h0 : mass 0 = mass' 0) : (∀ i < N, max 0 (-power i) ≤ max 0 (-power' i)) ∧
      ∑ i ∈ Finset.range N, max 0 (power i) ≤ ∑ i ∈ Finset.range N, max 0 (power' i) := by
  have hm := run_warmer r r' hs (fun i _ => Warmer.refl _) hH (fun _ _ => le_rfl) h0.le
  have h1 : ∀ i < N, max 0 (-power i) ≤ max 0 (-power' i) := by
    intro i hi
    have s := hs i hi
    refine max_le (le_max_left _ _) ?_
    rcases le_or_gt 0 (power i) with hp | hp
    · exact le_trans (by linarith) (le_max_left _ _)
    refine le_trans ?_ (le_max_right _ _)
    by_contra hn
    have hlt : power i < power' i := by linarith
    have := (compare_powered (Warmer.refl _) s.capacity s.massSurface s.massOutdoor s.surfaceAir s.surfaceOutdoor s.airExchange
      (hm i hi.le) (r.balanced i hi) (r'.balanced i hi) hlt.le).2 hlt
    linarith [(r.controlled i hi).cooling hp, (r'.controlled i hi).below]
  refine ⟨h1, ?_⟩
  have h2 := run_sum r r' hs hc hH (fun _ _ => le_rfl) h0
  rw [Finset.sum_congr rfl fun i _ => parts (power i), Finset.sum_congr rfl fun i _ => parts (power' i), Finset.sum_add_distrib,
    Finset.sum_add_distrib]
  exact add_le_add h2 (Finset.sum_le_sum fun i hi => h1 i (Finset.mem_range.mp hi))

/-- higher set-points for cooling only: no hour takes more heating, the year takes no more cooling -/
theorem run_cooling (r : Run N net H C mass air surface power) (r' : Run N net H C' mass' air' surface' power')
    (hs : ∀ i < N, Solid (net i)) {c : ℝ} (hc : ∀ i < N, (net i).capacity = c) (hC : ∀ i < N, C i ≤ C' i)
    (h0 : mass 0 = mass' 0) : (∀ i < N, max 0 (power' i) ≤ max 0 (power i)) ∧
      ∑ i ∈ Finset.range N, max 0 (-power' i) ≤ ∑ i ∈ Finset.range N, max 0 (-power i) := by
  have hm := run_warmer r r' hs (fun i _ => Warmer.refl _) (fun _ _ => le_rfl) hC h0.le
  have h1 : ∀ i < N, max 0 (power' i) ≤ max 0 (power i) := by
    intro i hi
    have s := hs i hi
    refine max_le (le_max_left _ _) ?_
    rcases le_or_gt (power' i) 0 with hp | hp
    · exact le_trans hp (le_max_left _ _)
    refine le_trans ?_ (le_max_right _ _)
    by_contra hn
    have hlt : power i < power' i := by linarith
    have := (compare_powered (Warmer.refl _) s.capacity s.massSurface s.massOutdoor s.surfaceAir s.surfaceOutdoor s.airExchange
      (hm i hi.le) (r.balanced i hi) (r'.balanced i hi) hlt.le).2 hlt
    linarith [(r'.controlled i hi).heating hp, (r.controlled i hi).above]
  refine ⟨h1, ?_⟩
  have h2 := run_sum r r' hs hc (fun _ _ => le_rfl) hC h0
  have h3 : ∀ p : ℝ, max 0 (-p) = max 0 p - p := fun p => by linarith [parts p]
  simp only [h3, Finset.sum_sub_distrib]
  exact sub_le_sub (Finset.sum_le_sum fun i hi => h1 i (Finset.mem_range.mp hi)) h2

end ISO.Hourly
