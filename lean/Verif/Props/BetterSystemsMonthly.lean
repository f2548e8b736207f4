import Verif.Props.BetterSystems
import Verif.Props.RoundingMonthly

/-!
# C65: better heating and cooling systems in the monthly model
-/

namespace ISO
open scoped NNReal ENNReal

namespace Fl

/-- sign bit; NaN has none -/
def minus : Fl → Bool
  | num s _ => s
  | inf s => s
  | nan => false

/-- NaN together; on the same side of zero and no farther from it -/
def Near (a b : Fl) : Prop := a.isNan = b.isNan ∧ (mag a = 0 ∨ minus a = minus b) ∧ mag a ≤ mag b

theorem Near.refl (a : Fl) : Near a a := ⟨rfl, .inr rfl, le_rfl⟩

theorem abs_le {a b : Fl} (h0 : a.isNan = b.isNan) (h : mag a ≤ mag b) : Le a.abs b.abs := by
  rw [le_iff (plus_abs _).nn (plus_abs _).nn]
  have e1 : ∀ c : Fl, c.abs.isNan = c.isNan := by intro c; cases c <;> rfl
  have e2 : ∀ c : Fl, c.abs.mag = c.mag := by intro c; cases c <;> rfl
  rw [e1, e1, e2, e2]
  exact ⟨h0, h⟩

end Fl

namespace Rounding
open Fl
variable (R : Rounding)

theorem minus_make (s : Bool) (m : ℝ≥0) : minus (R.make s m) = s := by unfold make; split <;> rfl

theorem near_div {a c b d : Fl} (h : Near a c) (hb : Pos b) (hd : Pos d) (h2 : Le d b) : Near (R.div a b) (R.div c d) := by
  obtain ⟨n, hn, rfl⟩ := hb
  obtain ⟨n', hn', rfl⟩ := hd
  rw [le_iff (show Plus (num false _) from rfl).nn (show Plus (num false _) from rfl).nn] at h2
  have e2 : n' ≤ n := by have := h2.2; simpa [mag] using this
  obtain ⟨h0, h1, h3⟩ := h
  rcases a with ⟨s, m⟩ | ⟨s⟩ | _ <;> rcases c with ⟨s', m'⟩ | ⟨s'⟩ | _ <;>
    first
    | (exfalso; simp [isNan] at h0; done)
    | skip
  · have e1 : m ≤ m' := by simpa [mag] using h3
    simp only [div]
    rw [if_neg hn.ne', if_neg hn'.ne']
    refine ⟨by rw [R.make_not_nan, R.make_not_nan], ?_, ?_⟩
    · rw [R.mag_make, R.minus_make, R.minus_make]
      rcases h1 with h1 | h1
      · left
        have : m = 0 := by simpa [mag] using h1
        rw [this, zero_div, R.round_zero]
      · right
        rw [show s = s' from h1]
    · rw [R.mag_make, R.mag_make]
      exact R.mono (div_le_div₀ (zero_le) e1 hn' e2)
  · simp only [div]
    rw [if_neg hn.ne']
    refine ⟨by rw [R.make_not_nan]; rfl, ?_, le_top⟩
    rw [R.mag_make, R.minus_make]
    rcases h1 with h1 | h1
    · left
      have : m = 0 := by simpa [mag] using h1
      rw [this, zero_div, R.round_zero]
    · right
      rw [show s = s' from h1]
      rfl
  · simp [mag] at h3
  · refine ⟨rfl, .inr ?_, le_rfl⟩
    rcases h1 with h1 | h1
    · simp [mag] at h1
    · simp only [div, minus]
      rw [show s = s' from h1]
  · exact ⟨rfl, .inr rfl, le_rfl⟩

theorem near_add_zero {a c z : Fl} (h : Near a c) (hz : z = nan ∨ ∃ t, z = num t 0) : Near (R.add a z) (R.add c z) := by
  rcases hz with rfl | ⟨t, rfl⟩
  · have : ∀ a, R.add a nan = nan := by intro a; rcases a with ⟨s, m⟩ | ⟨s⟩ | _ <;> rfl
    rw [this, this]
    exact Near.refl _
  · obtain ⟨h0, h1, h3⟩ := h
    have v : ∀ s m, (num s m).value + (num t 0).value = (num s m).value := by
      intro s m; cases t <;> simp [value]
    have av : ∀ s m, Real.toNNReal |(num s m).value| = m := by
      intro s m; cases s <;> simp [value]
    have mg : ∀ s m, mag (R.add (num s m) (num t 0)) = R.round m := by
      intro s m
      simp only [add]
      rw [R.mag_ofReal, v, av]
    have nn : ∀ s m, (R.add (num s m) (num t 0)).isNan = false := fun s m => R.ofReal_not_nan _ _
    have sg : ∀ s m, m ≠ 0 → minus (R.add (num s m) (num t 0)) = s := by
      intro s m hm
      simp only [add]
      rw [v]
      unfold ofReal
      have hm' : (0 : ℝ) < m := by exact_mod_cast pos_iff_ne_zero.mpr hm
      cases s
      · rw [if_neg (by simpa [value] using hm), R.minus_make]
        simp [value]
      · rw [if_neg (by simpa [value] using hm), R.minus_make]
        simpa [value] using hm'
    rcases a with ⟨s, m⟩ | ⟨s⟩ | _ <;> rcases c with ⟨s', m'⟩ | ⟨s'⟩ | _ <;>
      first
      | (exfalso; simp [isNan] at h0; done)
      | skip
    · have e1 : m ≤ m' := by simpa [mag] using h3
      refine ⟨by rw [nn, nn], ?_, by rw [mg, mg]; exact R.mono e1⟩
      by_cases hm : m = 0
      · left; rw [mg, hm, R.round_zero]
      · right
        have hm' : m' ≠ 0 := fun e => hm (by rw [e] at e1; exact le_antisymm e1 zero_le)
        rw [sg _ _ hm, sg _ _ hm']
        rcases h1 with h1 | h1
        · exact absurd (by simpa [mag] using h1) hm
        · exact h1
    · refine ⟨by rw [nn]; rfl, ?_, le_top⟩
      by_cases hm : m = 0
      · left; rw [mg, hm, R.round_zero]
      · right
        rw [sg _ _ hm]
        rcases h1 with h1 | h1
        · exact absurd (by simpa [mag] using h1) hm
        · exact h1
    · simp [mag] at h3
    · refine ⟨rfl, .inr ?_, le_rfl⟩
      rcases h1 with h1 | h1
      · simp [mag] at h1
      · exact h1
    · exact ⟨rfl, .inr rfl, le_rfl⟩

end Rounding

namespace Props
open ISO.Spec ISO.Monthly CNum Mach
variable {M : Machine}

def Near (a b : Mach M) : Prop := Fl.Near a b

theorem Near.refl (a : Mach M) : Near a a := Fl.Near.refl a

theorem near_noFarther {a b : Mach M} (h : Near a b) : NoFarther a b := by
  obtain ⟨h0, h1, h3⟩ := h
  have z : (Fl.num false 0).key = 0 := by simp [Fl.key]
  have side : ∀ c : Mach M, (clt 0.0 c = true ↔ Fl.minus c = false ∧ Fl.mag c ≠ 0) ∧ (clt c 0.0 = true ↔ Fl.minus c = true ∧ Fl.mag c ≠ 0) := by
    intro c
    rw [zero]
    show (Fl.lt (Fl.num false 0) c = true ↔ _) ∧ (Fl.lt c (Fl.num false 0) = true ↔ _)
    unfold Fl.lt
    rw [z]
    rcases c with ⟨_ | _, m⟩ | ⟨_ | _⟩ | _ <;> simp [Fl.isNan, Fl.key, Fl.minus, Fl.mag, pos_iff_ne_zero]
    all_goals
      try
        refine ⟨?_, ?_⟩
      all_goals first
        | (have := m.2; norm_cast; done)
        | (norm_cast; exact pos_iff_ne_zero)
        | skip
  refine ⟨?_, ?_, ?_⟩
  · rw [noMore_iff]
    exact Fl.abs_le h0 h3
  · rw [(side a).1, (side b).1]
    rintro ⟨m, n⟩
    refine ⟨?_, fun e => n (le_antisymm (e ▸ h3) zero_le)⟩
    rcases h1 with h1 | h1
    · exact absurd h1 n
    · rw [← h1]; exact m
  · rw [(side a).2, (side b).2]
    rintro ⟨m, n⟩
    refine ⟨?_, fun e => n (le_antisymm (e ▸ h3) zero_le)⟩
    rcases h1 with h1 | h1
    · exact absurd h1 n
    · rw [← h1]; exact m

theorem pos_ne_zero {a : Mach M} (h : Pos a) : ceq a 0.0 = false := by
  obtain ⟨m, h, rfl⟩ := h
  rw [zero]
  show Fl.eq _ _ = false
  simp [Fl.eq, Fl.key, Fl.isNan, h.ne']

theorem near_vdiv {a c b d : Mach M} (h : Near a c) (hb : Pos b) (hd : Pos d) (h2 : Le d b) : Near (vdiv a b) (vdiv c d) := by
  unfold vdiv
  rw [pos_ne_zero hb, pos_ne_zero hd]
  exact M.toRounding.near_div h hb hd h2

theorem near_vdiv' {a c b : Mach M} (h : Near a c) (hb : Pos b) : Near (vdiv a b) (vdiv c b) := near_vdiv h hb hb (Le.refl _)

/-- nothing divided by something that is not zero -/
theorem nothing_vdiv {b y : Mach M} (h : ceq b 0.0 = false) : vdiv (0.0 * y) b = Fl.nan ∨ ∃ t, vdiv (0.0 * y) b = Fl.num t 0 := by
  unfold vdiv
  rw [h, zero]
  show (M.toRounding.div (M.toRounding.mul (Fl.num false 0) y) b = Fl.nan) ∨ ∃ t, M.toRounding.div (M.toRounding.mul (Fl.num false 0) y) b = Fl.num t 0
  have e : M.toRounding.mul (Fl.num false 0) y = Fl.nan ∨ ∃ t, M.toRounding.mul (Fl.num false 0) y = Fl.num t 0 := by
    rcases y with ⟨s, m⟩ | ⟨s⟩ | _
    · right
      refine ⟨false ^^ s, ?_⟩
      simp only [Rounding.mul]
      rw [zero_mul, M.toRounding.make_zero]
    · left; simp [Rounding.mul]
    · left; rfl
  rcases e with e | ⟨t, e⟩ <;> rw [e]
  · left; rfl
  · rcases b with ⟨s, m⟩ | ⟨s⟩ | _
    · simp only [Rounding.div]
      by_cases hm : m = 0
      · left; rw [if_pos hm]; simp
      · right
        refine ⟨t ^^ s, ?_⟩
        rw [if_neg hm, zero_div, M.toRounding.make_zero]
    · right; exact ⟨t ^^ s, rfl⟩
    · left; rfl

theorem pos_dblMin : Pos (dblMin : Mach M) := by
  refine pos_lit _ _ _ 1022 le_rfl ?_ ?_
  · have e : (OfScientific.ofScientific 22250738585072014 true 324 : ℝ) = 22250738585072014 / 10 ^ 324 := by
      rw [NNRatCast.ofScientific_eq_ite, if_pos rfl, NNRat.divNat_eq_div]
      push_cast; rfl
    rw [e, inv_pow, inv_eq_one_div, div_le_div_iff₀ (by positivity) (by positivity), one_mul]
    have : 10 ^ 324 ≤ 22250738585072014 * 2 ^ 1022 := by decide +kernel
    exact_mod_cast this
  · refine le_trans (le_of_lt dblMin_lt) ?_
    norm_num

/-- a number of moderate size plus `DBL_MIN` is above zero, and monotone -/
theorem plus_dblMin {a b : Mach M} {n : ℕ} (ha : Between a 0 n) (hb : Between b 0 n) (hn : n + 1 ≤ 2 ^ 53) (h : Le a b) :
    Pos (a + dblMin) ∧ Pos (b + dblMin) ∧ Le (a + dblMin) (b + dblMin) := by
  have hd : Between (dblMin : Mach M) 0 1 := by
    obtain ⟨d, d0, hd⟩ := pos_dblMin (M := M)
    refine ⟨d, hd, by simp, ?_⟩
    have e : M.toRounding.ofReal false (dblMin : ℝ) = Fl.num false d := hd
    have m := M.toRounding.mag_ofReal false (dblMin : ℝ)
    rw [e] at m
    have small : Real.toNNReal |(dblMin : ℝ)| ≤ ((1 : ℕ) : NNReal) := by
      rw [abs_of_pos dblMin_pos, Real.toNNReal_le_iff_le_coe]
      exact le_trans (le_of_lt dblMin_lt) (by norm_num)
    have := M.toRounding.round_le small (by norm_num)
    rw [← m] at this
    have : ((d : NNReal) : ENNReal) ≤ ((1 : ℕ) : ENNReal) := this
    exact_mod_cast this
  have key : ∀ c : Mach M, Between c 0 n → Pos (c + dblMin) := by
    intro c hc
    obtain ⟨m, e, -⟩ := hc.add hd hn
    refine ⟨m, ?_, e⟩
    have l : Le ((0.0 : Mach M) + dblMin) (c + dblMin) := by
      obtain ⟨k, rfl, -⟩ := hc
      refine le_add (plus_lit _ _ _).n pos_dblMin.plus.n (by exact .inl rfl) pos_dblMin.plus.n ?_ (Le.refl _)
      rw [zero]
      refine ⟨rfl, ?_⟩
      show (((0 : NNReal) : ℝ) : EReal) ≤ ((k : ℝ) : EReal)
      rw [EReal.coe_le_coe_iff]
      exact_mod_cast zero_le
    obtain ⟨d, d0, hd⟩ := pos_dblMin (M := M)
    have z : (0.0 : Mach M) + dblMin = Fl.num false d := by
      have e : M.toRounding.ofReal false (dblMin : ℝ) = Fl.num false d := hd
      rw [zero, hd]
      show M.toRounding.ofReal false (((0 : NNReal) : ℝ) + (d : ℝ)) = _
      have hr : M.round d = (d : ENNReal) := by
        have m := M.toRounding.mag_ofReal false (dblMin : ℝ)
        rw [e] at m
        exact M.idem _ d m.symm
      rw [NNReal.coe_zero, zero_add]
      have d0' : (0 : ℝ) < d := by exact_mod_cast d0
      unfold Rounding.ofReal Rounding.make
      rw [if_neg d0'.ne', decide_eq_false (not_lt.mpr d0'.le), abs_of_pos d0', Real.toNNReal_coe, hr, if_neg ENNReal.coe_ne_top]
      simp
    rw [z, e] at l
    have h' : ((d : ℝ) : EReal) ≤ ((m : ℝ) : EReal) := l.2
    rw [EReal.coe_le_coe_iff] at h'
    exact lt_of_lt_of_le d0 (by exact_mod_cast h')
  exact ⟨key a ha, key b hb, le_add ha.plus.n hd.plus.n hb.plus.n hd.plus.n h (Le.refl _)⟩

theorem between_kWh2MJ : Pos (kWh2MJ : Mach M) := by
  show Pos ((15099494.0 : Mach M) / 4194304.0)
  rw [lit_nat (M := M) (m := 150994940) 15099494 (by norm_num) (by norm_num), lit_nat (M := M) (m := 41943040) 4194304 (by norm_num) (by norm_num)]
  show Pos (M := M) (M.toRounding.div (Fl.num false _) (Fl.num false _))
  simp only [Rounding.div]
  rw [if_neg (by norm_num)]
  refine (make_between (l := 3) (h := 4) ?_ ?_ (by norm_num)).pos (by norm_num)
  · rw [le_div_iff₀ (by norm_num)]; norm_num
  · rw [div_le_iff₀ (by norm_num)]; norm_num

/-- the figures of the end uses other than heating and cooling are the same -/
structure SameOthers (f' f : Figures (Mach M)) (m : Fin 12) : Prop where
  lights : f'.v_Q_illum_tot m = f.v_Q_illum_tot m
  exterior : f'.v_Q_illum_ext_tot m = f.v_Q_illum_ext_tot m
  fan : f'.v_Qfan_tot m = f.v_Qfan_tot m
  pump : f'.v_Q_pump_tot m = f.v_Q_pump_tot m
  waterElec : f'.v_Q_dhw_elec m = f.v_Q_dhw_elec m
  coolGas : f'.v_Qcl_gas_tot m = f.v_Qcl_gas_tot m
  waterGas : f'.v_Q_dhw_gas m = f.v_Q_dhw_gas m
  frac : f'.frac_hrs_wk_day = f.frac_hrs_wk_day

theorem cons_rel {β : Type} {R : β → β → Prop} {n : ℕ} {a b : β} {u v : Fin n → β} (h : R a b) (t : ∀ k, R (u k) (v k)) :
    ∀ k, R (Matrix.vecCons a u k) (Matrix.vecCons b v k) := Fin.cases h t

theorem cons_eq {β : Type} {n : ℕ} {p : Fin (n + 1) → Prop} {a b : β} {u v : Fin n → β} (h : p 0 → a = b) (t : ∀ k, p k.succ → u k = v k) :
    ∀ k, p k → Matrix.vecCons a u k = Matrix.vecCons b v k := Fin.cases h t

theorem vec13 {a0 a1 a9 b0 b1 b9 c2 c3 c4 c5 c6 c7 c8 c10 c11 c12 : Mach M} (h0 : NoFarther a0 b0) (h1 : NoFarther a1 b1)
    (h9 : NoFarther a9 b9) : ∀ k : Fin 13,
    NoFarther (![a0, a1, c2, c3, c4, c5, c6, c7, c8, a9, c10, c11, c12] k) (![b0, b1, c2, c3, c4, c5, c6, c7, c8, b9, c10, c11, c12] k) ∧
    (k ≠ 0 → k ≠ 1 → k ≠ 9 →
      ![a0, a1, c2, c3, c4, c5, c6, c7, c8, a9, c10, c11, c12] k = ![b0, b1, c2, c3, c4, c5, c6, c7, c8, b9, c10, c11, c12] k) := by
  have r : ∀ c : Mach M, NoFarther c c := fun c => near_noFarther (Near.refl c)
  have e : ∀ k, (k ≠ 0 ∧ k ≠ 1 ∧ k ≠ 9) →
      ![a0, a1, c2, c3, c4, c5, c6, c7, c8, a9, c10, c11, c12] k = ![b0, b1, c2, c3, c4, c5, c6, c7, c8, b9, c10, c11, c12] k :=
    cons_eq (fun h => absurd rfl h.1) <| cons_eq (fun h => absurd rfl h.2.1) <| cons_eq (fun _ => rfl) <| cons_eq (fun _ => rfl) <|
    cons_eq (fun _ => rfl) <| cons_eq (fun _ => rfl) <| cons_eq (fun _ => rfl) <| cons_eq (fun _ => rfl) <| cons_eq (fun _ => rfl) <|
    cons_eq (fun h => absurd rfl h.2.2) <| cons_eq (fun _ => rfl) <| cons_eq (fun _ => rfl) <| cons_eq (fun _ => rfl) <| fun k => k.elim0
  have f : ∀ k, NoFarther (![a0, a1, c2, c3, c4, c5, c6, c7, c8, a9, c10, c11, c12] k) (![b0, b1, c2, c3, c4, c5, c6, c7, c8, b9, c10, c11, c12] k) :=
    cons_rel h0 <| cons_rel h1 <| cons_rel (r _) <| cons_rel (r _) <| cons_rel (r _) <| cons_rel (r _) <| cons_rel (r _) <| cons_rel (r _) <|
    cons_rel (r _) <| cons_rel h9 <| cons_rel (r _) <| cons_rel (r _) <| cons_rel (r _) <| fun k => k.elim0
  exact fun k => ⟨f k, fun g0 g1 g9 => e k ⟨g0, g1, g9⟩⟩

theorem endUses_near {y' y : Sim (Mach M)} (fl : Pos y.bldg.floorArea) (h1 : y'.bldg = y.bldg) (h2 : y'.building = y.building)
    {f' f : Figures (Mach M)} {m : Fin 12} (h : SameOthers f' f m) (ht : Near (f'.v_Qelec_ht m) (f.v_Qelec_ht m))
    (cl : Near (f'.v_Qcl_elec_tot m) (f.v_Qcl_elec_tot m)) (gs : Near (f'.v_Qgas_ht m) (f.v_Qgas_ht m)) (k : Fin 13) :
    NoFarther (monthEndUses y' f' m k) (monthEndUses y f m k) ∧ (k ≠ 0 → k ≠ 1 → k ≠ 9 → monthEndUses y' f' m k = monthEndUses y f m k) := by
  have per : ∀ {a' a : Mach M}, Near a' a → Near (vdiv (vdiv a' y.bldg.floorArea) kWh2MJ) (vdiv (vdiv a y.bldg.floorArea) kWh2MJ) :=
    fun h => near_vdiv' (near_vdiv' h fl) between_kWh2MJ
  have n0 := near_noFarther (per ht)
  have n1 := near_noFarther (per cl)
  have n9 := near_noFarther (per gs)
  unfold monthEndUses
  rw [h1, h2, h.lights, h.exterior, h.fan, h.pump, h.waterElec, h.coolGas, h.waterGas, h.frac]
  exact vec13 n0 n1 n9 k

/-- C65, monthly model: on every machine, for every building and weather, replacing the efficiencies of heating and cooling by ones that are no
lower gives results again; every number is on the same side of zero as before and no farther from it, and those of the other end uses are the same.
(The need itself can be below zero by rounding, `C63_negative`.) -/
theorem C65_monthly (x : Sim (Mach M)) {e e' c c' : Mach M} (he : Efficiency e) (he' : Efficiency e') (hc : Efficiency c) (hc' : Efficiency c')
    (h1 : AtMost e e') (h2 : AtMost c c') (hp : PlainNumber x.cooling.partialLoadValue) (hp' : AtMost x.cooling.partialLoadValue (1000000.0 : Mach M))
    (hd : ceq (x.heating.eta_DH_sys * x.heating.eta_DH_network) 0.0 = false)
    (hd' : ceq (x.cooling.eta_DC_COP * x.cooling.eta_DC_network) 0.0 = false)
    (ha : PlainNumber x.bldg.floorArea) (ha' : clt 0.0 x.bldg.floorArea = true) {out : List (Hourly.EndUses (Mach M))}
    (h : Monthly.simulate (withEfficiency x e c) = some out) :
    ∃ out', Monthly.simulate (withEfficiency x e' c') = some out' ∧ out'.length = out.length ∧
      ∀ i (hi' : i < out'.length) (hi : i < out.length) k, NoFarther (out'[i] k) (out[i] k) ∧
        (k ≠ 0 → k ≠ 1 → k ≠ 9 → out'[i] k = out[i] k) := by
  have mil : (1000000.0 : Mach M) = Fl.num false ((1000000 : ℕ) : ℝ≥0) := lit_nat 1000000 (by norm_num) (by norm_num)
  have bt : ∀ {a : Mach M}, PlainNumber a → AtMost a 1000000.0 → Between a 0 1000000 := fun h h' => between_of h 1000000 mil h'
  have fl : Pos x.bldg.floorArea := pos_of ha ha'
  have mulb : ∀ {a b : Mach M}, Between a 0 1000000 → Between b 0 1000000 → Between (a * b) 0 1000000000000 := by
    rintro a b ⟨m, rfl, -, m2⟩ ⟨n, rfl, -, n2⟩
    refine make_between (by simp) (le_trans (mul_le_mul' m2 n2) ?_) (by norm_num)
    norm_num
  have d1 := plus_dblMin (bt he.plain he.size) (bt he'.plain he'.size) (by norm_num) (le_of_atMost he.plain he'.plain h1)
  have d2 := plus_dblMin (mulb (bt hc.plain hc.size) (bt hp hp')) (mulb (bt hc'.plain hc'.size) (bt hp hp')) (by norm_num)
    (le_mul_plain hc.plain hp hc'.plain hp h2 (by
      obtain ⟨n, hn⟩ := hp
      rw [hn]
      show Fl.lt _ _ = false
      simp [Fl.lt]))
  unfold Monthly.simulate at h ⊢
  have hst : stages (withEfficiency x e' c') = stages (withEfficiency x e c) := rfl
  rw [hst]
  generalize hs : stages (withEfficiency x e c) = st at h
  cases st with
  | none => cases h
  | some s =>
  have eo := Option.some.inj h
  refine ⟨_, rfl, by rw [← eo]; simp [outputGeneration], ?_⟩
  intro i hi' hi k
  have g : ∀ (y : Sim (Mach M)) (f : Figures (Mach M)) (hi : i < (outputGeneration y f).length),
      (outputGeneration y f)[i] = monthEndUses y f ⟨i, by simpa [outputGeneration] using hi⟩ := by
    intro y f hi
    simp [outputGeneration]
  have e1 : out[i] = monthEndUses (withEfficiency x e c) (figures (withEfficiency x e c) s) ⟨i, by rw [← eo] at hi; simpa [outputGeneration] using hi⟩ := by
    have hi2 := hi
    rw [← eo] at hi2
    rw [← g _ _ hi2]
    simp only [← eo]
  rw [e1, g]
  generalize (⟨i, by simpa [outputGeneration] using hi'⟩ : Fin 12) = m
  have split_ht : ∀ need loss : Mach M,
      Near (heatingSplit (withEfficiency x e' c').heating need loss).1 (heatingSplit (withEfficiency x e c).heating need loss).1 ∧
      (heatingSplit (withEfficiency x e' c').heating need loss).2 = (heatingSplit (withEfficiency x e c).heating need loss).2 ∧
      ((heatingSplit (withEfficiency x e c).heating need loss).2 = 0.0 ∨
        (heatingSplit (withEfficiency x e' c').heating need loss).1 = (heatingSplit (withEfficiency x e c).heating need loss).1) := by
    intro need loss
    unfold heatingSplit
    rw [show (withEfficiency x e' c').heating.DH_YesNo = (withEfficiency x e c).heating.DH_YesNo from rfl]
    generalize ceq (withEfficiency x e c).heating.DH_YesNo 1.0 = b
    cases b
    · exact ⟨near_vdiv (Near.refl _) d1.2.1 d1.1 d1.2.2, rfl, .inl rfl⟩
    · exact ⟨Near.refl _, rfl, .inr rfl⟩
  have split_cl : ∀ need loss : Mach M,
      Near (coolingSplit (withEfficiency x e' c').cooling need loss).1 (coolingSplit (withEfficiency x e c).cooling need loss).1 ∧
      (coolingSplit (withEfficiency x e' c').cooling need loss).2 = (coolingSplit (withEfficiency x e c).cooling need loss).2 ∧
      ((coolingSplit (withEfficiency x e c).cooling need loss).2 = 0.0 ∨
        (coolingSplit (withEfficiency x e' c').cooling need loss).1 = (coolingSplit (withEfficiency x e c).cooling need loss).1) := by
    intro need loss
    unfold coolingSplit
    rw [show (withEfficiency x e' c').cooling.DC_YesNo = (withEfficiency x e c).cooling.DC_YesNo from rfl]
    generalize ceq (withEfficiency x e c).cooling.DC_YesNo 1.0 = b
    cases b
    · exact ⟨near_vdiv (Near.refl _) d2.2.1 d2.1 d2.2.2, rfl, .inl rfl⟩
    · exact ⟨Near.refl _, rfl, .inr rfl⟩
  have join : ∀ {u' u z y b : Mach M}, Near u' u → (z = 0.0 ∨ u' = u) → ceq b 0.0 = false → Near (u' + vdiv (z * y) b) (u + vdiv (z * y) b) := by
    rintro u' u z y b hn (rfl | rfl) hb
    · exact M.toRounding.near_add_zero hn (nothing_vdiv hb)
    · exact Near.refl _
  have ht : Near ((hvac (withEfficiency x e' c') s.needs).v_Qelec_ht m) ((hvac (withEfficiency x e c) s.needs).v_Qelec_ht m) ∧
      Near ((hvac (withEfficiency x e' c') s.needs).v_Qgas_ht m) ((hvac (withEfficiency x e c) s.needs).v_Qgas_ht m) := by
    have sp := split_ht (s.needs.v_Qneed_ht m)
      (distributionLoss (s.needs.v_Qneed_ht m) (distribution (withEfficiency x e c) s.needs.Qneed_ht_yr s.needs.Qneed_cl_yr).1)
    unfold hvac
    dsimp only
    rw [show (withEfficiency x e' c').heating.energyType = (withEfficiency x e c).heating.energyType from rfl,
      show distribution (withEfficiency x e' c') s.needs.Qneed_ht_yr s.needs.Qneed_cl_yr
        = distribution (withEfficiency x e c) s.needs.Qneed_ht_yr s.needs.Qneed_cl_yr from rfl, sp.2.1]
    generalize ceq (withEfficiency x e c).heating.energyType 1.0 = b
    cases b
    · exact ⟨Near.refl _, join sp.1 sp.2.2 hd⟩
    · exact ⟨sp.1, Near.refl _⟩
  have cl : Near ((hvac (withEfficiency x e' c') s.needs).v_Qcl_elec_tot m) ((hvac (withEfficiency x e c) s.needs).v_Qcl_elec_tot m) ∧
      (hvac (withEfficiency x e' c') s.needs).v_Qcl_gas_tot m = (hvac (withEfficiency x e c) s.needs).v_Qcl_gas_tot m := by
    have sp := split_cl (s.needs.v_Qneed_cl m)
      (distributionLoss (s.needs.v_Qneed_cl m) (distribution (withEfficiency x e c) s.needs.Qneed_ht_yr s.needs.Qneed_cl_yr).2)
    unfold hvac
    dsimp only
    rw [show distribution (withEfficiency x e' c') s.needs.Qneed_ht_yr s.needs.Qneed_cl_yr
        = distribution (withEfficiency x e c) s.needs.Qneed_ht_yr s.needs.Qneed_cl_yr from rfl, sp.2.1]
    exact ⟨join sp.1 sp.2.2 hd', rfl⟩
  refine endUses_near (y' := withEfficiency x e' c') (y := withEfficiency x e c) fl rfl rfl ?_ ht.1 cl.1 ht.2 k
  have := cl.2
  exact ⟨rfl, rfl, rfl, rfl, rfl, this, rfl, rfl⟩

end Props
end ISO
