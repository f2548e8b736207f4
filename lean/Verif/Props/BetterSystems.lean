import Verif.Lemmas.MachineOrder
import Verif.Spec.BetterSystems
import Verif.Props.Rounding

/-!
# C65: better systems never take more energy, whatever the rounding
-/

namespace ISO.Props
open ISO ISO.Spec ISO.Hourly ISO.Epw CNum Mach
open scoped NNReal ENNReal

variable {M : Machine}

theorem noMore_iff (a b : Mach M) : NoMore a b ↔ Le a b := by
  have self : ∀ a : Mach M, ceq a a = !Fl.isNan a := by
    intro a
    show Fl.eq a a = _
    simp [Fl.eq]
  unfold NoMore
  rw [self, self]
  constructor
  · rintro ⟨h1, h2⟩
    have h1 : Fl.isNan a = Fl.isNan b := by simpa using h1
    refine ⟨h1, ?_⟩
    cases ha : Fl.isNan a with
    | true =>
      rw [ha] at h1
      rw [Fl.isNan_eq (a := a) ha, Fl.isNan_eq (a := b) h1.symm]
    | false =>
      rw [ha] at h1
      exact Fl.lt_false h2 h1.symm ha
  · rintro ⟨h1, h2⟩
    refine ⟨by rw [h1], ?_⟩
    show Fl.lt b a = false
    unfold Fl.lt
    rw [decide_eq_false (not_lt.mpr h2), Bool.and_false]

/-- the larger of anything and 0.1: NaN, infinity or at least 1/16 -/
theorem cmax_tenth (a : Mach M) : cmax a (0.1 : Mach M) = Fl.nan ∨ cmax a (0.1 : Mach M) = Fl.inf false ∨
    ∃ g : ℝ≥0, 2⁻¹ ^ 4 ≤ g ∧ cmax a (0.1 : Mach M) = Fl.num false g := by
  obtain ⟨t, ht⟩ := lit_plain (M := M) 1 true 1 (by norm_num)
  have t1 : (2⁻¹ ^ 4 : ℝ≥0) ≤ t := by
    have e : M.toRounding.ofReal false (0.1 : ℝ) = Fl.num false t := ht
    unfold Rounding.ofReal at e
    rw [if_neg (by norm_num), decide_eq_false (by norm_num), M.toRounding.make_num false (by
      rw [← NNReal.coe_le_coe, Real.coe_toNNReal _ (abs_nonneg _), abs_of_pos (by norm_num)]; norm_num)] at e
    injection e with _ e
    rw [← e]
    have h2 : (2⁻¹ ^ 4 : ℝ≥0) ≤ Real.toNNReal |(0.1 : ℝ)| := by
      rw [← NNReal.coe_le_coe, Real.coe_toNNReal _ (abs_nonneg _), abs_of_pos (by norm_num)]; push_cast; norm_num
    have := ENNReal.toNNReal_mono (M.toRounding.round_ne_top (m := Real.toNNReal |(0.1 : ℝ)|) (by
      rw [← NNReal.coe_le_coe, Real.coe_toNNReal _ (abs_nonneg _), abs_of_pos (by norm_num)]; norm_num)) ((M.half 4 (by norm_num)) ▸ M.mono h2)
    rwa [ENNReal.toNNReal_coe] at this
  have ht' : (0.1 : Mach M) = Fl.num false t := ht
  rw [ht']
  rcases cmax_cases a (show Mach M from Fl.num false t) with ⟨-, e⟩ | ⟨h, e⟩
  · right; right; exact ⟨t, t1, e⟩
  · have e' : (cmax a (show Mach M from Fl.num false t) : Mach M) = a := e
    rcases a with ⟨s, m⟩ | ⟨s⟩ | _
    · right; right
      have hk := Fl.lt_false h rfl rfl
      have t0 : (0 : ℝ≥0) < t := lt_of_lt_of_le (by positivity) t1
      have hs := Fl.plus_of_key (a := Fl.num s m) (lt_of_lt_of_le (EReal.coe_pos.mpr (NNReal.coe_pos.mpr t0)) hk)
      cases s
      · refine ⟨m, ?_, e'⟩
        have hk' : ((t : ℝ) : EReal) ≤ ((m : ℝ) : EReal) := hk
        rw [EReal.coe_le_coe_iff] at hk'
        exact t1.trans (by exact_mod_cast hk')
      · cases hs
    · right; left
      have hk := Fl.lt_false h rfl rfl
      have t0 : (0 : ℝ≥0) < t := lt_of_lt_of_le (by positivity) t1
      have hs := Fl.plus_of_key (a := Fl.inf s) (lt_of_lt_of_le (EReal.coe_pos.mpr (NNReal.coe_pos.mpr t0)) hk)
      cases s
      · exact e'
      · cases hs
    · left; exact e'

/-- what the waste takes, for two wastes and one share -/
theorem waste_share {w w' f : Mach M} (hw : Between w 0 1000000) (hw' : Between w' 0 1000000) (h : Le w' w)
    (hf : f = Fl.nan ∨ f = Fl.inf false ∨ ∃ g : ℝ≥0, 2⁻¹ ^ 4 ≤ g ∧ f = Fl.num false g) :
    (w' / f = Fl.nan ∧ w / f = Fl.nan) ∨ (Between (w' / f) 0 16000000 ∧ Between (w / f) 0 16000000 ∧ Le (w' / f) (w / f)) := by
  rcases hf with rfl | rfl | ⟨g, hg, rfl⟩
  · left
    obtain ⟨m, rfl, -⟩ := hw
    obtain ⟨m', rfl, -⟩ := hw'
    exact ⟨rfl, rfl⟩
  · right
    obtain ⟨m, rfl, -⟩ := hw
    obtain ⟨m', rfl, -⟩ := hw'
    exact ⟨⟨0, rfl, by simp, by simp⟩, ⟨0, rfl, by simp, by simp⟩, Le.refl _⟩
  · right
    have g0 : (0 : ℝ≥0) < g := lt_of_lt_of_le (by positivity) hg
    have key : ∀ v : Mach M, Between v 0 1000000 → Between (v / (show Mach M from Fl.num false g)) 0 16000000 := by
      rintro v ⟨m, rfl, -, m2⟩
      show Between (M.toRounding.div (.num false m) (.num false g)) _ _
      simp only [Rounding.div]
      rw [if_neg g0.ne']
      refine make_between (by simp) ?_ (by norm_num)
      rw [div_le_iff₀ g0]
      refine m2.trans ?_
      have : ((16000000 : ℕ) : ℝ≥0) * 2⁻¹ ^ 4 ≤ ((16000000 : ℕ) : ℝ≥0) * g := mul_le_mul_right hg _
      refine le_trans (le_of_eq ?_) this
      rw [← NNReal.coe_inj]; push_cast; norm_num
    exact ⟨key w' hw', key w hw, le_div hw'.plus.n hw.plus.n ⟨g, g0, rfl⟩ ⟨g, g0, rfl⟩ h (Le.refl _)⟩

/-- the distribution efficiency for smaller losses is no lower -/
theorem efficiency_le {l l' w w' f : Mach M} (hl : Between l 0 1000000) (hl' : Between l' 0 1000000) (h1 : Le l' l)
    (hw : Between w 0 1000000) (hw' : Between w' 0 1000000) (h2 : Le w' w)
    (hf : f = Fl.nan ∨ f = Fl.inf false ∨ ∃ g : ℝ≥0, 2⁻¹ ^ 4 ≤ g ∧ f = Fl.num false g) :
    (1.0 / (1.0 + l' + w' / f) = Fl.nan ∧ 1.0 / (1.0 + l + w / f) = Fl.nan) ∨
      (Pos (1.0 / (1.0 + l' + w' / f)) ∧ Pos (1.0 / (1.0 + l + w / f)) ∧ Le (1.0 / (1.0 + l + w / f)) (1.0 / (1.0 + l' + w' / f))) := by
  have a := between_one.add hl (by norm_num)
  have a' := between_one.add hl' (by norm_num)
  rcases waste_share hw hw' h2 hf with ⟨e', e⟩ | ⟨b', b, hb⟩
  · left
    rw [e, e']
    obtain ⟨m, hm, -⟩ := a
    obtain ⟨m', hm', -⟩ := a'
    rw [hm, hm', one]
    exact ⟨rfl, rfl⟩
  · right
    have c := a.add b (by norm_num)
    have c' := a'.add b' (by norm_num)
    have hc : Le (1.0 + l' + w' / f) (1.0 + l + w / f) :=
      le_add a'.plus.n b'.plus.n a.plus.n b.plus.n (le_add between_one.plus.n hl'.plus.n between_one.plus.n hl.plus.n (Le.refl _) h1) hb
    have p := c.pos (by norm_num)
    have p' := c'.pos (by norm_num)
    exact ⟨c'.inv 30 (by norm_num) (by norm_num), c.inv 30 (by norm_num) (by norm_num),
      le_div between_one.plus.n between_one.plus.n p p' (Le.refl _) hc⟩

/-- the results of an hour with better systems -/
structure HourLe (q' q : HourResults (Mach M)) : Prop where
  ht : q'.Qneed_ht = q.Qneed_ht
  cl : q'.Qneed_cl = q.Qneed_cl
  illum : q'.Q_illum_tot = q.Q_illum_tot
  illumExt : Le q'.Q_illum_ext_tot q.Q_illum_ext_tot
  fan : Le q'.Qfan_tot q.Qfan_tot
  pump : Le q'.Qpump_tot q.Qpump_tot
  plug : q'.phi_plug = q.phi_plug
  equipment : Le q'.externalEquipmentEnergyWperm2 q.externalEquipmentEnergyWperm2
  dhw : q'.Q_dhw = q.Q_dhw

theorem le_mul_plain {a b c d : Mach M} (ha : PlainNumber a) (hb : PlainNumber b) (hc : PlainNumber c) (hd : PlainNumber d)
    (h1 : AtMost a c) (h2 : AtMost b d) : Le (a * b) (c * d) := by
  have key : ∀ {a c : Mach M}, PlainNumber a → PlainNumber c → AtMost a c → ∃ m n : ℝ≥0, a = Fl.num false m ∧ c = Fl.num false n ∧ m ≤ n := by
    rintro a c ⟨m, rfl⟩ ⟨n, rfl⟩ h
    refine ⟨m, n, rfl, rfl, ?_⟩
    have h' : ((m : ℝ) : EReal) ≤ ((n : ℝ) : EReal) := Fl.lt_false h rfl rfl
    rw [EReal.coe_le_coe_iff] at h'
    exact_mod_cast h'
  obtain ⟨m, n, rfl, rfl, g1⟩ := key ha hc h1
  obtain ⟨m', n', rfl, rfl, g2⟩ := key hb hd h2
  exact M.toRounding.le_mul_num g1 g2

theorem hour_le {x : Sim (Mach M)} {s' s : Equipment (Mach M)} (hx' : SensibleUse (withEquipment x s')) (hx : SensibleUse (withEquipment x s))
    (h : NoWorse s' s) (r : Ratios (Mach M)) (win : Window) (hr d : Int) (w : HourWeather (Mach M)) (st : ThermalState (Mach M)) :
    (calculateHour (withEquipment x s') (initConsts (withEquipment x s')) r (scheduleCell (withEquipment x s') win hr d) w st).1
      = (calculateHour (withEquipment x s) (initConsts (withEquipment x s)) r (scheduleCell (withEquipment x s) win hr d) w st).1 ∧
    HourLe (calculateHour (withEquipment x s') (initConsts (withEquipment x s')) r (scheduleCell (withEquipment x s') win hr d) w st).2
      (calculateHour (withEquipment x s) (initConsts (withEquipment x s)) r (scheduleCell (withEquipment x s) win hr d) w st).2 := by
  refine ⟨rfl, ?_⟩
  have hfl : Pos x.bldg.floorArea := pos_of hx.floorArea hx.floor
  have vent : PlainNumber (scheduleCell x win hr d).ventilation := by
    unfold scheduleCell
    dsimp only
    generalize (decide (win.hourStart ≤ hr) && decide (hr ≤ win.hourEnd)) = b
    cases b
    · exact lit_plain _ _ _ (by norm_num)
    · exact hx.supply
  have v1 : P ((scheduleCell x win hr d).ventilation * 3.6 / x.bldg.floorArea) :=
    plus_div (plus_mul vent.plus (plus_lit _ _ _)) hfl.plus
  have v2 : Fl.isNan ((scheduleCell x win hr d).ventilation * 3.6 / x.bldg.floorArea : Mach M) = false :=
    div_isNan (mul_isNan vent (lit_plain _ _ _ (by norm_num))) hx.floorArea hx.floor
  constructor
  case ht => rfl
  case cl => rfl
  case illum => rfl
  case plug => rfl
  case dhw => rfl
  case illumExt =>
    show Le (bif clt 0.0 (w.solarRadiation 8) then 0.0 else s'.exteriorLights * 1.0 / x.bldg.floorArea)
      (bif clt 0.0 (w.solarRadiation 8) then 0.0 else s.exteriorLights * 1.0 / x.bldg.floorArea)
    generalize clt 0.0 (w.solarRadiation 8) = b
    cases b
    · have p1 : PlainNumber (1.0 : Mach M) := lit_plain _ _ _ (by norm_num)
      exact le_div (plus_mul hx'.lightExterior.plus (plus_lit _ _ _)).n (plus_mul hx.lightExterior.plus (plus_lit _ _ _)).n hfl hfl
        (le_mul_plain hx'.lightExterior p1 hx.lightExterior p1 h.exteriorLights (by
          have e : (1.0 : Mach M) = Fl.num false 1 := one
          show Fl.lt (1.0 : Mach M) (1.0 : Mach M) = false
          rw [e]; simp [Fl.lt])) (Le.refl _)
    · exact Le.refl _
  case fan =>
    have hp : Pos s'.fanPower := pos_of hx'.fanPower h.fanPositive
    have hp0 : Le s'.fanPower s.fanPower := le_of_atMost hx'.fanPower hx.fanPower h.fanPower
    have hp' : Pos s.fanPower := by
      obtain ⟨n, hn⟩ := hx.fanPower
      obtain ⟨m, m0, hm⟩ := hp
      have hn : s.fanPower = Fl.num false n := hn
      rw [hn, hm] at hp0
      refine ⟨n, ?_, hn⟩
      have h' : ((m : ℝ) : EReal) ≤ ((n : ℝ) : EReal) := hp0.2
      rw [EReal.coe_le_coe_iff] at h'
      exact lt_of_lt_of_le m0 (by exact_mod_cast h')
    have k1 : Pos (1000.0 : Mach M) := pos_lit _ _ _ 0 (by norm_num) (by norm_num) (by norm_num)
    have k2 : Pos (3600.0 : Mach M) := pos_lit _ _ _ 0 (by norm_num) (by norm_num) (by norm_num)
    have nv := fun a : Mach M => nn_cmax v1 v2 a
    exact le_div (nn_mul (nn_mul (nv _) hp.plus) k1.plus) (nn_mul (nn_mul (nv _) hp'.plus) k1.plus) k2 k2
      (le_mul (nn_mul (nv _) hp.plus) (nn_mul (nv _) hp'.plus) k1 k1 (le_mul (nv _) (nv _) hp hp' (Le.refl _) hp0) (Le.refl _)) (Le.refl _)
  case pump =>
    have key : ∀ a b : Mach M, Le (pumpEnergy (withEquipment x s') a b) (pumpEnergy (withEquipment x s) a b) := by
      intro a b
      unfold pumpEnergy
      generalize clt 0.0 b = c
      generalize clt 0.0 a = d
      cases c
      · cases d
        · exact Le.refl _
        · exact le_mul_plain hx'.pumpHeating hx'.pumpHeating' hx.pumpHeating hx.pumpHeating' h.heatingPump h.heatingPumpControl
      · exact le_mul_plain hx'.pumpCooling hx'.pumpCooling' hx.pumpCooling hx.pumpCooling' h.coolingPump h.coolingPumpControl
    exact key _ _
  case equipment =>
    exact le_div hx'.equipment.plus.n hx.equipment.plus.n hfl hfl (le_of_atMost hx'.equipment hx.equipment h.exteriorEquipment) (Le.refl _)

theorem forall₂_ofFn_both {β γ : Type} {R : β → γ → Prop} {n : ℕ} (f : Fin n → β) (g : Fin n → γ) (h : ∀ i, R (f i) (g i)) :
    List.Forall₂ R (List.ofFn f) (List.ofFn g) := by
  rw [List.forall₂_iff_get]
  refine ⟨by rw [List.length_ofFn, List.length_ofFn], ?_⟩
  intro i h1 h2
  rw [List.get_ofFn, List.get_ofFn]
  exact h _

/-- two runs whose hours end in the same state and give related results -/
theorem runHours_rel {R : HourResults (Mach M) → HourResults (Mach M) → Prop} {x' x : Sim (Mach M)} {c' c : Consts (Mach M)}
    {r' r : Ratios (Mach M)} : ∀ (l' l : List (Schedule (Mach M) × HourWeather (Mach M))),
    List.Forall₂ (fun a' a => ∀ st, (calculateHour x' c' r' a'.1 a'.2 st).1 = (calculateHour x c r a.1 a.2 st).1 ∧
      R (calculateHour x' c' r' a'.1 a'.2 st).2 (calculateHour x c r a.1 a.2 st).2) l' l → ∀ st,
    List.Forall₂ R (runHours x' c' r' l' st) (runHours x c r l st) := by
  intro l' l h
  induction h with
  | nil => intro st; exact .nil
  | cons h _ ih =>
    intro st
    refine .cons (h st).2 ?_
    rw [(h st).1]
    exact ih _

theorem endUse_le {x : Sim (Mach M)} {s' s : Equipment (Mach M)} (hx' : SensibleUse (withEquipment x s')) (hx : SensibleUse (withEquipment x s))
    (h : NoWorse s' s) {eta' eta : Mach M × Mach M}
    (h1 : (eta'.1 = Fl.nan ∧ eta.1 = Fl.nan) ∨ (Pos eta'.1 ∧ Pos eta.1 ∧ Le eta.1 eta'.1))
    (h2 : (eta'.2 = Fl.nan ∧ eta.2 = Fl.nan) ∨ (Pos eta'.2 ∧ Pos eta.2 ∧ Le eta.2 eta'.2))
    {q' q : HourResults (Mach M)} (g' : HourSigns q') (g : HourSigns q) (hq : HourLe q' q) (k : Fin 13) :
    Le (hourEndUses (withEquipment x s') eta' q' k) (hourEndUses (withEquipment x s) eta q k) := by
  have l : Pos (1000.0 : Mach M) := pos_lit _ _ _ 0 (by norm_num) (by norm_num) (by norm_num)
  have z : P (0.0 : Mach M) := plus_lit _ _ _
  have pos' : ∀ {a b : Mach M}, Pos a → PlainNumber b → AtMost a b → Pos b := by
    rintro a b ⟨m, m0, rfl⟩ ⟨n, rfl⟩ h
    have h' : ((m : ℝ) : EReal) ≤ ((n : ℝ) : EReal) := Fl.lt_false h rfl rfl
    rw [EReal.coe_le_coe_iff] at h'
    exact ⟨n, lt_of_lt_of_le m0 (by exact_mod_cast h'), rfl⟩
  have p1 : Pos s.heatingEfficiency := pos_of hx.efficiency h.heatingPositive
  have p1' : Pos s'.heatingEfficiency := pos' p1 hx'.efficiency h.heatingEfficiency
  have p2 : Pos s.coolingEfficiency := pos_of hx.cop h.coolingPositive
  have p2' : Pos s'.coolingEfficiency := pos' p2 hx'.cop h.coolingEfficiency
  have part : ∀ {a e' e f' f : Mach M}, N a → ((e' = Fl.nan ∧ e = Fl.nan) ∨ (Pos e' ∧ Pos e ∧ Le e e')) → Pos f' → Pos f → Le f f' →
      Le (a / e' / f') (a / e / f) ∧ N (a / e' / f') ∧ N (a / e / f) := by
    rintro a e' e f' f ha (⟨rfl, rfl⟩ | ⟨q1, q2, q3⟩) hf' hf hl
    · obtain ⟨n, -, rfl⟩ := hf
      obtain ⟨n', -, rfl⟩ := hf'
      have : ∀ b : Mach M, ∀ n : ℝ≥0, b / (show Mach M from Fl.nan) / (show Mach M from Fl.num false n) = (show Mach M from Fl.nan) := by
        intro b n
        rcases b with ⟨s, m⟩ | ⟨s⟩ | _ <;> rfl
      rw [this, this]
      exact ⟨Le.refl _, trivial, trivial⟩
    · exact ⟨le_div (nn_div ha q1.plus) (nn_div ha q2.plus) hf' hf (le_div ha ha q1 q2 (Le.refl _) q3) hl,
        nn_div (nn_div ha q1.plus) hf'.plus, nn_div (nn_div ha q2.plus) hf.plus⟩
  have ht := part g.ht.n h1 p1' p1 (le_of_atMost hx.efficiency hx'.efficiency h.heatingEfficiency)
  have cl := part g.cl.n h2 p2' p2 (le_of_atMost hx.cop hx'.cop h.coolingEfficiency)
  have d : ∀ {a' a : Mach M}, N a' → N a → Le a' a → Le (a' / 1000.0) (a / 1000.0) := fun n' n h => le_div n' n l l h (Le.refl _)
  unfold hourEndUses
  rw [show (withEquipment x s').heating.energyType = (withEquipment x s).heating.energyType from rfl]
  generalize ceq (withEquipment x s).heating.energyType 1.0 = b
  rw [hq.ht, hq.cl, hq.illum, hq.plug, hq.dhw]
  fin_cases k
  · cases b
    · exact Le.refl _
    · exact d ht.2.1 ht.2.2 ht.1
  · exact d cl.2.1 cl.2.2 cl.1
  · exact Le.refl _
  · exact d g'.illumExt g.illumExt hq.illumExt
  · exact d g'.fan g.fan hq.fan
  · exact d g'.pump g.pump hq.pump
  · exact Le.refl _
  · exact d g'.equipment g.equipment hq.equipment
  · exact Le.refl _
  · cases b
    · exact d ht.2.1 ht.2.2 ht.1
    · exact Le.refl _
  · exact Le.refl _
  · exact Le.refl _
  · exact Le.refl _

/-- C65, hourly model: on every machine (any monotone rounding, overflow and underflow included, any mathematical library), for every building,
weather and earlier calls, replacing the systems by ones that are no worse gives results again, and no number of any hour, month or end use is
larger than before; a number is NaN after the replacement exactly when it was before. -/
theorem C65_hourly (x : Sim (Mach M)) (w : Weather (Mach M)) (p : Pushed (Mach M)) {s' s : Equipment (Mach M)}
    (hx' : SensibleUse (withEquipment x s')) (hx : SensibleUse (withEquipment x s)) (h : NoWorse s' s) (agg : Bool) {m : Model (Mach M)}
    {out : List (EndUses (Mach M))} (hs : simulate agg ⟨withEquipment x s, w, p⟩ = some (m, out)) :
    ∃ m' out', simulate agg ⟨withEquipment x s', w, p⟩ = some (m', out') ∧ out'.length = out.length ∧
      ∀ i (hi' : i < out'.length) (hi : i < out.length) k, NoMore (out'[i] k) (out[i] k) := by
  rw [simulate_eq, Option.bind_eq_some_iff] at hs
  obtain ⟨win, hwin, hs⟩ := hs
  rw [Option.map_eq_some_iff] at hs
  obtain ⟨o, ho, e⟩ := hs
  obtain rfl : o = out := congrArg Prod.snd e
  have hr : ∀ s : Equipment (Mach M), SensibleUse (withEquipment x s) →
      ∀ q ∈ rawResults (withEquipment x s) (pushAll x.bldg p).ratios win w, HourSigns q := by
    intro s hx
    refine runHours_forall (withEquipment x s) _ _ _ _ fun a ha st => ?_
    rw [List.mem_ofFn] at ha
    obtain ⟨i, rfl⟩ := ha
    exact hourSigns hx _ win _ _ _ st
  have r1 := hr s hx
  have r2 := hr s' hx'
  have l1 := rawResults_length (withEquipment x s) (pushAll x.bldg p).ratios win w
  have l2 := rawResults_length (withEquipment x s') (pushAll x.bldg p).ratios win w
  have rel : List.Forall₂ HourLe (rawResults (withEquipment x s') (pushAll x.bldg p).ratios win w)
      (rawResults (withEquipment x s) (pushAll x.bldg p).ratios win w) := by
    refine runHours_rel _ _ ?_ _
    refine forall₂_ofFn_both _ _ fun i st => ?_
    exact hour_le hx' hx h _ win _ _ _ st
  have hs' : simulate agg ⟨withEquipment x s', w, p⟩
      = (if agg then aggregate (endUses (withEquipment x s') (rawResults (withEquipment x s') (pushAll x.bldg p).ratios win w))
          else some (endUses (withEquipment x s') (rawResults (withEquipment x s') (pushAll x.bldg p).ratios win w))).map
        fun o => (⟨withEquipment x s', w, pushAll x.bldg p⟩, o) := by
    rw [simulate_eq]
    have : window (withEquipment x s').pop = some win := hwin
    rw [this]
    rfl
  rw [hs']
  clear hs' e
  replace ho : (if agg then aggregate (endUses (withEquipment x s) (rawResults (withEquipment x s) (pushAll x.bldg p).ratios win w))
          else some (endUses (withEquipment x s) (rawResults (withEquipment x s) (pushAll x.bldg p).ratios win w))) = some o := ho
  generalize rawResults (withEquipment x s) (pushAll x.bldg p).ratios win w = rs at ho r1 l1 rel
  generalize rawResults (withEquipment x s') (pushAll x.bldg p).ratios win w = rs' at r2 l2 rel ⊢
  have dist : (((yearDistribution (withEquipment x s') rs').1 = Fl.nan ∧ (yearDistribution (withEquipment x s) rs).1 = Fl.nan) ∨
      (Pos (yearDistribution (withEquipment x s') rs').1 ∧ Pos (yearDistribution (withEquipment x s) rs).1 ∧
        Le (yearDistribution (withEquipment x s) rs).1 (yearDistribution (withEquipment x s') rs').1)) ∧
      (((yearDistribution (withEquipment x s') rs').2 = Fl.nan ∧ (yearDistribution (withEquipment x s) rs).2 = Fl.nan) ∨
      (Pos (yearDistribution (withEquipment x s') rs').2 ∧ Pos (yearDistribution (withEquipment x s) rs).2 ∧
        Le (yearDistribution (withEquipment x s) rs).2 (yearDistribution (withEquipment x s') rs').2)) := by
    have e1 : rs'.map (·.Qneed_ht) = rs.map (·.Qneed_ht) := by
      have := List.Forall₂.flip rel
      clear * - rel
      induction rel with
      | nil => rfl
      | cons h _ ih => rw [List.map_cons, List.map_cons, ih, h.ht]
    have e2 : rs'.map (·.Qneed_cl) = rs.map (·.Qneed_cl) := by
      clear * - rel
      induction rel with
      | nil => rfl
      | cons h _ ih => rw [List.map_cons, List.map_cons, ih, h.cl]
    unfold yearDistribution
    rw [e1, e2]
    generalize csum (rs.map (·.Qneed_ht)) = a
    generalize csum (rs.map (·.Qneed_cl)) = b
    have mil : (1000000.0 : Mach M) = Fl.num false ((1000000 : ℕ) : ℝ≥0) := lit_nat 1000000 (by norm_num) (by norm_num)
    have bd : ∀ {u' u : Mach M}, PlainNumber u' → PlainNumber u → AtMost u' u → AtMost u 1000000.0 →
        Between u 0 1000000 ∧ Between u' 0 1000000 ∧ Le u' u := by
      intro u' u hu' hu h1 h2
      have b := between_of hu 1000000 mil h2
      have l := le_of_atMost hu' hu h1
      refine ⟨b, between_of hu' 1000000 mil ?_, l⟩
      have hm : PlainNumber (1000000.0 : Mach M) := ⟨_, mil⟩
      have l2 := le_of_atMost hu hm h2
      show Fl.lt (1000000.0 : Mach M) u' = false
      unfold Fl.lt
      rw [decide_eq_false (not_lt.mpr (l.2.trans l2.2)), Bool.and_false]
    obtain ⟨b1, b1', c1⟩ := bd hx'.lossHeating hx.lossHeating h.heatingLoss h.heatingLossSize
    obtain ⟨b2, b2', c2⟩ := bd hx'.lossCooling hx.lossCooling h.coolingLoss h.coolingLossSize
    obtain ⟨b3, b3', c3⟩ := bd hx'.waste hx.waste h.waste h.wasteSize
    exact ⟨efficiency_le b1 b1' c1 b3 b3' c3 (cmax_tenth _), efficiency_le b2 b2' c2 b3 b3' c3 (cmax_tenth _)⟩
  have he : List.Forall₂ (fun u' u : EndUses (Mach M) => ∀ k, N (u' k) ∧ N (u k) ∧ Le (u' k) (u k))
      (endUses (withEquipment x s') rs') (endUses (withEquipment x s) rs) := by
    unfold endUses
    rw [List.forall₂_map_left_iff, List.forall₂_map_right_iff]
    have d' := plus_distribution hx' rs' r2
    have d := plus_distribution hx rs r1
    generalize yearDistribution (withEquipment x s') rs' = eta' at dist d'
    generalize yearDistribution (withEquipment x s) rs = eta at dist d
    clear ho l1 l2
    induction rel with
    | nil => exact .nil
    | cons hq _ ih =>
      refine .cons (fun k => ⟨endUse_signs hx' d'.1 d'.2 (r2 _ (by simp)) k, endUse_signs hx d.1 d.2 (r1 _ (by simp)) k,
        endUse_le hx' hx h dist.1 dist.2 (r2 _ (by simp)) (r1 _ (by simp)) hq k⟩) (ih ?_ ?_)
      · exact fun q hq => r1 q (List.mem_cons_of_mem _ hq)
      · exact fun q hq => r2 q (List.mem_cons_of_mem _ hq)
  have n1 : (endUses (withEquipment x s) rs).length = 8760 := by rw [endUses_length, l1]
  have n2 : (endUses (withEquipment x s') rs').length = 8760 := by rw [endUses_length, l2]
  generalize endUses (withEquipment x s) rs = us at ho he n1
  generalize endUses (withEquipment x s') rs' = us' at he n2 ⊢
  rw [List.forall₂_iff_get] at he
  cases agg with
  | false =>
    cases ho
    refine ⟨_, us', rfl, he.1, ?_⟩
    intro i hi' hi k
    rw [noMore_iff]
    exact (he.2 i hi' hi k).2.2
  | true =>
    obtain ⟨o', h1, h2, h3⟩ := aggregate_order n1
    obtain ⟨o'', g1, g2, g3⟩ := aggregate_order n2
    rw [if_pos rfl, h1] at ho
    cases ho
    rw [if_pos rfl, g1]
    refine ⟨_, o'', rfl, by rw [g2, h2], ?_⟩
    intro j hj' hj k
    rw [noMore_iff, h3 j hj k, g3 j hj' k]
    refine le_csum _ _ ?_
    rw [List.forall₂_map_left_iff, List.forall₂_map_right_iff, List.forall₂_same]
    intro i _
    rw [List.getD_eq_getElem?_getD, List.getElem?_map, List.getD_eq_getElem?_getD, List.getElem?_map]
    by_cases hi : i < 8760
    · rw [List.getElem?_eq_getElem (by omega), List.getElem?_eq_getElem (by omega)]
      exact he.2 i (by omega) (by omega) k
    · rw [List.getElem?_eq_none (by omega), List.getElem?_eq_none (by omega)]
      exact ⟨(plus_lit _ _ _).n, (plus_lit _ _ _).n, Le.refl _⟩

end ISO.Props
