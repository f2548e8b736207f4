import Verif.Props.MonthlyRetrofit

/-!
# C34: set-back control in buildings that are occupied every day, or on one day

The program divides by the length of the weekend days (none if the building is occupied every day) and by the length of the nights
between occupied days (none if it is occupied on one day only).  Its division by zero gives the largest double.
-/

namespace ISO.Props
open ISO ISO.Monthly ISO.Spec Dbl CNum

theorem dblMax_large : (10 ^ 100 : ℝ) ≤ dblMax := by
  have e : (dblMax : ℝ) = 17976931348623157 * 10 ^ 292 := by
    show (OfScientific.ofScientific 17976931348623157 false 292 : ℝ) = _
    rw [NNRatCast.ofScientific_eq_ite, if_neg (by decide)]
    push_cast; rfl
  have h1 : (10 ^ 100 : ℝ) ≤ 10 ^ 292 := pow_le_pow_right₀ (by norm_num) (by norm_num)
  rw [e]
  exact h1.trans (le_mul_of_one_le_left (by positivity) (by norm_num))

/-- a building on its way to an enormous temperature is hot on the mean -/
theorem hot_mean {tau B start T : ℝ} (ht : 0 < tau) (ht' : tau ≤ 10 ^ 12) (hT : 1 ≤ T) (hs : -1000 ≤ start) (hB : 10 ^ 80 ≤ B) :
    10 ^ 60 ≤ timeMean (relax tau B start) T := by
  have hT0 : 0 < T := by linarith
  rw [timeMean_relax _ _ ht.ne' hT0.ne']
  set y := T / tau with hy
  have hy0 : 0 < y := div_pos hT0 ht
  have e1 : tau / T = 1 / y := by rw [hy, one_div_div]
  have e2 : -T / tau = -y := by rw [hy, neg_div]
  rw [e1, e2]
  set f := 1 / y * (1 - Real.exp (-y)) with hf
  have hf0 : 0 ≤ f := mul_nonneg (by positivity) (by linarith [Real.exp_le_one_iff.mpr (by linarith : -y ≤ 0)])
  have hf1 : 1 / (4 * 10 ^ 12) ≤ 1 - f := by
    have hyl : 1 / 10 ^ 12 ≤ y := by
      rw [hy]
      exact div_le_div₀ hT0.le hT ht ht'
    rcases le_total y 2 with h2 | h2
    · have k1 : 1 - y / 2 ≤ Real.exp (-(y / 2)) := by linarith [Real.add_one_le_exp (-(y / 2))]
      have k2 : (1 - y / 2) ^ 2 ≤ Real.exp (-y) := by
        have : Real.exp (-y) = Real.exp (-(y / 2)) ^ 2 := by rw [← Real.exp_nat_mul]; congr 1; push_cast; ring
        rw [this]
        exact pow_le_pow_left₀ (by linarith) k1 2
      have k3 : f ≤ 1 - y / 4 := by
        rw [hf, one_div, inv_mul_le_iff₀ hy0]
        nlinarith
      have : 1 / (4 * 10 ^ 12) ≤ y / 4 := by
        have e : (1:ℝ) / (4 * 10 ^ 12) = 1 / 10 ^ 12 / 4 := by norm_num
        rw [e]; linarith
      linarith
    · have k3 : f ≤ 1 / 2 := by
        rw [hf, one_div, inv_mul_le_iff₀ hy0]
        have := Real.exp_pos (-y)
        linarith
      norm_num
      linarith
  have key : 1 / y * (start - B) * (1 - Real.exp (-y)) + B = B * (1 - f) + start * f := by rw [hf]; ring
  rw [key]
  have hf2 : f ≤ 1 := by have : (0:ℝ) < 1 / (4 * 10 ^ 12) := by positivity
                         linarith
  have a1 : 10 ^ 80 * (1 / (4 * 10 ^ 12)) ≤ B * (1 - f) := mul_le_mul hB hf1 (by positivity) (by linarith [show (0:ℝ) < 10 ^ 80 by positivity])
  have a2 : -1000 ≤ start * f := by
    rcases le_total 0 start with h | h
    · have := mul_nonneg h hf0; linarith
    · nlinarith
  have a3 : (10:ℝ) ^ 60 ≤ 10 ^ 80 * (1 / (4 * 10 ^ 12)) + -1000 := by norm_num
  linarith

/-- one hot stretch makes a hot week -/
theorem hot_week {set d n e : ℝ} {mean : ℕ → ℝ} (hp : 0 ≤ d ∧ 0 ≤ n ∧ 0 ≤ e ∧ d + n + e = 1) (hset : -1000 ≤ set)
    (hm : ∀ k, -1000 ≤ mean k) (h : (10 ^ 60 ≤ mean 1 ∧ 1 / 168 ≤ n) ∨ (10 ^ 60 ≤ mean 0 ∧ 1 / 168 ≤ e)) : 1000 ≤ weekMean set d n e mean := by
  obtain ⟨h1, h2, h3, h4⟩ := hp
  unfold weekMean
  have a1 : -1000 * d ≤ set * d := mul_le_mul_of_nonneg_right hset h1
  have big : (10 ^ 6 : ℝ) ≤ 10 ^ 60 * (1 / 168) / 5 := by norm_num
  have := hm 0; have := hm 1; have := hm 2; have := hm 3; have := hm 4
  rcases h with ⟨hh, hn⟩ | ⟨hh, hn⟩
  · have a2 : 10 ^ 60 * (1 / 168) ≤ mean 1 * n := mul_le_mul hh hn (by norm_num) (by linarith [show (0:ℝ) < 10 ^ 60 by positivity])
    have a3 : -1000 * e ≤ (mean 0 + mean 1 + mean 2 + mean 3 + mean 4) / 5 * e := mul_le_mul_of_nonneg_right (by linarith) h3
    nlinarith
  · have a2 : -1000 * n ≤ mean 1 * n := mul_le_mul_of_nonneg_right (by linarith) h2
    have a3 : (10 ^ 60 - 4000) / 5 * (1 / 168) ≤ (mean 0 + mean 1 + mean 2 + mean 3 + mean 4) / 5 * e :=
      mul_le_mul (by linarith) hn (by norm_num) (by linarith [show (4000:ℝ) < 10 ^ 60 by norm_num])
    nlinarith

theorem mean_above {s : Finset (Fin 24)} {row : Fin 24 → ℝ} (h : ∀ j, -1000 ≤ row j) : -1000 ≤ mean s row := by
  unfold mean
  rcases Finset.eq_empty_or_nonempty s with rfl | hs
  · norm_num
  · have hc : (0:ℝ) < s.card := by exact_mod_cast hs.card_pos
    rw [le_div_iff₀ hc]
    have := Finset.card_nsmul_le_sum s row (-1000) fun j _ => h j
    rw [nsmul_eq_mul] at this
    linarith

theorem hot_balance {x : Sim ℝ} (hm : Moderate x) {m : Fin 12} {hours : Finset (Fin 24)} {length share : ℝ} (h0 : share = 0) :
    10 ^ 80 ≤ (unoccupiedStretch x m hours length share).balance := by
  unfold unoccupiedStretch unoccupiedGain
  rw [if_pos h0]
  show 10 ^ 80 ≤ mean hours (x.weather.mhdbt m) + dblMax / buildingLoss x
  have h1 := mean_above (s := hours) (hm.outside m)
  have h2 : (10:ℝ) ^ 100 / 10 ^ 12 ≤ dblMax / buildingLoss x :=
    div_le_div₀ (le_trans (by positivity) dblMax_large) dblMax_large hm.loss.1 hm.loss.2
  have h3 : (10:ℝ) ^ 80 ≤ 10 ^ 100 / 10 ^ 12 - 1000 := by norm_num
  linarith

/-- the mean of a week that begins with `set` is not below `set`, if the building is occupied every day or on one day -/
theorem hot_mean_of_week {x : Sim ℝ} (h : TempData x) (hm : Moderate x) (hd : windowDays x.pop = 7 ∨ windowDays x.pop = 1) (m : Fin 12)
    {set first start floor : ℝ} (h1 : -1000 ≤ set) (h2 : -1000 ≤ first) (h3 : -1000 ≤ floor) :
    1000 ≤ weekMean set (occupiedShare x) (nightShare x) (1 - occupiedShare x - nightShare x)
      (stretchMean (buildingTau x) (weekend x m) first start floor) := by
  obtain ⟨d, n, e, -, -, -, q1, q2, p1, -, p2, -, p3, -, p4⟩ := C29_fractions x.pop h.week
  have hdd : occupiedShare x = d := by unfold occupiedShare; linarith
  have hn : nightShare x = n := by unfold nightShare; linarith
  have he : 1 - occupiedShare x - nightShare x = e := by rw [hdd, hn]; linarith
  obtain ⟨t1, t2⟩ := hm.tau
  obtain ⟨w1, w2⟩ := hm.hours
  rw [he, hdd, hn]
  refine hot_week ⟨p1, p2, p3, p4⟩ h1 (fun k => h3.trans (le_max_left _ _)) ?_
  rcases hd with hd | hd
  · left
    refine ⟨?_, ?_⟩
    · refine le_trans ?_ (le_max_right _ _)
      refine hot_mean t1 t2 w1 ?_ (hot_balance hm (by rw [hd]; norm_num))
      rw [if_neg (by norm_num)]
      exact h3.trans (le_max_left _ _)
    · rw [hd] at q2; linarith
  · right
    refine ⟨?_, ?_⟩
    · refine le_trans ?_ (le_max_right _ _)
      rw [if_pos rfl]
      exact hot_mean t1 t2 (by show 1 ≤ 24 - windowHours x.pop; linarith) h2 (hot_balance hm (by rw [hd]; norm_num))
    · rw [hd] at q1 q2; linarith

theorem unset_back {x : Sim ℝ} (h : TempData x) (hm : Moderate x) (hd : windowDays x.pop = 7 ∨ windowDays x.pop = 1) (m : Fin 12) :
    heatedTo x m = heatTo x ∧ cooledTo x m = coolTo x := by
  constructor
  · unfold heatedTo
    split_ifs
    · exact min_eq_right (hm.heatOccupied.2.trans (hot_mean_of_week h hm hd m hm.heatOccupied.1 hm.heatOccupied.1 hm.heatUnoccupied))
    · rfl
  · unfold cooledTo
    split_ifs
    · exact min_eq_right (hm.coolOccupied.2.trans (hot_mean_of_week h hm hd m hm.coolOccupied.1
        (le_min hm.heatOccupied.1 hm.coolUnoccupied) hm.coolUnoccupied))
    · rfl

/-- C34, the disagreement: in a building that is occupied on all seven days of the week, or on one day only, set-back has no effect.
Whatever the set-points for unoccupied hours and the control, the temperatures the simulation reckons with are the set-points of
occupied hours. -/
theorem C34_everyDay (x : Sim ℝ) (h : TempData x) (hl : LightingData x) (hsun : ∀ m j, 0 ≤ x.weather.mhEgh m j) (hm : Moderate x)
    (hd : windowDays x.pop = 7 ∨ windowDays x.pop = 1) (s : Stages Dbl) (hs : stages (x.map fin) = some s) (m : Fin 12) :
    s.v_Th_avg m = fin (heatTo x) ∧ s.v_Tc_avg m = fin (coolTo x) := by
  obtain ⟨e1, e2⟩ := indoor_temperatures h hl hsun hs m
  obtain ⟨f1, f2⟩ := unset_back h hm hd m
  rw [← f1, ← f2]
  exact ⟨e1, e2⟩

/-- C34: so the energy for heating and cooling of such a building does not depend on the set-points for unoccupied hours. -/
theorem C34_noEffect (x : Sim ℝ) (hx : Ordinary x) (hm : Moderate x) (hd : windowDays x.pop = 7 ∨ windowDays x.pop = 1)
    (heat cold : ℝ) (hh : -1000 ≤ heat) (hc : -1000 ≤ cold) (r r' : List (Hourly.EndUses Dbl)) (hr : simulate (x.map fin) = some r)
    (hr' : simulate ((setBack x heat cold).map fin) = some r') (m : Fin 12) :
    ∃ (_ : m.val < r.length) (_ : m.val < r'.length), r'[m.val] 0 = r[m.val] 0 ∧ r'[m.val] 1 = r[m.val] 1 ∧
      r'[m.val] 9 = r[m.val] 9 ∧ r'[m.val] 10 = r[m.val] 10 := by
  have ht : TempData (setBack x heat cold) := by
    obtain ⟨a, b, c, d, e, f, g, k⟩ := hx.temperatures
    exact ⟨a, b, c, d, e, f, g, k⟩
  have hv : VentilationData (setBack x heat cold) := by
    obtain ⟨_, _, _, _, _, _, _, _, _, _, _, _⟩ := hx.flows
    constructor <;> assumption
  have hl : LightingData (setBack x heat cold) := by
    obtain ⟨_, _, _, _, _, _⟩ := hx.lights
    constructor <;> assumption
  have hsys : SystemData (setBack x heat cold) := by
    obtain ⟨_, _, _, _, _⟩ := hx.systems
    constructor <;> assumption
  have hm' : Moderate (setBack x heat cold) := by
    obtain ⟨a, b, c, d, e, f, g, k⟩ := hm
    exact ⟨a, b, c, d, e, hh, g, hc⟩
  have t1 := unset_back hx.temperatures hm hd
  have t2 := unset_back ht hm' hd
  have t3 : ∀ m, heatedTo (setBack x heat cold) m = heatedTo x m := fun m => by rw [(t1 m).1, (t2 m).1]; rfl
  have t4 : ∀ m, cooledTo (setBack x heat cold) m = cooledTo x m := fun m => by rw [(t1 m).2, (t2 m).2]; rfl
  have hH : monthHeat (setBack x heat cold) = monthHeat x := funext fun m => by unfold monthHeat; rw [t3]; rfl
  have hC : monthCold (setBack x heat cold) = monthCold x := funext fun m => by unfold monthCold; rw [t4]; rfl
  have hy : Ordinary (setBack x heat cold) := by
    obtain ⟨-, -, -, -, e, f, g, ⟨u1, u2, u3, u4, u5, u6⟩⟩ := hx
    refine ⟨ht, hv, hl, hsys, e, f, g, ⟨u1, fun m => ?_, fun m => ?_, fun m => ?_, fun m => ?_, ?_⟩⟩
    · rw [t3]; exact u2 m
    · rw [t3]; exact u3 m
    · rw [t3]; exact u4 m
    · rw [t4]; exact u5 m
    · rw [hH, hC]; exact u6
  obtain ⟨l, hL⟩ := C68_energy x hx r hr
  obtain ⟨l', hL'⟩ := C68_energy _ hy r' hr'
  obtain ⟨a0, a9, a1, a10⟩ := hL m
  obtain ⟨b0, b9, b1, b10⟩ := hL' m
  refine ⟨by omega, by omega, ?_, ?_, ?_, ?_⟩
  · rw [a0, b0]; unfold heatElectricity heatDelivered; rw [hH, hC]; rfl
  · rw [a1, b1]; unfold coldElectricity coldDelivered; rw [hH, hC]; rfl
  · rw [a9, b9]; unfold heatGas heatDelivered; rw [hH, hC]; rfl
  · rw [a10, b10]; unfold coldGas coldDelivered; rw [hH, hC]; rfl

/-- `C34_everyDay`, `C34_noEffect`: the office of C68, heated to 24 degrees in occupied and to 22 in unoccupied hours, with all seven
days occupied -/
example : Ordinary (weekOffice 4.831 0.426 2.653 2 7 0 22 7) ∧ Moderate (weekOffice 4.831 0.426 2.653 2 7 0 22 7) ∧
    windowDays (weekOffice 4.831 0.426 2.653 2 7 0 22 7).pop = 7 ∧
    (weekOffice 4.831 0.426 2.653 2 7 0 22 7).heating.T_ht_ctrl_flag = 1 := by
  obtain ⟨s1, s2⟩ := cold_sums 4.831 0.426 2.653 2 7 0 22 7 28
  obtain ⟨l1, l2⟩ := night_levels 4.831 0.426 2.653 2 7 0 22 7 28
  refine ⟨by apply night_ordinary <;> norm_num, ?_, ?_, rfl⟩
  · constructor
    case loss =>
      unfold buildingLoss; rw [s1]
      norm_num [anyOffice, sunnyOffice, monthlyOffice, smallOffice]
    case tau =>
      unfold buildingTau; rw [s1, s2]
      norm_num [anyOffice, sunnyOffice, monthlyOffice, smallOffice]
    case outside =>
      intro m j
      norm_num [anyOffice, sunnyOffice, monthlyOffice, smallOffice]
      have : (0:ℝ) ≤ j.val := Nat.cast_nonneg _
      linarith
    case heatOccupied => rw [l1]; norm_num
    case coolOccupied => rw [l2]; norm_num
    all_goals norm_num [anyOffice, sunnyOffice, monthlyOffice, smallOffice, windowHours]
  · norm_num [windowDays, anyOffice, sunnyOffice, monthlyOffice, smallOffice]

end ISO.Props
