import Verif.Spec.Site
import Verif.Props.WeatherText
import Verif.Props.Epw

/-! # Lemmas: loading a user model -/

namespace ISO.Props
open ISO ISO.Spec ISO.Epw ISO.WeatherText ISO.User CNum Dbl

/-! ### paths -/

theorem lastSeparator_none {s : Str} (h : '/' ∉ s) (i l : Nat) : lastSeparator s i l = l := by
  induction s generalizing i with
  | nil => rfl
  | cons c t ih =>
    rw [lastSeparator, if_neg (fun e => h (by rw [e]; exact List.mem_cons_self)), ih (fun hm => h (List.mem_cons_of_mem _ hm))]

theorem lastSeparator_some (a : Str) {b : Str} (h : '/' ∉ b) (i l : Nat) : lastSeparator (a ++ '/' :: b) i l = i + a.length := by
  induction a generalizing i l with
  | nil => rw [List.nil_append, lastSeparator, if_pos rfl, lastSeparator_none h]; rfl
  | cons c t ih => rw [List.cons_append, lastSeparator, ih, List.length_cons]; omega

theorem slash_ne {c : Char} (h1 : c ≠ '/') (h2 : c ≠ '\\') : slash c ≠ '/' := by
  rw [slash, if_neg h2]; exact h1

theorem not_mem_slash {s : Str} (h1 : '/' ∉ s) (h2 : '\\' ∉ s) : '/' ∉ s.map slash := by
  intro h
  obtain ⟨c, hc, e⟩ := List.mem_map.mp h
  exact slash_ne (fun e => h1 (e ▸ hc)) (fun e => h2 (e ▸ hc)) e

theorem without_eq (rel : Str) : (if rel.head? = some '/' ∨ rel.head? = some '\\' then rel.tail else rel) = withoutLeading rel := by
  cases rel with
  | nil => rfl
  | cons c t =>
    simp only [List.head?_cons, Option.some.injEq, List.tail_cons, withoutLeading]

/-! ### the order of the cache -/

theorem dlt_irrefl (a : Dbl) : Dbl.lt a a = false := by
  cases a <;> simp [Dbl.lt]

theorem eq_of_not_lt {a b : Dbl} (ha : a ≠ .nan) (hb : b ≠ .nan) (h1 : Dbl.lt a b = false) (h2 : Dbl.lt b a = false) : a = b := by
  cases a <;> cases b <;> simp_all [Dbl.lt]
  exact le_antisymm h2 h1

theorem dlt_asymm {a b : Dbl} (h : Dbl.lt a b = true) : Dbl.lt b a = false := by
  cases a <;> cases b <;> simp_all [Dbl.lt]
  exact h.le

theorem dlt_trans {a b c : Dbl} (h1 : Dbl.lt a b = true) (h2 : Dbl.lt b c = true) : Dbl.lt a c = true := by
  cases a <;> cases b <;> cases c <;> simp_all [Dbl.lt]
  exact h1.trans h2

theorem latLonLess_irrefl (a : Dbl × Dbl) : latLonLess a a = false := by
  show (bif Dbl.lt a.1 a.1 then true else bif Dbl.lt a.1 a.1 then false else Dbl.lt a.2 a.2) = false
  rw [dlt_irrefl, dlt_irrefl]; rfl

theorem latLonLess_iff (a b : Dbl × Dbl) (ha : a.1 ≠ .nan) (hb : b.1 ≠ .nan) :
    latLonLess a b = true ↔ Dbl.lt a.1 b.1 = true ∨ (a.1 = b.1 ∧ Dbl.lt a.2 b.2 = true) := by
  show (bif Dbl.lt a.1 b.1 then true else bif Dbl.lt b.1 a.1 then false else Dbl.lt a.2 b.2) = true ↔ _
  cases h1 : Dbl.lt a.1 b.1
  · cases h2 : Dbl.lt b.1 a.1
    · have := eq_of_not_lt ha hb h1 h2
      simp [this]
    · have : a.1 ≠ b.1 := by intro e; rw [e, dlt_irrefl] at h2; cases h2
      simp [this]
  · simp

theorem comparable_iff (k : Dbl × Dbl) : comparable k = true ↔ k.1 ≠ .nan ∧ k.2 ≠ .nan := by
  have e : ∀ a : Dbl, Dbl.eq a a = true ↔ a ≠ .nan := by intro a; cases a <;> simp [Dbl.eq]
  show (Dbl.eq k.1 k.1 && Dbl.eq k.2 k.2) = true ↔ _
  rw [Bool.and_eq_true, e, e]

theorem same_iff (a b : Dbl × Dbl) (ha : a.1 ≠ .nan ∧ a.2 ≠ .nan) (hb : b.1 ≠ .nan ∧ b.2 ≠ .nan) :
    (!latLonLess a b && !latLonLess b a) = true ↔ a = b := by
  constructor
  · intro h
    simp only [Bool.and_eq_true, Bool.not_eq_true', ← Bool.not_eq_true] at h
    rw [latLonLess_iff a b ha.1 hb.1, latLonLess_iff b a hb.1 ha.1] at h
    simp only [not_or, not_and, Bool.not_eq_true] at h
    have e1 := eq_of_not_lt ha.1 hb.1 h.1.1 h.2.1
    exact Prod.ext e1 (eq_of_not_lt ha.2 hb.2 (h.1.2 e1) (h.2.2 e1.symm))
  · rintro rfl
    rw [latLonLess_irrefl]; rfl

/-! ### weather -/

theorem entries_eq (lib : Library Dbl) (hl : Prints lib) (w : Weather Dbl) : ∃ text, toISOData lib.fmt w = some text ∧ initializeSolar lib.atof text = averages lib w := by
  obtain ⟨text, ht, h⟩ := C18_entries w lib.fmt hl lib.atof
  refine ⟨text, ht, ?_⟩
  generalize initializeSolar lib.atof text = E at h
  obtain ⟨a, b, c, d, e, f⟩ := E
  have e1 : a = (averages lib w).msolar := funext fun m => funext fun k => (h m).2.2.2.2 k
  have e2 : b = (averages lib w).mhdbt := funext fun m => funext fun k => ((h m).2.2.2.1 k).1
  have e3 : c = (averages lib w).mhEgh := funext fun m => funext fun k => ((h m).2.2.2.1 k).2
  have e4 : d = (averages lib w).mEgh := funext fun m => (h m).2.2.1
  have e5 : e = (averages lib w).mdbt := funext fun m => (h m).1
  have e6 : f = (averages lib w).mwind := funext fun m => (h m).2.1
  rw [e1, e2, e3, e4, e5, e6]

/-- storing the averages -/
theorem fill_some (lib : Library Dbl) (hl : Prints lib) (u : UserModel Dbl) (w : Weather Dbl) (hw : toWeather u.edata = some w) :
    fillWeather lib u = some { u with heap := u.heap.set u.weather (averages lib w) } := by
  obtain ⟨text, ht, e⟩ := entries_eq lib hl w
  unfold fillWeather
  rw [hw, Option.bind_eq_bind, Option.bind_some, ht, Option.bind_eq_bind, Option.bind_some, e]

theorem fill_none (lib : Library Dbl) (u : UserModel Dbl) (hw : toWeather u.edata = none) : fillWeather lib u = none := by
  unfold fillWeather
  rw [hw]; rfl

theorem fill_cases (lib : Library Dbl) (hl : Prints lib) (u u' : UserModel Dbl) (h : fillWeather lib u = some u') :
    ∃ w, toWeather u.edata = some w ∧ u' = { u with heap := u.heap.set u.weather (averages lib w) } := by
  cases hw : toWeather u.edata with
  | none => rw [fill_none lib u hw] at h; cases h
  | some w =>
    rw [fill_some lib hl u w hw] at h
    exact ⟨w, rfl, (Option.some.inj h).symm⟩

theorem toWeather_block (b : Block) (loc st : Str) :
    toWeather (α := Dbl) ⟨loc, st, some b.zone, some b.lat, some b.lon, b.cols⟩ = some b.weather := by
  unfold toWeather
  simp only
  rw [dif_pos b.full]
  rfl

theorem block_new (lib : Library Dbl) (hl : Prints lib) (b : Block) (u : UserModel Dbl) (h : cacheFind b.site u.cache = none) :
    loadWeatherBlock lib 8760 b.array u = .ok { u with
      heap := u.heap ++ [averages lib b.weather]
      weather := u.heap.length
      cache := (b.site, u.heap.length) :: u.cache
      edata := ⟨u.edata.location, u.edata.stationid, some b.zone, some b.lat, some b.lon, b.cols⟩
      location := some u.heap.length
      valid := some true } := by
  have h3 := C15_full b.lat b.lon b.tz b.cols b.full [] u.edata
  rw [List.append_nil, b.zone_eq] at h3
  have hc : comparable (b.lat, b.lon) = true := (comparable_iff _).mpr ⟨b.lat_number, b.lon_number⟩
  have ha : b.array = b.lat :: b.lon :: ([b.tz] ++ (List.ofFn b.cols).flatten) := rfl
  change loadBlock 8760 b.array u.edata = _ at h3
  rw [ha] at h3 ⊢
  unfold loadWeatherBlock
  simp only [hc, Bool.not_true, Bool.false_eq_true, if_false]
  change cacheFind (b.lat, b.lon) u.cache = none at h
  simp only [h, h3]
  rw [fill_some lib hl _ b.weather (toWeather_block b _ _)]
  simp only
  rw [List.set_append_right _ _ (Nat.le_refl _), Nat.sub_self]
  rfl

theorem block_old (lib : Library Dbl) (b : Block) (u : UserModel Dbl) (p : Nat) (h : cacheFind b.site u.cache = some p) :
    loadWeatherBlock lib 8760 b.array u = .ok { u with weather := p, location := some p, valid := some true } := by
  have hc : comparable (b.lat, b.lon) = true := (comparable_iff _).mpr ⟨b.lat_number, b.lon_number⟩
  have ha : b.array = b.lat :: b.lon :: ([b.tz] ++ (List.ofFn b.cols).flatten) := rfl
  rw [ha]
  unfold loadWeatherBlock
  simp only [hc, Bool.not_true, Bool.false_eq_true, if_false]
  change cacheFind (b.lat, b.lon) u.cache = some p at h
  simp only [h]

theorem run_append (lib : Library Dbl) (a b : List (FileSystem × Op Dbl)) (u : UserModel Dbl) :
    run lib (a ++ b) u = (run lib a u).bind (run lib b) := by
  induction a generalizing u with
  | nil => rfl
  | cons x a ih =>
    obtain ⟨fs, op⟩ := x
    rw [List.cons_append, run, run]
    cases step lib fs op u with
    | ok u => exact ih u
    | _ => rfl

/-- what holds after a history of block loads -/
structure Holds (lib : Library Dbl) (hist : List Block) (u : UserModel Dbl) : Prop where
  keys : ∀ e ∈ u.cache, e.1.1 ≠ .nan ∧ e.1.2 ≠ .nan
  miss : ∀ k, cacheFind k u.cache = none → k.1 ≠ .nan ∧ k.2 ≠ .nan → ∀ b ∈ hist, b.site ≠ k
  hit : ∀ k p, k.1 ≠ .nan ∧ k.2 ≠ .nan → cacheFind k u.cache = some p →
    ∃ b, FirstOf hist k b ∧ u.heap[p]? = some (averages lib b.weather)
  last : ∀ b, hist.getLast? = some b → u.valid = some true ∧ u.location = cacheFind b.site u.cache ∧ ∃ p, u.location = some p
  hourly : hist ≠ [] → ∃ b, LastNew hist b ∧ toWeather u.edata = some b.weather

theorem firstOf_append {hist : List Block} {k : Dbl × Dbl} {b : Block} (h : FirstOf hist k b) (x : List Block) : FirstOf (hist ++ x) k b := by
  obtain ⟨pre, post, e, h1, h2⟩ := h
  exact ⟨pre, post ++ x, by rw [e, List.append_assoc]; rfl, h1, h2⟩

theorem holds_new (lib : Library Dbl) (junk : Params Dbl) : Holds lib [] (newUserModel junk) where
  keys := by intro e h; cases h
  miss := by intro k _ _ b h; cases h
  hit := by intro k p _ h; cases h
  last := by intro b h; cases h
  hourly := fun h => absurd rfl h

theorem holds_step (lib : Library Dbl) (hl : Prints lib) (hist : List Block) (u : UserModel Dbl) (h : Holds lib hist u) (b : Block) :
    ∃ u', loadWeatherBlock lib 8760 b.array u = .ok u' ∧ Holds lib (hist ++ [b]) u' := by
  have hb : b.site.1 ≠ .nan ∧ b.site.2 ≠ .nan := ⟨b.lat_number, b.lon_number⟩
  cases hf : cacheFind b.site u.cache with
  | some p =>
    refine ⟨_, block_old lib b u p hf, ?_⟩
    have hfirst := h.hit b.site p hb hf
    constructor
    · exact h.keys
    · intro k hk hn c hc
      rcases List.mem_append.mp hc with hc | hc
      · exact h.miss k hk hn c hc
      · rw [List.mem_singleton.mp hc]
        intro e
        change cacheFind k u.cache = none at hk
        rw [← e, hf] at hk; cases hk
    · intro k q hn hq
      obtain ⟨c, h1, h2⟩ := h.hit k q hn hq
      exact ⟨c, firstOf_append h1 _, h2⟩
    · intro c hc
      rw [List.getLast?_concat] at hc
      obtain rfl := Option.some.inj hc
      exact ⟨rfl, hf.symm, p, rfl⟩
    · intro _
      obtain ⟨a, ha, -⟩ := hfirst
      have hne : hist ≠ [] := by
        rintro rfl
        obtain ⟨pre, post, e, -⟩ := ha
        simp at e
      obtain ⟨c, ⟨pre, post, e, h1, h2⟩, h3⟩ := h.hourly hne
      refine ⟨c, ⟨pre, post ++ [b], by rw [e]; simp, h1, ?_⟩, h3⟩
      intro d hd
      rcases List.mem_append.mp hd with hd | hd
      · exact h2 d hd
      · rw [List.mem_singleton.mp hd]
        obtain ⟨pre', post', e', hs, -⟩ := ha
        have hm : a ∈ pre ++ c :: post := by rw [← e, e']; simp
        rcases List.mem_append.mp hm with hm | hm
        · exact ⟨a, List.mem_append_left _ hm, hs⟩
        · rcases List.mem_cons.mp hm with rfl | hm
          · exact ⟨a, by simp, hs⟩
          · obtain ⟨x, hx, ex⟩ := h2 a hm
            exact ⟨x, hx, ex.trans hs⟩
  | none =>
    refine ⟨_, block_new lib hl b u hf, ?_⟩
    classical
    have find_cons : ∀ k : Dbl × Dbl, k.1 ≠ .nan ∧ k.2 ≠ .nan →
        cacheFind k ((b.site, u.heap.length) :: u.cache) = if k = b.site then some u.heap.length else cacheFind k u.cache := by
      intro k hk
      rw [cacheFind]
      by_cases e : k = b.site
      · rw [if_pos ((same_iff k b.site hk hb).mpr e), if_pos e]
      · rw [if_neg (fun h => e ((same_iff k b.site hk hb).mp h)), if_neg e]
    have fresh := h.miss b.site hf hb
    constructor
    · intro e he
      rcases List.mem_cons.mp he with rfl | he
      · exact hb
      · exact h.keys e he
    · intro k hk hn c hc
      change cacheFind k ((b.site, u.heap.length) :: u.cache) = none at hk
      rw [find_cons k hn] at hk
      by_cases e : k = b.site
      · rw [if_pos e] at hk; cases hk
      · rw [if_neg e] at hk
        rcases List.mem_append.mp hc with hc | hc
        · exact h.miss k hk hn c hc
        · rw [List.mem_singleton.mp hc]; exact fun h => e h.symm
    · intro k q hn hq
      change cacheFind k ((b.site, u.heap.length) :: u.cache) = some q at hq
      show ∃ c, _ ∧ (u.heap ++ [averages lib b.weather])[q]? = _
      rw [find_cons k hn] at hq
      by_cases e : k = b.site
      · rw [if_pos e] at hq
        obtain rfl := Option.some.inj hq
        refine ⟨b, ⟨hist, [], rfl, e.symm, by rw [e]; exact fresh⟩, ?_⟩
        rw [List.getElem?_append_right (Nat.le_refl _), Nat.sub_self]; rfl
      · rw [if_neg e] at hq
        obtain ⟨c, h1, h2⟩ := h.hit k q hn hq
        refine ⟨c, firstOf_append h1 _, ?_⟩
        have : q < u.heap.length := by
          rcases Nat.lt_or_ge q u.heap.length with hlt | hge
          · exact hlt
          · rw [List.getElem?_eq_none hge] at h2; cases h2
        rw [List.getElem?_append_left this, h2]
    · intro c hc
      rw [List.getLast?_concat] at hc
      obtain rfl := Option.some.inj hc
      refine ⟨rfl, ?_, _, rfl⟩
      show some u.heap.length = cacheFind b.site ((b.site, u.heap.length) :: u.cache)
      rw [find_cons _ hb, if_pos rfl]
    · intro _
      exact ⟨b, ⟨hist, [], rfl, fresh, by simp⟩, toWeather_block b _ _⟩

/-- the operations of a history of block loads -/
def blockOps (hist : List (FileSystem × Block)) : List (FileSystem × Op Dbl) :=
  hist.map fun x => (x.1, .loadWeatherBlock 8760 x.2.array)

theorem holds_history (lib : Library Dbl) (hl : Prints lib) (junk : Params Dbl) (hist : List (FileSystem × Block)) :
    ∃ u, run lib (blockOps hist) (newUserModel junk) = some u ∧ Holds lib (hist.map (·.2)) u := by
  induction hist using List.reverseRecOn with
  | nil => exact ⟨_, rfl, holds_new lib junk⟩
  | append_singleton hist x ih =>
    obtain ⟨u, hu, h⟩ := ih
    obtain ⟨u', e, h'⟩ := holds_step lib hl _ u h x.2
    refine ⟨u', ?_, ?_⟩
    · have : blockOps (hist ++ [x]) = blockOps hist ++ [(x.1, .loadWeatherBlock 8760 x.2.array)] := by
        rw [blockOps, List.map_append]; rfl
      rw [this, run_append, hu, Option.bind_some, run]
      simp only [step, e, run]
    · rw [List.map_append]; exact h'

/-! ### all operations -/

theorem loadWeather_ok (lib : Library Dbl) (hl : Prints lib) (fs : FileSystem) (u u' : UserModel Dbl) (h : loadWeather lib fs u = .ok u') :
    ∃ w, toWeather (loadFile lib.atof (fs.read (weatherFile fs u).1) u.edata) = some w ∧
      u' = { u with
        valid := if (weatherFile fs u).2 then u.valid else some false
        edata := loadFile lib.atof (fs.read (weatherFile fs u).1) u.edata
        heap := u.heap.set u.weather (averages lib w)
        location := some u.weather } := by
  unfold loadWeather at h
  cases hf : weatherFile fs u with
  | mk f found =>
    rw [hf] at h
    simp only at h
    cases found with
    | true =>
      simp only [if_true] at h ⊢
      split at h
      · cases h
      · rename_i v hv
        obtain ⟨w, hw, e⟩ := fill_cases lib hl _ v hv
        simp only [Result.ok.injEq] at h
        subst e
        exact ⟨w, hw, h.symm⟩
    | false =>
      simp only [Bool.false_eq_true, if_false] at h ⊢
      split at h
      · cases h
      · rename_i v hv
        obtain ⟨w, hw, e⟩ := fill_cases lib hl _ v hv
        simp only [Result.ok.injEq] at h
        subst e
        exact ⟨w, hw, h.symm⟩

theorem loadBuilding_ok (lib : Library Dbl) (props : Except Properties.Error Properties.Store) (u u' : UserModel Dbl)
    (h : loadBuilding lib props u = .ok u') : ∃ p, u' = { u with params := p } := by
  unfold loadBuilding at h
  cases props with
  | error e => cases h
  | ok props =>
    simp only at h
    split at h <;> cases h
    exact ⟨_, rfl⟩

theorem loadBuilding_throw (lib : Library Dbl) (props : Except Properties.Error Properties.Store) (u u' : UserModel Dbl) (e : Failure)
    (h : loadBuilding lib props u = .throw e u') : ∃ p, u' = { u with params := p } := by
  unfold loadBuilding at h
  cases props with
  | error e => cases h; exact ⟨_, rfl⟩
  | ok props =>
    simp only at h
    split at h <;> cases h
    exact ⟨_, rfl⟩

theorem block_ok (lib : Library Dbl) (hl : Prints lib) (n : Int) (data : List Dbl) (u u' : UserModel Dbl)
    (h : loadWeatherBlock lib n data u = .ok u') :
    (∃ k p, (k, p) ∈ u.cache ∧ u' = { u with weather := p, location := some p, valid := some true }) ∨
    ∃ k e w, toWeather e = some w ∧ u' = { u with
      heap := u.heap ++ [averages lib w], weather := u.heap.length, cache := (k, u.heap.length) :: u.cache,
      edata := e, location := some u.heap.length, valid := some true } := by
  have mem : ∀ (k : Dbl × Dbl) (c : List ((Dbl × Dbl) × Nat)) (p : Nat), cacheFind k c = some p → ∃ k', (k', p) ∈ c := by
    intro k c p
    induction c with
    | nil => intro h; cases h
    | cons x c ih =>
      intro h
      obtain ⟨k', q⟩ := x
      rw [cacheFind] at h
      split at h
      · obtain rfl := Option.some.inj h
        exact ⟨k', List.mem_cons_self⟩
      · obtain ⟨k'', hk⟩ := ih h
        exact ⟨k'', List.mem_cons_of_mem _ hk⟩
  unfold loadWeatherBlock at h
  split at h
  · rename_i lat lon t
    split at h
    · cases h
    · split at h
      · rename_i p hp
        left
        obtain ⟨k, hk⟩ := mem _ _ _ hp
        exact ⟨k, p, hk, (Result.ok.inj h).symm⟩
      · right
        simp only at h
        split at h
        · cases h
        · rename_i e he
          split at h
          · cases h
          · rename_i v hv
            obtain ⟨w, hw, ev⟩ := fill_cases lib hl _ v hv
            refine ⟨(lat, lon), e, w, hw, ?_⟩
            rw [← Result.ok.inj h, ev]
            simp only
            rw [List.set_append_right _ _ (Nat.le_refl _), Nat.sub_self]
            rfl
  · cases h

/-- weather is in place for both simulations -/
def Ready (lib : Library Dbl) (u : UserModel Dbl) : Prop :=
  (∃ p w, u.location = some p ∧ u.heap[p]? = some (averages lib w)) ∧ ∃ w, toWeather u.edata = some w

structure Sound (lib : Library Dbl) (u : UserModel Dbl) : Prop where
  cached : ∀ k p, (k, p) ∈ u.cache → ∃ w, u.heap[p]? = some (averages lib w)
  weather : u.weather < u.heap.length
  filled : u.cache ≠ [] → ∃ w, toWeather u.edata = some w
  ready : u.valid = some true → Ready lib u

theorem sound_new (lib : Library Dbl) (junk : Params Dbl) : Sound lib (newUserModel junk) where
  cached := by intro k p h; cases h
  weather := by show 0 < 1; omega
  filled := fun h => absurd rfl h
  ready := by intro h; cases h

theorem sound_loadWeather (lib : Library Dbl) (hl : Prints lib) (fs : FileSystem) (u u' : UserModel Dbl)
    (h : loadWeather lib fs u = .ok u')
    (hw : u.weather < u.heap.length) (hc : ∀ k p, (k, p) ∈ u.cache → ∃ w, u.heap[p]? = some (averages lib w)) (v : Option Bool) : Sound lib { u' with valid := v } := by
  obtain ⟨w, h1, rfl⟩ := loadWeather_ok lib hl fs u u' h
  have hset : (u.heap.set u.weather (averages lib w))[u.weather]? = some (averages lib w) := by
    rw [List.getElem?_set_self hw]
  constructor
  · intro k p hp
    show ∃ w', (u.heap.set u.weather (averages lib w))[p]? = some (averages lib w')
    by_cases e : p = u.weather
    · rw [e]; exact ⟨w, hset⟩
    · rw [List.getElem?_set_ne (fun h => e h.symm)]; exact hc k p hp
  · show u.weather < (u.heap.set u.weather (averages lib w)).length
    rw [List.length_set]; exact hw
  · intro _; exact ⟨w, h1⟩
  · intro _; exact ⟨⟨u.weather, w, rfl, hset⟩, w, h1⟩

theorem sound_block (lib : Library Dbl) (hl : Prints lib) (n : Int) (data : List Dbl) (u u' : UserModel Dbl) (hs : Sound lib u)
    (h : loadWeatherBlock lib n data u = .ok u') : Sound lib u' := by
  rcases block_ok lib hl n data u u' h with ⟨k, p, hk, rfl⟩ | ⟨k, e, w, hw, rfl⟩
  · obtain ⟨w, hw⟩ := hs.cached k p hk
    have hp : p < u.heap.length := by
      rcases Nat.lt_or_ge p u.heap.length with hlt | hge
      · exact hlt
      · rw [List.getElem?_eq_none hge] at hw; cases hw
    exact ⟨hs.cached, hp, hs.filled, fun _ => ⟨⟨p, w, rfl, hw⟩, hs.filled (List.ne_nil_of_mem hk)⟩⟩
  · have hnew : (u.heap ++ [averages lib w])[u.heap.length]? = some (averages lib w) := by
      rw [List.getElem?_append_right (Nat.le_refl _), Nat.sub_self]; rfl
    constructor
    · intro k' p' hp
      rcases List.mem_cons.mp hp with e' | hp
      · obtain ⟨-, rfl⟩ := Prod.mk.inj e'
        exact ⟨w, hnew⟩
      · obtain ⟨w', hw'⟩ := hs.cached k' p' hp
        have hlt : p' < u.heap.length := by
          rcases Nat.lt_or_ge p' u.heap.length with hlt | hge
          · exact hlt
          · rw [List.getElem?_eq_none hge] at hw'; cases hw'
        exact ⟨w', by show (u.heap ++ _)[p']? = _; rw [List.getElem?_append_left hlt, hw']⟩
    · show u.heap.length < (u.heap ++ [_]).length
      rw [List.length_append, List.length_singleton]; omega
    · intro _; exact ⟨w, hw⟩
    · intro _; exact ⟨⟨u.heap.length, w, rfl, hnew⟩, w, hw⟩

theorem sound_step (lib : Library Dbl) (hl : Prints lib) (fs : FileSystem) (op : Op Dbl) (hop : ∀ b, op ≠ .setValid b)
    (u u' : UserModel Dbl) (hs : Sound lib u) (h : step lib fs op u = .ok u') : Sound lib u' := by
  have invalid : ∀ f : Str, Sound lib { u with dataFile := f, valid := some false } := fun f =>
    ⟨hs.cached, hs.weather, hs.filled, fun h => by cases h⟩
  cases op with
  | load f =>
    change load lib fs f u = .ok u' at h
    unfold load at h
    simp only at h
    split at h
    · rw [← Result.ok.inj h]; exact invalid f
    · split at h
      · rename_i v hv
        obtain ⟨p, rfl⟩ := loadBuilding_ok lib _ _ _ hv
        exact sound_loadWeather lib hl fs _ u' h hs.weather hs.cached u'.valid
      · rename_i r hr
        rw [h] at hr
        exact absurd rfl (hr u')
  | loadWithDefaults f d =>
    change loadWithDefaults lib fs f d u = .ok u' at h
    unfold loadWithDefaults at h
    simp only at h
    split at h
    · rw [← Result.ok.inj h]; exact invalid f
    · split at h
      · rw [← Result.ok.inj h]; exact invalid f
      · split at h
        · rename_i v hv
          obtain ⟨p, rfl⟩ := loadBuilding_ok lib _ _ _ hv
          exact sound_loadWeather lib hl fs _ u' h hs.weather hs.cached u'.valid
        · rename_i r hr
          rw [h] at hr
          exact absurd rfl (hr u')
  | loadWeather => exact sound_loadWeather lib hl fs u u' h hs.weather hs.cached u'.valid
  | loadAndSetWeather =>
    change loadAndSetWeather lib fs u = .ok u' at h
    unfold loadAndSetWeather at h
    split at h
    · rename_i v hv
      rw [← Result.ok.inj h]
      exact sound_loadWeather lib hl fs u v hv hs.weather hs.cached _
    · rename_i r hr
      rw [h] at hr
      exact absurd rfl (hr u')
  | loadWeatherBlock n data => exact sound_block lib hl n data u u' hs h
  | set f =>
    rw [← Result.ok.inj h]
    exact ⟨hs.cached, hs.weather, hs.filled, hs.ready⟩
  | setValid b => exact absurd rfl (hop b)

theorem sound_run (lib : Library Dbl) (hl : Prints lib) (ops : List (FileSystem × Op Dbl)) (hop : ∀ x ∈ ops, ∀ b, x.2 ≠ .setValid b)
    (u u' : UserModel Dbl) (hs : Sound lib u) (h : run lib ops u = some u') : Sound lib u' := by
  induction ops generalizing u with
  | nil => rw [← Option.some.inj h]; exact hs
  | cons x ops ih =>
    obtain ⟨fs, op⟩ := x
    rw [run] at h
    split at h
    · rename_i v hv
      exact ih (fun y hy => hop y (List.mem_cons_of_mem _ hy)) v
        (sound_step lib hl fs op (hop (fs, op) List.mem_cons_self) u v hs hv) h
    · cases h

end ISO.Props
