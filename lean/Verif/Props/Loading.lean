import Verif.Lemmas.Loading
import Verif.Props.Parameters

/-!
# C08: weather paths; C09: weather cache; C10: validity; C43: order of sites; C46: shared weather
-/

namespace ISO.Props
open ISO ISO.Spec ISO.Epw ISO.WeatherText ISO.User CNum Dbl

/-! ### C08 -/

/-- C08: with a directory in the base path, the relative path is taken from that directory. -/
theorem C08_directory (dir name rel : Str) (sep : Char) (hs : sep = '/' ∨ sep = '\\') (hn : '/' ∉ name ∧ '\\' ∉ name) :
    resolveFilename (dir ++ sep :: name) rel = forward dir ++ '/' :: forward (withoutLeading rel) := by
  have e : (dir ++ sep :: name).map slash = dir.map slash ++ '/' :: name.map slash := by
    rw [List.map_append, List.map_cons]
    rcases hs with rfl | rfl <;> rfl
  unfold resolveFilename
  simp only
  rw [e, lastSeparator_some _ (not_mem_slash hn.1 hn.2), without_eq]
  have : (0 + (dir.map slash).length + 1) = (dir.map slash ++ ['/']).length := by simp
  have h2 : dir.map slash ++ '/' :: name.map slash = (dir.map slash ++ ['/']) ++ name.map slash := by simp
  rw [this, h2, List.take_left, List.append_assoc]
  rfl

/-- C08: a base path without directory: the result starts with the first character of the base path (a defect), followed
by the relative path. -/
theorem C08_plain (name rel : Str) (hn : '/' ∉ name ∧ '\\' ∉ name) :
    resolveFilename name rel = name.take 1 ++ forward (withoutLeading rel) := by
  have e : name.map slash = name := by
    conv_rhs => rw [← List.map_id name]
    apply List.map_congr_left
    intro c hc
    exact if_neg (fun e : c = '\\' => hn.2 (by rw [← e]; exact hc))
  unfold resolveFilename
  simp only
  rw [e, lastSeparator_none hn.1, without_eq]
  rfl

/-- C08: so it is not the relative path. -/
theorem C08_plain_wrong (name rel : Str) (hn : '/' ∉ name ∧ '\\' ∉ name) (h : name ≠ []) :
    resolveFilename name rel ≠ forward (withoutLeading rel) := by
  rw [C08_plain name rel hn]
  cases name with
  | nil => exact absurd rfl h
  | cons c t =>
    intro e
    have := congrArg List.length e
    simp only [List.take_succ_cons, List.take_zero, List.length_append, List.length_cons, List.length_nil] at this
    omega

/-- C08: the two cases cover every base path. -/
theorem C08_every_base (base : Str) :
    ('/' ∉ base ∧ '\\' ∉ base) ∨ ∃ dir sep name, base = dir ++ sep :: name ∧ (sep = '/' ∨ sep = '\\') ∧ '/' ∉ name ∧ '\\' ∉ name := by
  induction base with
  | nil => left; simp
  | cons c t ih =>
    rcases ih with ih | ⟨dir, sep, name, rfl, h⟩
    · by_cases hc : c = '/' ∨ c = '\\'
      · exact .inr ⟨[], c, t, rfl, hc, ih.1, ih.2⟩
      · left
        simp only [not_or] at hc
        exact ⟨fun h => by rcases List.mem_cons.mp h with h | h; exacts [hc.1 h.symm, ih.1 h],
          fun h => by rcases List.mem_cons.mp h with h | h; exacts [hc.2 h.symm, ih.2 h]⟩
    · exact .inr ⟨c :: dir, sep, name, rfl, h⟩

example : resolveFilename "C:\\models\\office.ism".toList "\\weather\\chicago.epw".toList = "C:/models/weather/chicago.epw".toList := by
  decide

example : resolveFilename "office.ism".toList "chicago.epw".toList = "ochicago.epw".toList := by decide

/-! ### C43 -/

/-- C43: on coordinates that are numbers or infinite, the order of sites is a strict total order. -/
theorem C43_order (a b c : Dbl × Dbl) (ha : a.1 ≠ .nan ∧ a.2 ≠ .nan) (hb : b.1 ≠ .nan ∧ b.2 ≠ .nan) (hc : c.1 ≠ .nan ∧ c.2 ≠ .nan) :
    latLonLess a a = false ∧
    (latLonLess a b = true → latLonLess b a = false) ∧
    (latLonLess a b = true → latLonLess b c = true → latLonLess a c = true) ∧
    (latLonLess a b = false ∧ latLonLess b a = false ↔ a = b) := by
  refine ⟨latLonLess_irrefl a, ?_, ?_, ?_⟩
  · intro h
    rw [latLonLess_iff a b ha.1 hb.1] at h
    rw [← Bool.not_eq_true, latLonLess_iff b a hb.1 ha.1, not_or]
    rcases h with h | ⟨e, h⟩
    · refine ⟨by rw [dlt_asymm h]; simp, ?_⟩
      rintro ⟨e, -⟩
      rw [e, dlt_irrefl] at h; cases h
    · rw [e, dlt_irrefl]
      exact ⟨by simp, fun h' => by rw [dlt_asymm h] at h'; exact absurd h'.2 (by simp)⟩
  · intro h1 h2
    rw [latLonLess_iff a b ha.1 hb.1] at h1
    rw [latLonLess_iff b c hb.1 hc.1] at h2
    rw [latLonLess_iff a c ha.1 hc.1]
    rcases h1 with h1 | ⟨e1, h1⟩ <;> rcases h2 with h2 | ⟨e2, h2⟩
    · exact .inl (dlt_trans h1 h2)
    · exact .inl (e2 ▸ h1)
    · exact .inl (e1 ▸ h2)
    · exact .inr ⟨e1.trans e2, dlt_trans h1 h2⟩
  · rw [← same_iff a b ha hb, Bool.and_eq_true, Bool.not_eq_true', Bool.not_eq_true']

/-- C43: on finite coordinates it is the lexicographic order of latitude and longitude. -/
theorem C43_lexicographic (a b c d : ℝ) :
    latLonLess (fin a, fin b) (fin c, fin d) = true ↔ a < c ∨ (a = c ∧ b < d) := by
  rw [latLonLess_iff _ _ (by simp) (by simp)]
  simp [Dbl.lt]

/-- C43: with NaN it is not: "neither is less" is not transitive. -/
theorem C43_nan : ∃ a b c : Dbl × Dbl,
    (latLonLess a b = false ∧ latLonLess b a = false) ∧ (latLonLess b c = false ∧ latLonLess c b = false) ∧ latLonLess a c = true :=
  ⟨(fin 0, fin 0), (.nan, .nan), (fin 1, fin 0), by simp [latLonLess, clt, Dbl.lt]⟩

/-! ### C09 -/

/-- C09, monthly: after any history of block loads of full years, every block load returns, and a monthly model built then
sees the averages of the first block that was loaded for the site of the last block. -/
theorem C09_monthly (lib : Library Dbl) (hl : Prints lib) (junk : Params Dbl) (hist : List (FileSystem × Block)) (b : Block)
    (hb : (hist.map (·.2)).getLast? = some b) :
    ∃ u m first, run lib (blockOps hist) (newUserModel junk) = some u ∧ toMonthlyModel u = some m ∧
      FirstOf (hist.map (·.2)) b.site first ∧ monthlyWeather u m = some (averages lib first.weather) := by
  obtain ⟨u, hu, h⟩ := holds_history lib hl junk hist
  obtain ⟨hv, hloc, p, hp⟩ := h.last b hb
  obtain ⟨first, h1, h2⟩ := h.hit b.site p ⟨b.lat_number, b.lon_number⟩ (by rw [← hloc, hp])
  refine ⟨u, ⟨u.params, u.location⟩, first, hu, by rw [toMonthlyModel, hv], h1, ?_⟩
  rw [monthlyWeather, hp]
  exact h2

/-- C09, hourly: an hourly model built then sees the weather of the last block that was the first of its site. -/
theorem C09_hourly (lib : Library Dbl) (hl : Prints lib) (junk : Params Dbl) (hist : List (FileSystem × Block)) (hne : hist ≠ []) :
    ∃ u m last, run lib (blockOps hist) (newUserModel junk) = some u ∧ toHourlyModel u = some m ∧
      LastNew (hist.map (·.2)) last ∧ hourlyWeather u m = some last.weather := by
  obtain ⟨u, hu, h⟩ := holds_history lib hl junk hist
  obtain ⟨b, hb⟩ : ∃ b, (hist.map (·.2)).getLast? = some b :=
    ⟨_, List.getLast?_eq_getLast_of_ne_nil (by simpa using hne)⟩
  obtain ⟨hv, -, -⟩ := h.last b hb
  obtain ⟨last, h1, h2⟩ := h.hourly (by simpa using hne)
  exact ⟨u, ⟨u.params, u.location⟩, last, hu, by rw [toHourlyModel, hv], h1, h2⟩

/-- C09, the disagreement: after site A, site B and site A again, the monthly model uses A's weather and the hourly model
B's. -/
theorem C09_revisit (lib : Library Dbl) (hl : Prints lib) (junk : Params Dbl) (fs : FileSystem) (a b : Block) (hab : a.site ≠ b.site) :
    ∃ u m, run lib (blockOps [(fs, a), (fs, b), (fs, a)]) (newUserModel junk) = some u ∧
      toMonthlyModel u = some m ∧ toHourlyModel u = some m ∧
      monthlyWeather u m = some (averages lib a.weather) ∧ hourlyWeather u m = some b.weather := by
  obtain ⟨u, m, first, hu, hm, h1, h2⟩ := C09_monthly lib hl junk [(fs, a), (fs, b), (fs, a)] a rfl
  obtain ⟨u', m', last, hu', hm', h1', h2'⟩ := C09_hourly lib hl junk [(fs, a), (fs, b), (fs, a)] (by simp)
  rw [hu] at hu'
  obtain rfl := Option.some.inj hu'
  have em : m' = m := by
    have : toHourlyModel u = toMonthlyModel u := rfl
    rw [hm, hm'] at this
    exact Option.some.inj this
  subst em
  obtain ⟨pre, post, e, hs, hp⟩ := h1
  have ef : first = a := by
    rcases pre with - | ⟨x, pre⟩
    · exact (List.cons.inj e).1.symm
    · have ex : x = a := (List.cons.inj e).1.symm
      exact absurd (by rw [ex]) (hp x List.mem_cons_self)
  obtain ⟨pre', post', e', hp', hq'⟩ := h1'
  have el : last = b := by
    rcases pre' with - | ⟨x, - | ⟨y, pre'⟩⟩
    · obtain ⟨e1, e2⟩ := List.cons.inj e'
      obtain ⟨z, hz, ez⟩ := hq' b (by rw [← e2]; exact List.mem_cons_self)
      rw [List.nil_append, List.mem_singleton] at hz
      rw [hz, ← e1] at ez
      exact absurd ez hab
    · exact (List.cons.inj (List.cons.inj e').2).1.symm
    · have ex : x = a := (List.cons.inj e').1.symm
      have el' : last = a := by
        rcases pre' with - | ⟨z, pre'⟩
        · exact (List.cons.inj (List.cons.inj (List.cons.inj e').2).2).1.symm
        · have := congrArg List.length e'
          simp at this
      exact absurd (by rw [ex, el']) (hp' x List.mem_cons_self)
  rw [ef] at h2
  rw [el] at h2'
  exact ⟨u, m', hu, hm, hm', h2, h2'⟩

/-- C09, files: after loading a weather file both models use the same weather. -/
theorem C09_file (lib : Library Dbl) (hl : Prints lib) (fs : FileSystem) (u u' : UserModel Dbl) (hw : u.weather < u.heap.length)
    (h : loadWeather lib fs u = .ok u') (m : Built Dbl) (hm : toMonthlyModel u' = some m) :
    ∃ w, hourlyWeather u' m = some w ∧ monthlyWeather u' m = some (averages lib w) := by
  obtain ⟨w, h1, rfl⟩ := loadWeather_ok lib hl fs u u' h
  refine ⟨w, h1, ?_⟩
  unfold toMonthlyModel at hm
  split at hm
  · rw [← Option.some.inj hm, monthlyWeather]
    show (u.heap.set u.weather (averages lib w))[u.weather]? = _
    rw [List.getElem?_set_self hw]
  · cases hm

/-! ### C10 -/

/-- has the weather file been found, next to the program or next to the building file? -/
def weatherFound (fs : FileSystem) (buildingFile path : Str) : Bool :=
  fs.exists_ path || fs.exists_ (resolveFilename buildingFile path)

theorem weatherFile_found (fs : FileSystem) (u : UserModel Dbl) :
    (weatherFile fs u).2 = weatherFound fs u.dataFile u.params.weatherFilePath := by
  unfold weatherFile weatherFound
  cases h : fs.exists_ u.params.weatherFilePath <;> simp

/-- C10: whatever happened before, if a load returns then the model is valid exactly when the building file and the
weather file it names were found. -/
theorem C10_load (lib : Library Dbl) (hl : Prints lib) (fs : FileSystem) (f : Str) (u u' : UserModel Dbl)
    (h : load lib fs f u = .ok u') :
    u'.valid = some (fs.exists_ f && weatherFound fs f u'.params.weatherFilePath) := by
  unfold load at h
  simp only at h
  split at h
  · rename_i hf
    rw [← Result.ok.inj h]
    simp only [Bool.not_eq_true'] at hf
    simp [hf]
  · rename_i hf
    simp only [Bool.not_eq_true', Bool.not_eq_false] at hf
    split at h
    · rename_i v hv
      obtain ⟨p, rfl⟩ := loadBuilding_ok lib _ _ _ hv
      obtain ⟨w, -, rfl⟩ := loadWeather_ok lib hl fs _ u' h
      simp only [hf, Bool.true_and, weatherFile_found]
      cases weatherFound fs f p.weatherFilePath <;> rfl
    · rename_i r hr
      rw [h] at hr
      exact absurd rfl (hr u')

/-- C10, with a defaults file -/
theorem C10_loadWithDefaults (lib : Library Dbl) (hl : Prints lib) (fs : FileSystem) (f d : Str) (u u' : UserModel Dbl)
    (h : loadWithDefaults lib fs f d u = .ok u') :
    u'.valid = some (fs.exists_ f && fs.exists_ d && weatherFound fs f u'.params.weatherFilePath) := by
  unfold loadWithDefaults at h
  simp only at h
  split at h
  · rename_i hf
    rw [← Result.ok.inj h]
    simp only [Bool.not_eq_true'] at hf
    simp [hf]
  · rename_i hf
    split at h
    · rename_i hd
      rw [← Result.ok.inj h]
      simp only [Bool.not_eq_true'] at hd
      simp [hd]
    · rename_i hd
      simp only [Bool.not_eq_true', Bool.not_eq_false] at hf hd
      split at h
      · rename_i v hv
        obtain ⟨p, rfl⟩ := loadBuilding_ok lib _ _ _ hv
        obtain ⟨w, -, rfl⟩ := loadWeather_ok lib hl fs _ u' h
        simp only [hf, hd, Bool.true_and, weatherFile_found]
        cases weatherFound fs f p.weatherFilePath <;> rfl
      · rename_i r hr
        rw [h] at hr
        exact absurd rfl (hr u')

/-- C10: loading the weather again never makes an invalid model valid; loading it with `loadAndSetWeather` or from a block
always does, found or not. -/
theorem C10_weather (lib : Library Dbl) (hl : Prints lib) (fs : FileSystem) (u u' : UserModel Dbl) :
    (loadWeather lib fs u = .ok u' → (weatherFound fs u.dataFile u.params.weatherFilePath = true → u'.valid = u.valid) ∧
      (weatherFound fs u.dataFile u.params.weatherFilePath = false → u'.valid = some false)) ∧
    (loadAndSetWeather lib fs u = .ok u' → u'.valid = some true) ∧
    ∀ n data, loadWeatherBlock lib n data u = .ok u' → u'.valid = some true := by
  refine ⟨fun h => ?_, fun h => ?_, fun n data h => ?_⟩
  · obtain ⟨w, -, rfl⟩ := loadWeather_ok lib hl fs _ u' h
    exact ⟨fun hw => if_pos (by rw [weatherFile_found, hw]), fun hw => if_neg (by rw [weatherFile_found, hw]; decide)⟩
  · unfold loadAndSetWeather at h
    split at h
    · rw [← Result.ok.inj h]
    · rename_i r hr
      rw [h] at hr
      exact absurd rfl (hr u')
  · rcases block_ok lib hl n data u u' h with ⟨k, p, -, rfl⟩ | ⟨k, e, w, -, rfl⟩ <;> rfl

theorem loadBuilding_kept (lib : Library Dbl) (props : Except Properties.Error Properties.Store) (u u' : UserModel Dbl) (e : Failure)
    (h : loadBuilding lib props u = .throw e u') :
    (∃ e', props = .error e' ∧ e = .properties e' ∧ u' = u) ∨
    ∃ store e' pre r post, props = .ok store ∧ e = .parameter e' ∧ Spec.Param.table = pre ++ r :: post ∧
      (∀ x ∈ pre, Spec.Param.judge lib.stod store x = .accepted) ∧ Spec.Param.judge lib.stod store r ≠ .accepted ∧
      u' = { u with params := Spec.Param.stored lib.stod (Spec.Param.only store pre) u.params } := by
  unfold loadBuilding at h
  cases props with
  | error e' => cases h; exact .inl ⟨_, rfl, rfl, rfl⟩
  | ok store =>
    simp only at h
    split at h
    · cases h
    · rename_i e' p hl
      cases h
      obtain ⟨pre, r, post, h1, h2, h3, rfl⟩ := C06_kept lib.stod store u.params p e' hl
      exact .inr ⟨store, e', pre, r, post, rfl, rfl, h1, h2, h3, rfl⟩
    · cases h

/-- C10, a defect: a load that ends with an exception (malformed file, missing parameter) leaves the model marked valid. -/
theorem C10_exception (lib : Library Dbl) (fs : FileSystem) (f : Str) (u u' : UserModel Dbl) (e : Failure)
    (h : load lib fs f u = .throw e u') : u'.valid = some true ∧ u'.location = u.location ∧ u'.edata = u.edata := by
  unfold load at h
  simp only at h
  split at h
  · cases h
  · split at h
    · unfold loadWeather at h
      simp only at h
      split at h <;> cases h
    · obtain ⟨p, rfl⟩ := loadBuilding_throw lib _ _ _ e h
      exact ⟨rfl, rfl, rfl⟩

/-- C10: what a load that ends with an exception leaves behind. A malformed file changes no parameter; otherwise exactly
the parameters listed before the one that is not acceptable have been stored. Nothing else changes, except that the name of
the file is kept and the model is marked valid. -/
theorem C10_kept (lib : Library Dbl) (fs : FileSystem) (f : Str) (u u' : UserModel Dbl) (e : Failure)
    (h : load lib fs f u = .throw e u') :
    (∃ e', Properties.ofFile (fs.read f) = .error e' ∧ e = .properties e' ∧ u' = { u with dataFile := f, valid := some true }) ∨
    ∃ store e' pre r post, Properties.ofFile (fs.read f) = .ok store ∧ e = .parameter e' ∧ Spec.Param.table = pre ++ r :: post ∧
      (∀ x ∈ pre, Spec.Param.judge lib.stod store x = .accepted) ∧ Spec.Param.judge lib.stod store r ≠ .accepted ∧
      u' = { u with dataFile := f, valid := some true, params := Spec.Param.stored lib.stod (Spec.Param.only store pre) u.params } := by
  unfold load at h
  simp only at h
  split at h
  · cases h
  · split at h
    · unfold loadWeather at h
      simp only at h
      split at h <;> cases h
    · exact loadBuilding_kept lib _ _ _ e h

/-- C10: likewise for a load with a file of defaults, which comes in where the building file is silent. -/
theorem C10_kept_defaults (lib : Library Dbl) (fs : FileSystem) (f d : Str) (u u' : UserModel Dbl) (e : Failure)
    (h : loadWithDefaults lib fs f d u = .throw e u') :
    (∃ e', Properties.ofFiles (fs.read f) (fs.read d) = .error e' ∧ e = .properties e' ∧
      u' = { u with dataFile := f, valid := some true }) ∨
    ∃ store e' pre r post, Properties.ofFiles (fs.read f) (fs.read d) = .ok store ∧ e = .parameter e' ∧
      Spec.Param.table = pre ++ r :: post ∧
      (∀ x ∈ pre, Spec.Param.judge lib.stod store x = .accepted) ∧ Spec.Param.judge lib.stod store r ≠ .accepted ∧
      u' = { u with dataFile := f, valid := some true, params := Spec.Param.stored lib.stod (Spec.Param.only store pre) u.params } := by
  unfold loadWithDefaults at h
  simp only at h
  split at h
  · cases h
  split at h
  · cases h
  · split at h
    · unfold loadWeather at h
      simp only at h
      split at h <;> cases h
    · exact loadBuilding_kept lib _ _ _ e h

/-- C10: building a simulation from a user model is defined exactly when it is valid. -/
theorem C10_build (u : UserModel Dbl) :
    ((∃ m, toHourlyModel u = some m) ↔ u.valid = some true) ∧ ((∃ m, toMonthlyModel u = some m) ↔ u.valid = some true) := by
  have key : (∃ m, toHourlyModel u = some m) ↔ u.valid = some true := by
    unfold toHourlyModel
    constructor
    · rintro ⟨m, hm⟩
      split at hm
      · assumption
      · cases hm
    · intro h; rw [h]; exact ⟨_, rfl⟩
  exact ⟨key, key⟩

/-- C10: after any history of operations that return (without overriding the mark by hand), a valid model has weather for
both simulations: complete monthly averages and a full year. -/
theorem C10_ready (lib : Library Dbl) (hl : Prints lib) (junk : Params Dbl) (ops : List (FileSystem × Op Dbl))
    (hop : ∀ x ∈ ops, ∀ b, x.2 ≠ .setValid b) (u : UserModel Dbl) (h : run lib ops (newUserModel junk) = some u)
    (m : Built Dbl) (hm : toMonthlyModel u = some m) :
    (∃ w, monthlyWeather u m = some (averages lib w)) ∧ ∃ w, hourlyWeather u m = some w := by
  have hv : u.valid = some true := (C10_build u).2.mp ⟨m, hm⟩
  obtain ⟨⟨p, w, hp, hw⟩, hr⟩ := (sound_run lib hl ops hop _ u (sound_new lib junk) h).ready hv
  refine ⟨⟨w, ?_⟩, hr⟩
  unfold toMonthlyModel at hm
  rw [hv] at hm
  rw [← Option.some.inj hm, monthlyWeather, hp]
  exact hw

/-- C10: a new object's mark is not initialised. -/
theorem C10_new (junk : Params Dbl) : (newUserModel junk).valid = none := rfl

/-- C10: in a new object a load whose weather file cannot be read has undefined behaviour (it goes on to use weather that
was never set). -/
theorem C10_unset (lib : Library Dbl) (fs : FileSystem) (junk : Params Dbl)
    (h : fs.read (weatherFile fs (newUserModel junk)).1 = none) :
    loadWeather lib fs (newUserModel junk) = .undefined := by
  unfold loadWeather
  cases hf : weatherFile fs (newUserModel junk) with
  | mk f found =>
    rw [hf] at h
    simp only at h ⊢
    rw [h]
    have : ∀ v : UserModel Dbl, v.edata = construct → fillWeather lib { v with edata := loadFile lib.atof none v.edata } = none := by
      intro v hv
      apply fill_none
      rw [hv]
      rfl
    rw [this]
    split <;> rfl

/-! ### C46 -/

/-- C46: after a block load, loading a weather file overwrites the cached weather of the block's site: the same block
loaded again gives the monthly model the file's weather. -/
theorem C46_overwritten (lib : Library Dbl) (hl : Prints lib) (fs : FileSystem) (b : Block) (u u1 u2 : UserModel Dbl)
    (hs : u.weather < u.heap.length) (h1 : cacheFind b.site u.cache = some u.weather) (h2 : loadWeather lib fs u = .ok u1)
    (h3 : loadWeatherBlock lib 8760 b.array u1 = .ok u2) :
    ∃ w m, toWeather (loadFile lib.atof (fs.read (weatherFile fs u).1) u.edata) = some w ∧ toMonthlyModel u2 = some m ∧
      monthlyWeather u2 m = some (averages lib w) := by
  obtain ⟨w, hw, rfl⟩ := loadWeather_ok lib hl fs u u1 h2
  have h4 := (block_old lib b _ u.weather (by exact h1)).symm.trans h3
  rw [← Result.ok.inj h4]
  refine ⟨w, _, hw, rfl, ?_⟩
  show (u.heap.set u.weather (averages lib w))[u.weather]? = _
  rw [List.getElem?_set_self hs]

/-- C46: a block load of a new site changes the weather of hourly models built before, and not that of monthly models. -/
theorem C46_block (lib : Library Dbl) (hl : Prints lib) (b : Block) (u : UserModel Dbl) (m : Built Dbl) (e : Entries Dbl)
    (hm : monthlyWeather u m = some e) (h : cacheFind b.site u.cache = none) :
    ∃ u', loadWeatherBlock lib 8760 b.array u = .ok u' ∧ hourlyWeather u' m = some b.weather ∧ monthlyWeather u' m = some e := by
  refine ⟨_, block_new lib hl b u h, toWeather_block b _ _, ?_⟩
  unfold monthlyWeather at hm ⊢
  cases hp : m.location with
  | none => rw [hp] at hm; cases hm
  | some p =>
    rw [hp] at hm
    rw [Option.bind_some] at hm ⊢
    have hlt : p < u.heap.length := by
      rcases Nat.lt_or_ge p u.heap.length with hlt | hge
      · exact hlt
      · rw [List.getElem?_eq_none hge] at hm; cases hm
    show (u.heap ++ [_])[p]? = _
    rw [List.getElem?_append_left hlt, hm]

/-- C46: loading a weather file changes the weather of both kinds of models built from the present weather. -/
theorem C46_file (lib : Library Dbl) (hl : Prints lib) (fs : FileSystem) (u u' : UserModel Dbl) (m : Built Dbl)
    (hs : u.weather < u.heap.length) (hm : m.location = some u.weather) (h : loadWeather lib fs u = .ok u') :
    ∃ w, toWeather (loadFile lib.atof (fs.read (weatherFile fs u).1) u.edata) = some w ∧ hourlyWeather u' m = some w ∧
      monthlyWeather u' m = some (averages lib w) := by
  obtain ⟨w, hw, rfl⟩ := loadWeather_ok lib hl fs u u' h
  refine ⟨w, hw, hw, ?_⟩
  rw [monthlyWeather, hm]
  show (u.heap.set u.weather (averages lib w))[u.weather]? = _
  rw [List.getElem?_set_self hs]

/-! ### hypotheses met -/

/-- two sites with different weather -/
noncomputable def siteA : Block where
  lat := fin 41.98
  lon := fin (-87.92)
  tz := fin 0
  zone := 0
  cols := fun c => List.replicate 8760 (fin c.1)
  lat_number := by simp
  lon_number := by simp
  zone_eq := by
    show cintR 0 = some 0
    simp [cintR, truncR]
  full := fun _ => List.length_replicate

noncomputable def siteB : Block := { siteA with lat := fin 1, lat_number := by simp, cols := fun _ => List.replicate 8760 (fin 7),
                                                full := fun _ => List.length_replicate }

noncomputable def textLibrary : Library Dbl := ⟨fun _ => .error .invalidArgument, fun _ => fin 1, signText⟩

theorem textLibrary_prints : Prints textLibrary ∧ siteA.site ≠ siteB.site := by
  constructor
  · intro x
    show signText x ≠ [] ∧ ',' ∉ signText x ∧ '\n' ∉ signText x
    cases x with
    | fin x => unfold signText; simp only; split_ifs <;> decide
    | _ => decide
  · intro e
    have h := Dbl.fin.inj (Prod.mk.inj e).1
    norm_num at h

/-- a file system in which every path is a file with an empty text -/
def emptyFiles : FileSystem := ⟨fun _ => true, fun _ => some (Spec.Epw.file [Spec.Epw.line [[]]])⟩

/-- the hypotheses of the theorems on files after blocks are met: load block A, then a file, then block A again -/
example (junk : Params Dbl) : ∃ u u1 u2 : UserModel Dbl, u.weather < u.heap.length ∧
    loadWeatherBlock textLibrary 8760 siteA.array (newUserModel junk) = .ok u ∧
    cacheFind siteA.site u.cache = some u.weather ∧ loadWeather textLibrary emptyFiles u = .ok u1 ∧
    loadWeatherBlock textLibrary 8760 siteA.array u1 = .ok u2 := by
  have hp := textLibrary_prints.1
  have hA : siteA.site.1 ≠ .nan ∧ siteA.site.2 ≠ .nan := ⟨siteA.lat_number, siteA.lon_number⟩
  have hw : ∀ e : EpwData Dbl, ∃ w, toWeather (loadFile textLibrary.atof (some (Spec.Epw.file [Spec.Epw.line [[]]])) e) = some w := by
    intro e
    obtain ⟨-, -, h1, h2, h3⟩ := C14_header textLibrary.atof [[]] (by simp) (by simp) [] (by decide) e
    have h4 := C16_length textLibrary.atof (some (Spec.Epw.file [Spec.Epw.line [[]]])) e
    have h5 : cint (textLibrary.atof (Spec.Epw.field [[]] 9)) = some 1 := by
      show cintR 1 = some 1
      simp [cintR, truncR]
    rw [h5] at h3
    generalize loadFile textLibrary.atof (some (Spec.Epw.file [Spec.Epw.line [[]]])) e = e' at h1 h2 h3 h4
    unfold toWeather
    rw [h1, h2, h3]
    simp only
    rw [dif_pos h4]
    exact ⟨_, rfl⟩
  obtain ⟨u, h0, h1, h2⟩ : ∃ u, loadWeatherBlock textLibrary 8760 siteA.array (newUserModel junk) = .ok u ∧
      u.weather < u.heap.length ∧ cacheFind siteA.site u.cache = some u.weather := by
    refine ⟨_, block_new textLibrary hp siteA (newUserModel junk) rfl, ?_, ?_⟩
    · show 1 < [_, _].length
      rw [List.length_cons, List.length_singleton]; omega
    · show cacheFind siteA.site [(siteA.site, _)] = _
      rw [cacheFind, if_pos ((same_iff _ _ hA hA).mpr rfl)]
  obtain ⟨w, hw⟩ := hw u.edata
  obtain ⟨u1, h3, h4⟩ : ∃ u1, loadWeather textLibrary emptyFiles u = .ok u1 ∧ u1.cache = u.cache := by
    have hf : weatherFile emptyFiles u = (u.params.weatherFilePath, true) := rfl
    unfold loadWeather
    rw [hf]
    simp only [if_true]
    rw [fill_some textLibrary hp _ w hw]
    exact ⟨_, rfl, rfl⟩
  exact ⟨u, u1, _, h1, h0, h2, h3, block_old textLibrary siteA u1 u.weather (by rw [h4]; exact h2)⟩

/-- a load that fails half way: the second parameter of the table is missing from the file -/
example (u : UserModel Dbl) : load ⟨fun _ => .ok (fin 7), fun _ => fin 1, signText⟩
    ⟨fun _ => true, fun _ => some "terrainClass = 7\nfloorArea = 7\n".toList⟩ "office.ism".toList u =
    .throw (.parameter (.missing "buildingheight".toList))
      { u with dataFile := "office.ism".toList, valid := some true, params := { u.params with terrain := fin 7 } } := rfl

end ISO.Props
