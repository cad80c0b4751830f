import Verif.Model.Config
import Verif.Props.MakerLayout
import Verif.Props.Completion
import Verif.Props.Photometry
import Verif.Props.Parallel

/-!
# Configuration (C68), allowed mask bits (C69), parallel work (C70) and colours (C71)
-/

namespace Meds.Config
open Spec Maker

/-! ### Dictionaries -/

theorem get?_eq_lookup (d : Dict) (k : String) : Dict.get? d k = d.lookup k := by
  induction d with
  | nil => rfl
  | cons e d ih =>
    obtain ⟨k', v⟩ := e
    by_cases h : k' = k
    · subst h
      simp [Dict.get?, List.lookup]
    · have h' : (k == k') = false := by simpa using fun e => h e.symm
      simp [Dict.get?, List.lookup, h, h', ih]

theorem get?_set (d : Dict) (k k' : String) (v : Val) : Dict.get? (Dict.set d k v) k' = if k = k' then some v else Dict.get? d k' := by
  induction d with
  | nil => simp [Dict.set, Dict.get?]
  | cons e d ih =>
    obtain ⟨a, b⟩ := e
    by_cases h : a = k
    · subst h
      by_cases h2 : a = k'
      · simp [Dict.set, Dict.get?, h2]
      · simp [Dict.set, Dict.get?, h2]
    · by_cases h2 : a = k'
      · subst h2
        have : ¬ k = a := fun e => h e.symm
        simp [Dict.set, Dict.get?, h, this]
      · simp [Dict.set, Dict.get?, h, h2, ih]

theorem get?_none {d : Dict} {k : String} (h : k ∉ d.map Prod.fst) : Dict.get? d k = none := by
  induction d with
  | nil => rfl
  | cons e d ih =>
    obtain ⟨a, b⟩ := e
    simp only [List.map_cons, List.mem_cons, not_or] at h
    have h1 : ¬ a = k := fun e => h.1 e.symm
    simp [Dict.get?, h1, ih h.2]

theorem get?_update (d u : Dict) (hu : (u.map Prod.fst).Nodup) (k : String) :
    Dict.get? (Dict.update d u) k = (Dict.get? u k).or (Dict.get? d k) := by
  induction u generalizing d with
  | nil => simp [Dict.update, Dict.get?]
  | cons e u ih =>
    obtain ⟨a, b⟩ := e
    simp only [List.map_cons, List.nodup_cons] at hu
    rw [Dict.update, ih _ hu.2, get?_set]
    by_cases h : a = k
    · subst h
      rw [get?_none hu.1]
      simp [Dict.get?]
    · simp [Dict.get?, h]

/-- Entries computed by the maker itself: the normalised cutout types, the allowed bits and the fixed extension names. -/
def _root_.Meds.Spec.managed : List String :=
  ["cutout_types", "bitmask_allowed", "bitmask_allowed_inv", "object_data_extname", "image_info_extname", "metadata_extname",
   "image_cutout_extname", "weight_cutout_extname", "seg_cutout_extname", "bmask_cutout_extname", "ormask_cutout_extname",
   "noise_cutout_extname"]

/-- The user's entries: none for `None`. -/
def _root_.Meds.Spec.userEntries : Val → List (String × Val)
  | .dict u => u
  | _ => []

theorem merged_get? {config : Val} (hu : ((userEntries config).map Prod.fst).Nodup) {d : Dict} (h : merged config = .ok d) (k : String) :
    Dict.get? d k = ((userEntries config).lookup k).or (defaultConfig.lookup k) := by
  have hd : (defaultConfig.map Prod.fst).Nodup := by decide
  cases config with
  | dict u =>
    simp only [merged, Except.ok.injEq] at h
    subst h
    rw [get?_update _ u hu, get?_update _ _ hd, get?_eq_lookup, get?_eq_lookup]
    simp [userEntries, Dict.get?]
  | none_ =>
    simp only [merged, Except.ok.injEq] at h
    subst h
    rw [get?_update _ _ hd, get?_eq_lookup]
    simp [userEntries, Dict.get?]
  | _ => simp [merged] at h

theorem derived_get? {d d' : Dict} (h : derived d = .ok d') {k : String} (h1 : k ≠ "cutout_types") (h2 : k ≠ "bitmask_allowed")
    (h3 : k ≠ "bitmask_allowed_inv") (h4 : k ≠ "psf" ∨ Dict.get? d "psf_type" = none) : Dict.get? d' k = Dict.get? d k := by
  unfold derived at h
  obtain ⟨req, _, h⟩ := Res.bind_eq_ok.mp h
  obtain ⟨req', _, h⟩ := Res.bind_eq_ok.mp h
  obtain ⟨types, _, h⟩ := Res.bind_eq_ok.mp h
  obtain ⟨al, _, h⟩ := Res.bind_eq_ok.mp h
  obtain ⟨al', _, h⟩ := Res.bind_eq_ok.mp h
  have e1 : ¬ "cutout_types" = k := fun e => h1 e.symm
  have e2 : ¬ "bitmask_allowed" = k := fun e => h2 e.symm
  have e3 : ¬ "bitmask_allowed_inv" = k := fun e => h3 e.symm
  have hs : ∀ s, s ≠ "cutout_types" → s ≠ "bitmask_allowed" → s ≠ "bitmask_allowed_inv" →
      Dict.get? (Dict.set (Dict.set (Dict.set d "cutout_types" (.list types)) "bitmask_allowed" (.int al')) "bitmask_allowed_inv"
        (.int (2 ^ 32 - 1 - al'))) s = Dict.get? d s := by
    intro s a b c
    rw [get?_set, get?_set, get?_set, if_neg (fun e => c e.symm), if_neg (fun e => b e.symm), if_neg (fun e => a e.symm)]
  dsimp only at h
  rw [hs "psf_type" (by decide) (by decide) (by decide)] at h
  split at h
  · injection h with h
    rename_i t ht
    subst h
    rcases h4 with h4 | h4
    · rw [get?_set, if_neg (fun e => h4 e.symm), hs k h1 h2 h3]
    · rw [ht] at h4; cases h4
  · injection h with h
    subst h
    exact hs k h1 h2 h3

theorem load_parts {config : Val} {l : Loaded} (h : load config = .ok l) :
    ∃ d d', merged config = .ok d ∧ derived d = .ok d' ∧ l.d = Dict.update d' extraConfig ∧
      (l.useJoblib = true ↔ (∃ v, Dict.get? d' "joblib" = some v) ∨
        ∃ v, Dict.get? d' "joblib" = none ∧ Dict.get? d' "use_joblib" = some v ∧ v.truthy = true) := by
  unfold load at h
  obtain ⟨d, hd, h⟩ := Res.bind_eq_ok.mp h
  obtain ⟨d', hd', h⟩ := Res.bind_eq_ok.mp h
  obtain ⟨jl, _, h⟩ := Res.bind_eq_ok.mp h
  injection h with h
  subst h
  refine ⟨d, d', hd, hd', rfl, ?_⟩
  dsimp only
  cases hj : Dict.get? d' "joblib" with
  | some v => simp
  | none =>
    cases hq : Dict.get? d' "use_joblib" with
    | some v => simp [getOr, hq]
    | none => simp [getOr, hq, Val.truthy]

theorem get?_extra {d : Dict} {k : String} (h : k ∉ managed) : Dict.get? (Dict.update d extraConfig) k = Dict.get? d k := by
  rw [get?_update _ _ (by decide)]
  have : Dict.get? extraConfig k = none := by
    apply get?_none
    intro hk
    apply h
    revert hk
    simp only [extraConfig, managed, List.map_cons, List.map_nil, List.mem_cons, List.not_mem_nil, or_false]
    tauto
  rw [this]
  rfl

/-! ### C68 -/

/-- **C68** (as far as it holds) Apart from the entries the maker computes itself, every entry has the user's value if there is one and the default otherwise
(`psf` only if the old `psf_type` is not given). -/
theorem C68_settings_partial {config : Val} (hu : ((userEntries config).map Prod.fst).Nodup) {l : Loaded} (h : load config = .ok l)
    {k : String} (hk : k ∉ managed) (hp : k = "psf" → (userEntries config).lookup "psf_type" = none) :
    l.d.lookup k = ((userEntries config).lookup k).or (defaultConfig.lookup k) := by
  obtain ⟨d, d', h1, h2, h3, _⟩ := load_parts h
  rw [← get?_eq_lookup, h3, get?_extra hk]
  have hk' := hk
  simp only [managed, List.mem_cons, List.not_mem_nil, or_false, not_or] at hk'
  rw [derived_get? h2 hk'.1 hk'.2.1 hk'.2.2.1, merged_get? hu h1]
  by_cases hkp : k = "psf"
  · right
    rw [merged_get? hu h1, hp hkp]
    decide
  · left; exact hkp

theorem derived_types {d d' : Dict} (h : derived d = .ok d') :
    ∃ req types, Dict.get? d "cutout_types" = some (.list req) ∧ setCutoutTypes req = .ok types ∧
      Dict.get? d' "cutout_types" = some (.list types) := by
  unfold derived at h
  obtain ⟨req, hr, h⟩ := Res.bind_eq_ok.mp h
  obtain ⟨req', hr', h⟩ := Res.bind_eq_ok.mp h
  obtain ⟨types, ht, h⟩ := Res.bind_eq_ok.mp h
  obtain ⟨al, _, h⟩ := Res.bind_eq_ok.mp h
  obtain ⟨al', _, h⟩ := Res.bind_eq_ok.mp h
  have e : req = .list req' := by
    cases req <;> simp [asList] at hr'
    rw [hr']
  rw [e] at hr
  have hget : Dict.get? d "cutout_types" = some (.list req') := by
    unfold item at hr
    cases hg : Dict.get? d "cutout_types" with
    | none => rw [hg] at hr; cases hr
    | some v => rw [hg] at hr; injection hr with hr; rw [hr]
  refine ⟨req', types, hget, ht, ?_⟩
  dsimp only at h
  split at h <;> (injection h with h; subst h)
  · rw [get?_set, if_neg (by decide), get?_set, if_neg (by decide), get?_set, if_neg (by decide), get?_set, if_pos rfl]
  · rw [get?_set, if_neg (by decide), get?_set, if_neg (by decide), get?_set, if_pos rfl]

/-- **C68** The cutout types in force are the user's, normalised (see C54): "image" first, then the others in the given order. -/
theorem C68_cutout_types {config : Val} (hu : ((userEntries config).map Prod.fst).Nodup) {l : Loaded} (h : load config = .ok l) :
    ∃ req types, ((userEntries config).lookup "cutout_types").or (some (.list [])) = some (.list req) ∧ l.d.lookup "cutout_types" = some (.list types) ∧
      types.head? = some "image" ∧ types.filter (· ≠ "image") = req.filter (· ≠ "image") ∧
      ∀ t ∈ types, t ∈ (["image", "weight", "seg", "bmask", "ormask", "noise"] : List String) := by
  obtain ⟨d, d', h1, h2, h3, _⟩ := load_parts h
  obtain ⟨req, types, a, b, c⟩ := derived_types h2
  have := C54_types_normalised_partial b
  refine ⟨req, types, ?_, ?_, this.1, this.2.2.1, this.2.2.2.1⟩
  · rw [← a, merged_get? hu h1]
    rfl
  · rw [← get?_eq_lookup, h3, get?_update _ _ (by decide), c]
    rfl

/-- **C68** The extension names cannot be changed. -/
theorem C68_extension_names {config : Val} {l : Loaded} (h : load config = .ok l) :
    ∀ t ∈ ["image", "weight", "seg", "bmask", "ormask", "noise"],
      ∃ s, l.d.lookup (t ++ "_cutout_extname") = some (.str s) ∧ s = t ++ "_cutouts" := by
  obtain ⟨d, d', h1, h2, h3, _⟩ := load_parts h
  intro t ht
  refine ⟨_, ?_, rfl⟩
  rw [← get?_eq_lookup, h3, get?_update _ _ (by decide)]
  simp only [List.mem_cons, List.not_mem_nil, or_false] at ht
  rcases ht with rfl | rfl | rfl | rfl | rfl | rfl <;> rfl

/-- **C68** Anything but a dictionary or None is refused. -/
theorem C68_not_a_dict {config : Val} (h : ∀ u, config ≠ .dict u) (h' : config ≠ .none_) : load config = .error .runtimeError := by
  cases config with
  | dict u => exact absurd rfl (h u)
  | none_ => exact absurd rfl h'
  | _ => rfl

/-- A setting as the user sees it: the value given, or the default. -/
def _root_.Meds.Spec.setting (config : Val) (k : String) (dflt : Val) : Val := ((userEntries config).lookup k).getD dflt

theorem toCfg_parts {castOf : String → ℚ → ℚ} {d : Dict} {cfg : MakerCfg} (h : toCfg castOf d = .ok cfg) :
    ∃ first check force buffer types, Dict.get? d "first_image_is_coadd" = some first ∧ Dict.get? d "check_in_coadd" = some check ∧
      Dict.get? d "force_into_coadd_bounds" = some force ∧ Dict.get? d "coadd_bounds_buffer_rowcol" = some buffer ∧
      Dict.get? d "cutout_types" = some (.list types) ∧ cfg.firstImageIsCoadd = first.truthy ∧ cfg.checkInCoadd = check.truthy ∧
      cfg.forceIntoCoaddBounds = force.truthy ∧ asNum buffer = .ok cfg.coaddBuffer ∧ cfg.cutoutTypes = types ∧
      optInt d "ncutout_max" = .ok cfg.ncutoutMax ∧ optInt d "unusable_bmask" = .ok cfg.unusableBmask ∧
      cfg.trimToCoadd = (getOr d "trim_to_coadd" (.bool false)).truthy ∧ cfg.minWeightKey = (Dict.get? d "min_weight").isSome ∧
      cfg.cast = castFor castOf d := by
  have hi : ∀ k v, item d k = .ok v → Dict.get? d k = some v := by
    intro k v hk
    unfold item at hk
    cases hg : Dict.get? d k with
    | none => rw [hg] at hk; cases hk
    | some w => rw [hg] at hk; injection hk with hk; rw [hk]
  unfold toCfg at h
  obtain ⟨first, h1, h⟩ := Res.bind_eq_ok.mp h
  obtain ⟨check, h2, h⟩ := Res.bind_eq_ok.mp h
  obtain ⟨force, h3, h⟩ := Res.bind_eq_ok.mp h
  obtain ⟨buffer, h4, h⟩ := Res.bind_eq_ok.mp h
  obtain ⟨buf, h5, h⟩ := Res.bind_eq_ok.mp h
  obtain ⟨nmax, h6, h⟩ := Res.bind_eq_ok.mp h
  obtain ⟨types, h7, h⟩ := Res.bind_eq_ok.mp h
  obtain ⟨types', h8, h⟩ := Res.bind_eq_ok.mp h
  obtain ⟨unus, h9, h⟩ := Res.bind_eq_ok.mp h
  injection h with h
  subst h
  have e : types = .list types' := by
    cases types <;> simp [asList] at h8
    rw [h8]
  subst e
  exact ⟨first, check, force, buffer, types', hi _ _ h1, hi _ _ h2, hi _ _ h3, hi _ _ h4, hi _ _ h7, rfl, rfl, rfl, h5, rfl, h6, h9, rfl, rfl, rfl⟩

/-- The values that switch a setting off. -/
def _root_.Meds.Spec.Off (v : Val) : Prop :=
  v = .none_ ∨ v = .bool false ∨ v = .int 0 ∨ v = .float 0 ∨ v = .str "" ∨ v = .list [] ∨ v = .dict []

/-- **C68** A setting that is a switch is on unless it is None, False, zero or empty. -/
theorem C68_switch (v : Val) : v.truthy = true ↔ ¬ Spec.Off v := by
  unfold Spec.Off
  cases v <;> simp [Val.truthy]

example : (Val.str "no").truthy = true ∧ (Val.int 0).truthy = false ∧ Val.none_.truthy = false := by decide

/-- The number a setting stands for: an integer, a float, or a truth value counted as 1 or 0. -/
def _root_.Meds.Spec.IsNumber (v : Val) (q : ℚ) : Prop :=
  (∃ n : Int, v = .int n ∧ q = n) ∨ v = .float q ∨ (v = .bool true ∧ q = 1) ∨ (v = .bool false ∧ q = 0)

theorem isNumber_of_asNum {v : Val} {q : ℚ} (h : asNum v = .ok q) : Spec.IsNumber v q := by
  cases v with
  | int n => injection h with h; exact Or.inl ⟨n, rfl, h.symm⟩
  | float x => injection h with h; exact Or.inr (Or.inl (by rw [h]))
  | bool b =>
    injection h with h
    cases b
    · exact Or.inr (Or.inr (Or.inr ⟨rfl, by simpa using h.symm⟩))
    · exact Or.inr (Or.inr (Or.inl ⟨rfl, by simpa using h.symm⟩))
  | _ => cases h

theorem isNumber_of_asInt {v : Val} {n : Int} (h : asInt v = .ok n) : Spec.IsNumber v n := by
  cases v with
  | int m => injection h with h; exact Or.inl ⟨m, rfl, by rw [h]⟩
  | bool b =>
    injection h with h
    cases b
    · exact Or.inr (Or.inr (Or.inr ⟨rfl, by rw [← h]; norm_num⟩))
    · exact Or.inr (Or.inr (Or.inl ⟨rfl, by rw [← h]; norm_num⟩))
  | _ => cases h

/-- The pixel types that the documentation names for files where the configuration names none. -/
def _root_.Meds.Spec.documentedTypes : List (String × String) := [("image", "f4"), ("weight", "f4"), ("seg", "i4"), ("bmask", "i4"), ("ormask", "i4"), ("noise", "f4")]

/-- **C68** What the rest of the maker works with: each setting is the user's value or the documented default. -/
theorem C68_effect {config : Val} (hu : ((userEntries config).map Prod.fst).Nodup) {castOf : String → ℚ → ℚ} {l : Loaded} {cfg : MakerCfg}
    (h : load config = .ok l) (hc : toCfg castOf l.d = .ok cfg) :
    cfg.firstImageIsCoadd = (setting config "first_image_is_coadd" (.bool true)).truthy ∧
    cfg.checkInCoadd = (setting config "check_in_coadd" (.bool true)).truthy ∧
    cfg.forceIntoCoaddBounds = (setting config "force_into_coadd_bounds" (.bool true)).truthy ∧
    cfg.trimToCoadd = (setting config "trim_to_coadd" (.bool false)).truthy ∧
    Spec.IsNumber (setting config "coadd_bounds_buffer_rowcol" (.float (1 / 1000))) cfg.coaddBuffer ∧
    (cfg.ncutoutMax = none ↔ (userEntries config).lookup "ncutout_max" = none) ∧
    (∀ v, (userEntries config).lookup "ncutout_max" = some v → ∃ n : Int, Spec.IsNumber v n ∧ cfg.ncutoutMax = some n) ∧
    (cfg.unusableBmask = none ↔ (userEntries config).lookup "unusable_bmask" = none) ∧
    (∀ v, (userEntries config).lookup "unusable_bmask" = some v → ∃ n : Int, Spec.IsNumber v n ∧ cfg.unusableBmask = some n) ∧
    (cfg.minWeightKey = true ↔ ∃ v, (userEntries config).lookup "min_weight" = some v) ∧
    (∀ p ∈ Spec.documentedTypes, ∀ s, setting config (p.1 ++ "_dtype") (.str p.2) = .str s → cfg.cast p.1 = castOf s) := by
  have key : ∀ k, k ∉ managed → k ≠ "psf" → Dict.get? l.d k = ((userEntries config).lookup k).or (defaultConfig.lookup k) := by
    intro k hk hp
    rw [get?_eq_lookup]
    exact C68_settings_partial hu h hk (fun e => absurd e hp)
  obtain ⟨first, check, force, buffer, types, a1, a2, a3, a4, a5, b1, b2, b3, b4, b5, b6, b7, b8, b9, b10⟩ := toCfg_parts hc
  have viaDefault : ∀ k v, k ∉ managed → k ≠ "psf" → ∀ w, defaultConfig.lookup k = some w → Dict.get? l.d k = some v →
      v = setting config k w := by
    intro k v hk hp w hw hv
    rw [key k hk hp, hw] at hv
    unfold setting
    cases hl : (userEntries config).lookup k with
    | none => rw [hl] at hv; simpa using hv.symm
    | some x => rw [hl] at hv; simpa using hv.symm
  have noDefault : ∀ k, k ∉ managed → k ≠ "psf" → defaultConfig.lookup k = none → Dict.get? l.d k = (userEntries config).lookup k := by
    intro k hk hp hd
    rw [key k hk hp, hd]
    simp
  refine ⟨?_, ?_, ?_, ?_, ?_, ?_, ?_, ?_, ?_, ?_, ?_⟩
  · rw [b1, viaDefault _ _ (by decide) (by decide) _ rfl a1]
  · rw [b2, viaDefault _ _ (by decide) (by decide) _ rfl a2]
  · rw [b3, viaDefault _ _ (by decide) (by decide) _ rfl a3]
  · rw [b8, getOr, noDefault _ (by decide) (by decide) rfl]
    rfl
  · rw [← viaDefault _ _ (by decide) (by decide) _ rfl a4]
    exact isNumber_of_asNum b4
  · have := noDefault "ncutout_max" (by decide) (by decide) rfl
    rw [← this]
    unfold optInt at b6
    cases hg : Dict.get? l.d "ncutout_max" with
    | none => rw [hg] at b6; injection b6 with b6; simp [← b6]
    | some v =>
      rw [hg] at b6
      obtain ⟨n, _, b6⟩ := Res.bind_eq_ok.mp b6
      injection b6 with b6; simp [← b6]
  · intro v hv
    rw [optInt, noDefault "ncutout_max" (by decide) (by decide) rfl, hv] at b6
    obtain ⟨n, hn, b6⟩ := Res.bind_eq_ok.mp b6
    injection b6 with b6
    exact ⟨n, isNumber_of_asInt hn, b6.symm⟩
  · have := noDefault "unusable_bmask" (by decide) (by decide) rfl
    rw [← this]
    unfold optInt at b7
    cases hg : Dict.get? l.d "unusable_bmask" with
    | none => rw [hg] at b7; injection b7 with b7; simp [← b7]
    | some v =>
      rw [hg] at b7
      obtain ⟨n, _, b7⟩ := Res.bind_eq_ok.mp b7
      injection b7 with b7; simp [← b7]
  · intro v hv
    rw [optInt, noDefault "unusable_bmask" (by decide) (by decide) rfl, hv] at b7
    obtain ⟨n, hn, b7⟩ := Res.bind_eq_ok.mp b7
    injection b7 with b7
    exact ⟨n, isNumber_of_asInt hn, b7.symm⟩
  · rw [b9, noDefault "min_weight" (by decide) (by decide) rfl]
    exact Option.isSome_iff_exists
  · rintro ⟨t, dflt⟩ hp s hs
    have facts : t ++ "_dtype" ∉ managed ∧ t ++ "_dtype" ≠ "psf" ∧ t ≠ "psf" ∧ defaultConfig.lookup (t ++ "_dtype") = some (.str dflt) := by
      simp only [Spec.documentedTypes, List.mem_cons, List.not_mem_nil, or_false, Prod.mk.injEq] at hp
      rcases hp with ⟨rfl, rfl⟩ | ⟨rfl, rfl⟩ | ⟨rfl, rfl⟩ | ⟨rfl, rfl⟩ | ⟨rfl, rfl⟩ | ⟨rfl, rfl⟩ <;> exact ⟨by decide, by decide, by decide, rfl⟩
    obtain ⟨hm, hp2, hp, hd⟩ := facts
    dsimp only at hs ⊢
    rw [b10]
    unfold castFor
    rw [if_neg hp, key _ hm hp2, hd]
    unfold setting at hs
    cases hl : (userEntries config).lookup (t ++ "_dtype") with
    | none =>
      rw [hl] at hs
      simp only [Option.getD_none] at hs
      injection hs with hs
      subst hs
      rfl
    | some x =>
      rw [hl] at hs
      simp only [Option.getD_some] at hs
      rw [hs]
      rfl

/-- **C68** is false for `psf` when the old `psf_type` is given too: the user's entry is replaced, and with it the request to use colours. -/
theorem C68_counterexample :
    ∃ l, load (.dict [("psf", .dict [("se", .dict [("use_color", .bool true)])]), ("psf_type", .str "psfex")]) = .ok l ∧
      psfUsesColor l.d 1 = .ok false ∧
      ∃ l', load (.dict [("psf", .dict [("se", .dict [("use_color", .bool true)])])]) = .ok l' ∧ psfUsesColor l'.d 1 = .ok true :=
  ⟨_, rfl, rfl, _, rfl, rfl⟩

example : ∃ l, load (.dict [("check_in_coadd", .bool false), ("cutout_types", .list ["weight"]), ("image_cutout_extname", .str "x")]) = .ok l ∧
    l.d.lookup "check_in_coadd" = some (.bool false) ∧ l.d.lookup "first_image_is_coadd" = some (.bool true) ∧
    l.d.lookup "cutout_types" = some (.list ["image", "weight"]) ∧ l.d.lookup "image_cutout_extname" = some (.str "image_cutouts") :=
  ⟨_, rfl, rfl, rfl, rfl, rfl⟩

/-! ### C69 -/

/-- Two dictionaries that agree apart from the allowed bits. -/
def Agree (d d' : Dict) : Prop := ∀ k, k ≠ "bitmask_allowed" → k ≠ "bitmask_allowed_inv" → Dict.get? d k = Dict.get? d' k

theorem Agree.set {d d' : Dict} (h : Agree d d') (k : String) (v : Val) : Agree (Dict.set d k v) (Dict.set d' k v) := by
  intro k' h1 h2
  rw [get?_set, get?_set, h k' h1 h2]

theorem Agree.set_inv {d d' : Dict} (h : Agree d d') {k : String} (hk : k = "bitmask_allowed" ∨ k = "bitmask_allowed_inv") (v w : Val) :
    Agree (Dict.set d k v) (Dict.set d' k w) := by
  intro k' h1 h2
  have : ¬ k = k' := by rintro rfl; rcases hk with hk | hk <;> contradiction
  rw [get?_set, get?_set, h k' h1 h2, if_neg this, if_neg this]

theorem Agree.update {d d' : Dict} (h : Agree d d') (u : Dict) : Agree (Dict.update d u) (Dict.update d' u) := by
  induction u generalizing d d' with
  | nil => exact h
  | cons e u ih => exact ih (h.set e.1 e.2)

theorem Agree.derived {d d' : Dict} (h : Agree d d') {n n' : Int} (hn : Dict.get? d "bitmask_allowed" = some (.int n))
    (hn' : Dict.get? d' "bitmask_allowed" = some (.int n')) (h1 : 0 ≤ n ∧ n < 2 ^ 32) (h2 : 0 ≤ n' ∧ n' < 2 ^ 32) :
    (∃ e, derived d = .error e ∧ derived d' = .error e) ∨ ∃ x y, derived d = .ok x ∧ derived d' = .ok y ∧ Agree x y := by
  have hi : item d "cutout_types" = item d' "cutout_types" := by
    unfold item; rw [h _ (by decide) (by decide)]
  unfold Config.derived
  rw [← hi]
  cases item d "cutout_types" with
  | error e => exact .inl ⟨e, rfl, rfl⟩
  | ok v =>
    simp only [Res.ok_bind]
    cases asList v with
    | error e => exact .inl ⟨e, rfl, rfl⟩
    | ok req =>
      simp only [Res.ok_bind]
      cases setCutoutTypes req with
      | error e => exact .inl ⟨e, rfl, rfl⟩
      | ok types =>
        right
        have ht := h.set "cutout_types" (.list types)
        have g1 : item (Dict.set d "cutout_types" (.list types)) "bitmask_allowed" = .ok (.int n) := by
          unfold item; rw [get?_set, if_neg (by decide), hn]
        have g2 : item (Dict.set d' "cutout_types" (.list types)) "bitmask_allowed" = .ok (.int n') := by
          unfold item; rw [get?_set, if_neg (by decide), hn']
        simp only [Res.ok_bind, g1, g2, asU4, if_pos h1, if_pos h2]
        have hA := ((ht.set_inv (.inl rfl) (.int n) (.int n')).set_inv (k := "bitmask_allowed_inv") (.inr rfl) (.int (2 ^ 32 - 1 - n))
          (.int (2 ^ 32 - 1 - n')))
        rw [← hA "psf_type" (by decide) (by decide)]
        split
        · exact ⟨_, _, rfl, rfl, hA.set _ _⟩
        · exact ⟨_, _, rfl, rfl, hA⟩

theorem dtype_key (t : String) : t ++ "_dtype" ≠ "bitmask_allowed" ∧ t ++ "_dtype" ≠ "bitmask_allowed_inv" := by
  have key : ∀ s : String, t ++ "_dtype" = s → s.toList.getLast? = some 'e' := by
    rintro s rfl
    rw [String.toList_append]
    rw [List.getLast?_append]
    rfl
  constructor
  · intro h; exact absurd (key _ h) (by decide)
  · intro h; exact absurd (key _ h) (by decide)

theorem Agree.toCfg {d d' : Dict} (h : Agree d d') (castOf : String → ℚ → ℚ) : toCfg castOf d = toCfg castOf d' := by
  have hi : ∀ k, k ≠ "bitmask_allowed" → k ≠ "bitmask_allowed_inv" → item d k = item d' k := by
    intro k a b; unfold item; rw [h k a b]
  have ho : ∀ k, k ≠ "bitmask_allowed" → k ≠ "bitmask_allowed_inv" → optInt d k = optInt d' k := by
    intro k a b; unfold optInt; rw [h k a b]
  have hc : castFor castOf d = castFor castOf d' := by
    funext t
    unfold castFor
    rw [h _ (dtype_key t).1 (dtype_key t).2]
  unfold Config.toCfg
  rw [hi "first_image_is_coadd" (by decide) (by decide), hi "check_in_coadd" (by decide) (by decide),
    hi "force_into_coadd_bounds" (by decide) (by decide), hi "coadd_bounds_buffer_rowcol" (by decide) (by decide),
    ho "ncutout_max" (by decide) (by decide), hi "cutout_types" (by decide) (by decide), ho "unusable_bmask" (by decide) (by decide), hc,
    h "min_weight" (by decide) (by decide)]
  unfold getOr
  rw [h "trim_to_coadd" (by decide) (by decide)]

theorem Agree.section_ {d d' : Dict} (h : Agree d d') {k : String} (a : k ≠ "bitmask_allowed") (b : k ≠ "bitmask_allowed_inv") :
    section_ d k = section_ d' k := by
  unfold Config.section_; rw [h k a b]

theorem Agree.item {d d' : Dict} (h : Agree d d') {k : String} (a : k ≠ "bitmask_allowed") (b : k ≠ "bitmask_allowed_inv") :
    item d k = item d' k := by
  unfold Config.item; rw [h k a b]

theorem Agree.callImage {d d' : Dict} (h : Agree d d') : callImage d = callImage d' := by
  funext fi
  unfold Config.callImage wcsUsesColor
  rw [h.item (by decide) (by decide), h.section_ (k := "coadd_astrom") (by decide) (by decide),
    h.section_ (k := "se_astrom") (by decide) (by decide)]

theorem Agree.callPsfModel {d d' : Dict} (h : Agree d d') : callPsfModel d = callPsfModel d' := by
  funext fi
  unfold Config.callPsfModel psfUsesColor
  rw [h.item (by decide) (by decide), h.section_ (k := "psf") (by decide) (by decide)]

theorem Agree.load {config config' : Val} {n n' : Int} {d d' : Dict} (hm : merged config = .ok d) (hm' : merged config' = .ok d') (h : Agree d d')
    (hn : Dict.get? d "bitmask_allowed" = some (.int n)) (hn' : Dict.get? d' "bitmask_allowed" = some (.int n'))
    (h1 : 0 ≤ n ∧ n < 2 ^ 32) (h2 : 0 ≤ n' ∧ n' < 2 ^ 32) :
    (∃ e, load config = .error e ∧ load config' = .error e) ∨ ∃ x y, load config = .ok x ∧ load config' = .ok y ∧ Agree x.d y.d := by
  unfold Config.load
  rw [hm, hm']
  simp only [Res.ok_bind]
  rcases h.derived hn hn' h1 h2 with ⟨e, a, b⟩ | ⟨x, y, a, b, hA⟩
  · left; rw [a, b]; exact ⟨e, rfl, rfl⟩
  · rw [a, b]
    simp only [Res.ok_bind]
    rw [← hA.section_ (k := "joblib") (by decide) (by decide)]
    cases Config.section_ x "joblib" with
    | error e => exact .inl ⟨e, rfl, rfl⟩
    | ok s => exact .inr ⟨_, _, rfl, rfl, hA.update _⟩

/-- **C69** is false: the entry `bitmask_allowed` has no effect at all.  Makers configured with different allowed bits cannot be told apart, so they write the
same file. -/
theorem C69_no_effect {u : List (String × Val)} (hu : (u.map Prod.fst).Nodup) (hb : "bitmask_allowed" ∉ u.map Prod.fst) {n n' : Int}
    (h1 : 0 ≤ n ∧ n < 2 ^ 32) (h2 : 0 ≤ n' ∧ n' < 2 ^ 32) (castOf : String → ℚ → ℚ) (hn : Bool) (objs : List InputObj) (images : List RawImage)
    (psf : Option (List RawPsf)) (psfInfo : Option String) (md : String) :
    construct castOf (.dict (("bitmask_allowed", .int n) :: u)) hn objs images psf psfInfo md =
      construct castOf (.dict (("bitmask_allowed", .int n') :: u)) hn objs images psf psfInfo md := by
  have hd : (defaultConfig.map Prod.fst).Nodup := by decide
  have nod : ∀ v : Val, (((("bitmask_allowed", v) :: u).map Prod.fst)).Nodup := by
    intro v; simpa using ⟨by simpa using hb, hu⟩
  have hA : Agree (Dict.update (Dict.update [] defaultConfig) (("bitmask_allowed", .int n) :: u))
      (Dict.update (Dict.update [] defaultConfig) (("bitmask_allowed", .int n') :: u)) := by
    intro k a b
    rw [get?_update _ _ (nod _), get?_update _ _ (nod _)]
    have : ¬ "bitmask_allowed" = k := fun e => a e.symm
    simp [Dict.get?, this]
  have g : ∀ v : Val, Dict.get? (Dict.update (Dict.update [] defaultConfig) (("bitmask_allowed", v) :: u)) "bitmask_allowed" = some v := by
    intro v
    rw [get?_update _ _ (nod _)]
    simp [Dict.get?]
  unfold construct
  rcases Agree.load (config := .dict (_ :: u)) (config' := .dict (_ :: u)) rfl rfl hA (g _) (g _) h1 h2 with ⟨e, a, b⟩ | ⟨x, y, a, b, h⟩
  · rw [a, b]
  · rw [a, b]
    simp only [Res.ok_bind]
    rw [h.toCfg, h.callImage]
    have hp : callPsfs x.d psf = callPsfs y.d psf := by
      unfold callPsfs; rw [h.callPsfModel]
    have he : psfEntry x.d psf = psfEntry y.d psf := by
      unfold psfEntry; rw [h "psf" (by decide) (by decide)]
    rw [hp, he]

/-- Example images: as in `Ex.images`, positions and jacobians depend on the colour. -/
def exWcs (n : Nat) (dx : ℚ) : RawWcs :=
  { ncol := n, nrow := n,
    sky2image := fun ra dec c => (ra - dx + (match c with | some (some v) => v | _ => 0), dec),
    jacobian := fun x y c => (1, x / 10, y / 10, match c with | some (some v) => v | _ => 1), rough := fun _ _ => true }

def exImage (n : Nat) (dx base scale : ℚ) : RawImage :=
  { wcs := exWcs n dx, info := (Ex.src n dx base scale).info, plane := (Ex.src n dx base scale).plane }

def exPsf : RawPsf :=
  { getRec := fun r _ c => Img.ofFn 2 2 (fun i j => r + i + 2 * j + (match c with | some (some v) => 100 * v | _ => 0)), recShape := none,
    center := fun _ _ => (1, 1) }

/-- Construct, write, open and test. -/
def exCheck (config : Val) (objs : List InputObj) (psf : Option (List RawPsf)) (test : MEDS → Bool) : Bool :=
  match construct (fun _ q => q) config true objs [exImage 6 0 100 1, exImage 6 (1 / 2) 200 2] psf none "meta" with
  | .ok k =>
    match k.write with
    | .ok r =>
      match MEDS.openFile r.2 with
      | .ok m => test m
      | .error _ => false
    | .error _ => false
  | .error _ => false

/-- **C69** Concretely: no bit is allowed, the mask of the cutout has bits everywhere but in one pixel, and no weight is zero. -/
theorem C69_counterexample :
    exCheck (.dict [("bitmask_allowed", .int 0), ("cutout_types", .list ["weight", "bmask"])]) [Ex.obj 1 2 3 3] none
      (fun m => decide (m.getCutout 0 0 "bmask" = .ok ⟨2, 2, [4, 5, 5, 6]⟩) && decide (m.getCutout 0 0 "weight" = .ok ⟨2, 2, [4, 4, 4, 4]⟩)) = true := by
  decide +kernel

/-- **C69** (what remains) The other entry, `unusable_bmask`, does the job when it is the complement of the allowed bits: weights are zero wherever the
mask has a bit that is not allowed. -/
theorem C69_unusable_partial {config : Val} (hu : ((userEntries config).map Prod.fst).Nodup) {castOf : String → ℚ → ℚ} {l : Loaded} {cfg : MakerCfg}
    (h : load config = .ok l) (hc : toCfg castOf l.d = .ok cfg) {allowed : Nat} (ha : allowed < 2 ^ 32)
    (hk : (userEntries config).lookup "unusable_bmask" = some (.int (2 ^ 32 - 1 - allowed))) {im : SrcImage} {y : Img ℚ}
    (hr : readImage cfg im "weight" = .ok (some y)) (hwf : ∀ t p, im.plane t = some (some p) → p.WF) {bm raw : Img ℚ}
    (hbm : im.plane "bmask" = some (some bm)) (hraw : im.plane "weight" = some (some raw)) {i j : Nat} {v : ℚ} (hv : raw.get? i j = some v)
    {b : Nat} (hb : bm.get? i j = some (b : ℚ)) (hb32 : b < 2 ^ 32) (hbit : ∃ n, b.testBit n = true ∧ allowed.testBit n = false) :
    y.get? i j = some 0 := by
  obtain ⟨raw', h1, _, _, h4⟩ := C10_weight_scaled hr hwf
  rw [hraw] at h1
  injection h1 with h1
  injection h1 with h1
  subst h1
  have hfl : cfg.unusableBmask = some ((2 : Int) ^ 32 - 1 - (allowed : Int)) := by
    obtain ⟨n, hn, e⟩ := (C68_effect hu h hc).2.2.2.2.2.2.2.2.1 _ hk
    rcases hn with ⟨m, hm, e'⟩ | hm | hm | hm
    · injection hm with hm
      rw [e, hm]
      congr 1
      exact_mod_cast e'
    · cases hm
    · cases hm.1
    · cases hm.1
  refine (((h4 i j v hv).2 _ hfl).2.1 bm hbm (b : Int) (by rw [hb]; norm_cast)).1 ?_
  obtain ⟨n, hn1, hn2⟩ := hbit
  refine ⟨n, by simpa [Int.testBit] using hn1, ?_⟩
  have hlt : n < 32 := by
    by_contra hge
    have : b < 2 ^ n := lt_of_lt_of_le hb32 (Nat.pow_le_pow_right (by omega) (by omega))
    rw [Nat.testBit_lt_two_pow this] at hn1
    cases hn1
  have e : ((2 : Int) ^ 32 - 1 - allowed) = ((2 ^ 32 - (allowed + 1) : Nat) : Int) := by omega
  rw [e]
  show Nat.testBit (2 ^ 32 - (allowed + 1)) n = true
  rw [Nat.testBit_two_pow_sub_succ ha]
  simp [hlt, hn2]

example : ∃ l cfg, load (.dict [("unusable_bmask", .int (2 ^ 32 - 1 - (4 : Nat))), ("cutout_types", .list ["weight"])]) = .ok l ∧
    toCfg (fun _ q => q) l.d = .ok cfg ∧ cfg.unusableBmask = some (2 ^ 32 - 1 - 4) := ⟨_, _, rfl, rfl, rfl⟩

/-! ### C70 -/

/-- **C70** (as far as it holds) Work is done in parallel exactly when the configuration has a `joblib` entry or a true `use_joblib`. -/
theorem C70_when_parallel_partial {config : Val} (hu : ((userEntries config).map Prod.fst).Nodup) {l : Loaded} (h : load config = .ok l) :
    l.useJoblib = true ↔ (∃ v, (userEntries config).lookup "joblib" = some v) ∨
      ∃ v, (userEntries config).lookup "use_joblib" = some v ∧ v.truthy = true := by
  obtain ⟨d, d', h1, h2, _, h4⟩ := load_parts h
  have e : ∀ k, k = "joblib" ∨ k = "use_joblib" → Dict.get? d' k = (userEntries config).lookup k := by
    intro k hk
    have hd : defaultConfig.lookup k = none := by rcases hk with rfl | rfl <;> rfl
    rw [derived_get? h2 (by rcases hk with rfl | rfl <;> decide) (by rcases hk with rfl | rfl <;> decide)
      (by rcases hk with rfl | rfl <;> decide) (.inl (by rcases hk with rfl | rfl <;> decide)), merged_get? hu h1, hd]
    simp
  rw [h4, e _ (.inl rfl), e _ (.inr rfl)]
  constructor
  · rintro (h | ⟨v, _, hv⟩)
    · exact .inl h
    · exact .inr ⟨v, hv⟩
  · rintro (h | ⟨v, hv⟩)
    · exact .inl h
    · cases hj : (userEntries config).lookup "joblib" with
      | some w => exact .inl ⟨w, rfl⟩
      | none => exact .inr ⟨v, rfl, hv⟩

/-- **C70** is false when both are given: `use_joblib = False` does not turn the parallel work off. -/
theorem C70_counterexample :
    ∃ l, load (.dict [("use_joblib", .bool false), ("joblib", .dict [("backend", .str "loky")])]) = .ok l ∧ l.useJoblib = true :=
  ⟨_, rfl, rfl⟩

/-- **C70** The other settings of the parallel work: the backend and the largest number of workers are those of the `joblib` entry, or "multiprocessing" and -1 (no limit).
The number of threads inside a worker is limited, to one, exactly with the backend "loky". -/
theorem C70_settings {config : Val} (hu : ((userEntries config).map Prod.fst).Nodup) {l : Loaded} (h : load config = .ok l) :
    ∃ s : List (String × Val), (((userEntries config).lookup "joblib" = none ∧ s = []) ∨ (userEntries config).lookup "joblib" = some (.dict s)) ∧
      l.backend = (s.lookup "backend").getD (.str "multiprocessing") ∧ l.maxWorkers = (s.lookup "max_workers").getD (.int (-1)) ∧
      (l.backend = .str "loky" → l.threads = some 1) ∧ (l.backend ≠ .str "loky" → l.threads = none) := by
  unfold load at h
  obtain ⟨d, h1, h⟩ := Res.bind_eq_ok.mp h
  obtain ⟨d', h2, h⟩ := Res.bind_eq_ok.mp h
  obtain ⟨jl, h3, h⟩ := Res.bind_eq_ok.mp h
  injection h with h
  subst h
  have e : Dict.get? d' "joblib" = (userEntries config).lookup "joblib" := by
    rw [derived_get? h2 (by decide) (by decide) (by decide) (.inl (by decide)), merged_get? hu h1, show defaultConfig.lookup "joblib" = none from rfl]
    simp
  refine ⟨jl, ?_, ?_, ?_, ?_, ?_⟩
  · unfold section_ at h3
    rw [e] at h3
    split at h3
    · rename_i hn
      injection h3 with h3
      exact .inl ⟨hn, h3.symm⟩
    · rename_i s hs
      injection h3 with h3
      exact .inr (h3 ▸ hs)
    · cases h3
  · simp only [getOr, get?_eq_lookup]
  · simp only [getOr, get?_eq_lookup]
  · intro hb
    dsimp only at hb ⊢
    rw [hb]
    rfl
  · intro hb
    dsimp only at hb ⊢
    rw [if_neg]
    intro hl
    apply hb
    revert hl
    generalize getOr jl "backend" (.str "multiprocessing") = v
    cases v <;> simp [isLoky]

/-- **C70** A `joblib` entry that is no dictionary is refused. -/
theorem C70_no_dict {config : Val} (hu : ((userEntries config).map Prod.fst).Nodup) {v : Val} (hv : (userEntries config).lookup "joblib" = some v)
    (hd : ∀ s, v ≠ .dict s) (l : Loaded) : load config ≠ .ok l := by
  intro h
  obtain ⟨s, hs | hs, _⟩ := C70_settings hu h
  · rw [hv] at hs; cases hs.1
  · rw [hv] at hs; injection hs with hs; exact hd s hs

example : ∃ l, load (.dict [("joblib", .dict [("backend", .str "loky"), ("max_workers", .int 3)])]) = .ok l ∧ l.maxWorkers = .int 3 ∧ l.threads = some 1 :=
  ⟨_, rfl, rfl, rfl⟩

/-- **C70** The stored PSFs do not depend on it. -/
theorem C70_same_psfs (useJoblib : Bool) (mk : Maker) (psf : List PsfModel) (buf buf' : List ℚ) :
    writePsf useJoblib mk psf buf = .ok buf' ↔ writePsf false mk psf buf = .ok buf' := by
  cases useJoblib with
  | false => rfl
  | true => exact C12_joblib_equals_serial_2000 mk psf buf buf'

/-- **C70** Neither do the positions, on any machine and with any number of workers. -/
theorem C70_same_positions (useJoblib : Bool) (maxWorkers : Int) {cpus : Nat} (hc : 0 < cpus) (f : SkyPos → ℚ × ℚ) (sky : List SkyPos) :
    doSky2image useJoblib (nJobs maxWorkers cpus) (List.map f) sky = .ok (sky.map f) := by
  refine C13_parallel_positions ?_ useJoblib f sky
  unfold nJobs
  split <;> omega

/-- **C70** The number of workers: never more than the machine has, nor more than the configured maximum if there is one; and no fewer than these allow. -/
theorem C70_workers (maxWorkers : Int) (cpus : Nat) : nJobs maxWorkers cpus ≤ cpus ∧ (0 < maxWorkers → (nJobs maxWorkers cpus : Int) ≤ maxWorkers) ∧
    ∀ n : Nat, n ≤ cpus → (0 < maxWorkers → (n : Int) ≤ maxWorkers) → n ≤ nJobs maxWorkers cpus := by
  unfold nJobs
  split <;> refine ⟨?_, ?_, ?_⟩ <;> intros <;> omega

example : nJobs 3 8 = 3 ∧ nJobs 3 2 = 2 ∧ nJobs (-1) 8 = 8 := by decide

/-! ### C71 -/

/-- Is the colour asked for, for image `j`?  The first image, if it is the coadd, has a section of its own. -/
def _root_.Meds.Spec.asksColour (config : Val) (entries : List (String × Val)) (coaddSection seSection : String) (j : Nat) : Bool :=
  let name := if j = 0 ∧ (setting config "first_image_is_coadd" (.bool true)).truthy = true then coaddSection else seSection
  match entries.lookup name with
  | some (.dict s) => ((s.lookup "use_color").getD (.bool false)).truthy
  | _ => false

theorem construct_parts {castOf : String → ℚ → ℚ} {config : Val} {hn : Bool} {objs : List InputObj} {images : List RawImage}
    {psf : Option (List RawPsf)} {psfInfo : Option String} {md : String} {mk : Maker}
    (h : construct castOf config hn objs images psf psfInfo md = .ok mk) :
    ∃ l cfg ims ps, load config = .ok l ∧ toCfg castOf l.d = .ok cfg ∧ mapRes (callImage l.d) (numbered images) = .ok ims ∧
      callPsfs l.d psf = .ok ps ∧ Maker.init cfg hn objs ims ps psfInfo md = .ok mk ∧ psfEntry l.d psf = .ok () := by
  unfold construct at h
  obtain ⟨l, h1, h⟩ := Res.bind_eq_ok.mp h
  obtain ⟨cfg, h2, h⟩ := Res.bind_eq_ok.mp h
  obtain ⟨ims, h3, h⟩ := Res.bind_eq_ok.mp h
  obtain ⟨ps, h4, h⟩ := Res.bind_eq_ok.mp h
  obtain ⟨mk', h5, h⟩ := Res.bind_eq_ok.mp h
  obtain ⟨⟨⟩, h6, h⟩ := Res.bind_eq_ok.mp h
  injection h with h
  subst h
  exact ⟨l, cfg, ims, ps, h1, h2, h3, h4, h5, h6⟩

theorem numbered_getElem? {α : Type} {l : List α} {j : Nat} {x : Nat × α} (h : (numbered l)[j]? = some x) : x.1 = j ∧ l[j]? = some x.2 := by
  unfold numbered at h
  rw [List.getElem?_zip_eq_some] at h
  obtain ⟨h1, h2⟩ := h
  refine ⟨?_, h2⟩
  have := List.getElem?_eq_some_iff.mp h1
  obtain ⟨_, h3⟩ := this
  simpa using h3.symm

theorem firstCoadd {config : Val} (hu : ((userEntries config).map Prod.fst).Nodup) {l : Loaded} (h : load config = .ok l) :
    item l.d "first_image_is_coadd" = .ok (setting config "first_image_is_coadd" (.bool true)) := by
  have := C68_settings_partial hu h (k := "first_image_is_coadd") (by decide) (fun e => absurd e (by decide))
  rw [← get?_eq_lookup] at this
  unfold item
  rw [this]
  unfold setting
  cases (userEntries config).lookup "first_image_is_coadd" <;> rfl

theorem section_eq {d e : Dict} {k : String} (h : section_ d k = .ok e) :
    Dict.get? d k = some (.dict e) ∨ (Dict.get? d k = none ∧ e = []) := by
  unfold section_ at h
  split at h
  · injection h with h; exact .inr ⟨by assumption, h.symm⟩
  · injection h with h; subst h; exact .inl (by assumption)
  · cases h

theorem usesColor_eq {d e : Dict} {k : String} (h : section_ d k = .ok e) :
    (getOr e "use_color" (.bool false)).truthy = match Dict.get? d k with
      | some (.dict s) => ((s.lookup "use_color").getD (.bool false)).truthy
      | _ => false := by
  rcases section_eq h with h' | ⟨h', rfl⟩
  · rw [h']; simp [getOr, get?_eq_lookup]
  · rw [h']; rfl

theorem wcsUses_eq {config : Val} (hu : ((userEntries config).map Prod.fst).Nodup) {l : Loaded} (h : load config = .ok l) {j : Nat} {b : Bool}
    (hw : wcsUsesColor l.d j = .ok b) : b = asksColour config (userEntries config) "coadd_astrom" "se_astrom" j := by
  have key : ∀ k, k = "coadd_astrom" ∨ k = "se_astrom" → Dict.get? l.d k = (userEntries config).lookup k := by
    intro k hk
    rw [get?_eq_lookup, C68_settings_partial hu h (by rcases hk with rfl | rfl <;> decide)
      (fun e => by rcases hk with rfl | rfl <;> exact absurd e (by decide))]
    have hd : defaultConfig.lookup k = none := by rcases hk with rfl | rfl <;> rfl
    rw [hd]; simp
  unfold wcsUsesColor at hw
  rw [firstCoadd hu h] at hw
  simp only [Res.ok_bind] at hw
  unfold asksColour
  dsimp only
  split at hw
  · rename_i hc
    obtain ⟨s, hs, hw⟩ := Res.bind_eq_ok.mp hw
    injection hw with hw
    rw [if_pos hc, ← key _ (.inl rfl), ← usesColor_eq hs, hw]
  · rename_i hc
    obtain ⟨s, hs, hw⟩ := Res.bind_eq_ok.mp hw
    injection hw with hw
    rw [if_neg hc, ← key _ (.inr rfl), ← usesColor_eq hs, hw]

/-- The entries of the user's `psf` section. -/
def _root_.Meds.Spec.psfEntries (config : Val) : List (String × Val) :=
  match (userEntries config).lookup "psf" with
  | some (.dict p) => p
  | _ => []

theorem psfUses_eq {config : Val} (hu : ((userEntries config).map Prod.fst).Nodup) (ht : (userEntries config).lookup "psf_type" = none)
    {l : Loaded} (h : load config = .ok l) {j : Nat} {b : Bool} (hw : psfUsesColor l.d j = .ok b) :
    b = asksColour config (psfEntries config) "coadd" "se" j := by
  have key : Dict.get? l.d "psf" = (userEntries config).lookup "psf" := by
    rw [get?_eq_lookup, C68_settings_partial hu h (by decide) (fun _ => ht)]
    have hd : defaultConfig.lookup "psf" = none := rfl
    rw [hd]; simp
  unfold psfUsesColor at hw
  rw [firstCoadd hu h] at hw
  simp only [Res.ok_bind] at hw
  obtain ⟨p, hp, hw⟩ := Res.bind_eq_ok.mp hw
  have hpe : p = psfEntries config := by
    unfold psfEntries
    rw [← key]
    rcases section_eq hp with h | ⟨h, rfl⟩
    · rw [h]
    · rw [h]
  subst hpe
  unfold asksColour
  dsimp only
  split at hw
  · rename_i hc
    obtain ⟨s, hs, hw⟩ := Res.bind_eq_ok.mp hw
    injection hw with hw
    rw [if_pos hc, ← hw, usesColor_eq hs, get?_eq_lookup]
  · rename_i hc
    obtain ⟨s, hs, hw⟩ := Res.bind_eq_ok.mp hw
    injection hw with hw
    rw [if_neg hc, ← hw, usesColor_eq hs, get?_eq_lookup]

/-- **C71** Positions and jacobians of an epoch come from the image's WCS, called with the object's colour if the section for that image (`coadd_astrom` for a
coadd in first place, `se_astrom` for all others) asks for it, and without a colour otherwise. -/
theorem C71_wcs_colour {castOf : String → ℚ → ℚ} {config : Val} (hu : ((userEntries config).map Prod.fst).Nodup) {hn : Bool} {objs : List InputObj}
    {images : List RawImage} {psf : Option (List RawPsf)} {psfInfo : Option String} {md : String} {mk mk' : Maker} {f : Fits} {m : MEDS}
    (hc : construct castOf config hn objs images psf psfInfo md = .ok mk) (hw : mk.write = .ok (mk', f)) (ho : MEDS.openFile f = .ok m)
    {i k : Nat} {o : ObjRow} {s : Slot} (he : Epoch m.cat.rows i k o s) :
    ∃ (j : Nat) (raw : RawImage) (colour : Option (Option ℚ)), s.fileId = (j : Int) ∧ images[j]? = some raw ∧
      colour = (if asksColour config (userEntries config) "coadd_astrom" "se_astrom" j then some o.sky.color else none) ∧
      s.origRow = (raw.wcs.sky2image o.sky.ra o.sky.dec colour).2 - raw.info.positionOffset ∧
      s.origCol = (raw.wcs.sky2image o.sky.ra o.sky.dec colour).1 - raw.info.positionOffset ∧
      (s.dudcol, s.dudrow, s.dvdcol, s.dvdrow) = raw.wcs.jacobian (raw.wcs.sky2image o.sky.ra o.sky.dec colour).1
        (raw.wcs.sky2image o.sky.ra o.sky.dec colour).2 colour := by
  obtain ⟨l, cfg, ims, ps, h1, h2, h3, h4, h5, h6⟩ := construct_parts hc
  obtain ⟨j, im, a1, a2, _, a4, a5, _, _, _, _, a10⟩ := C06_positions_recorded h5 hw ho he
  obtain ⟨x, hx, hcall⟩ := mapRes_getElem?_inv h3 a2
  obtain ⟨hx1, hx2⟩ := numbered_getElem? hx
  unfold callImage at hcall
  obtain ⟨b, hb, hcall⟩ := Res.bind_eq_ok.mp hcall
  injection hcall with hcall
  rw [hx1] at hb
  have hbe := wcsUses_eq hu h1 hb
  refine ⟨j, x.2, _, a1, hx2, rfl, ?_⟩
  rw [← hbe]
  subst hcall
  cases b with
  | true => exact ⟨by simpa [rowIn, callWcs] using a4, by simpa [colIn, callWcs] using a5, by simpa [callWcs] using a10⟩
  | false => exact ⟨by simpa [rowIn, callWcs] using a4, by simpa [colIn, callWcs] using a5, by simpa [callWcs] using a10⟩

/-- **C71** The PSF read back for an epoch is the one the model draws at the recorded position, with the object's PSF colour if the section asks for it
(`psf` with parts `coadd` and `se`; the old `psf_type` is not given). -/
theorem C71_psf_colour {castOf : String → ℚ → ℚ} {config : Val} (hu : ((userEntries config).map Prod.fst).Nodup)
    (ht : (userEntries config).lookup "psf_type" = none) {hn : Bool} {objs : List InputObj}
    {images : List RawImage} {ps : List RawPsf} {psfInfo : Option String} {md : String} {mk mk' : Maker} {f : Fits} {m : MEDS}
    (hc : construct castOf config hn objs images (some ps) psfInfo md = .ok mk) (hw : mk.write = .ok (mk', f)) (ho : MEDS.openFile f = .ok m)
    (hwf : ∀ p ∈ ps, ∀ r c a, (p.getRec r c a).WF) {i k : Nat} {o : ObjRow} {s : Slot} (he : Epoch m.cat.rows i k o s)
    (hpos : 0 < s.psfRowSize * s.psfColSize) :
    ∃ (j : Nat) (p : RawPsf) (colour : Option (Option ℚ)), s.fileId = (j : Int) ∧ ps[j]? = some p ∧
      colour = (if asksColour config (psfEntries config) "coadd" "se" j then some o.sky.psfColor else none) ∧
      m.getPsf i k = .ok ((p.getRec s.origRow s.origCol colour).map (castOf "f4")) := by
  obtain ⟨l, cfg, ims, qs, h1, h2, h3, h4, h5, h6⟩ := construct_parts hc
  unfold callPsfs at h4
  obtain ⟨ms, hms, h4⟩ := Res.bind_eq_ok.mp h4
  injection h4 with h4
  subst h4
  have hwf' : ∀ p ∈ ms, ∀ sky r c, (p.getRec sky r c).WF := by
    intro p hp sky r c
    obtain ⟨n, hn⟩ := List.mem_iff_getElem?.mp hp
    obtain ⟨x, hx, hcall⟩ := mapRes_getElem?_inv hms hn
    obtain ⟨hx1, hx2⟩ := numbered_getElem? hx
    unfold callPsfModel at hcall
    obtain ⟨b, hb, hcall⟩ := Res.bind_eq_ok.mp hcall
    injection hcall with hcall
    subst hcall
    have hm := List.mem_of_getElem? hx2
    unfold callPsf
    dsimp only
    split
    · exact hwf _ hm _ _ _
    · exact hwf _ hm _ _ _
  obtain ⟨j, im, p, a1, a2, a3, _, _, _, a7⟩ := C11_psf_read_back h5 hw ho rfl hwf' he
  obtain ⟨j', im', b1, b2, _, b4, b5, _⟩ := C06_positions_recorded h5 hw ho he
  have hjj : j' = j := by
    rw [a1] at b1; exact_mod_cast b1.symm
  subst hjj
  rw [a2] at b2
  injection b2 with b2
  subst b2
  obtain ⟨x, hx, hcall⟩ := mapRes_getElem?_inv hms a3
  obtain ⟨hx1, hx2⟩ := numbered_getElem? hx
  unfold callPsfModel at hcall
  obtain ⟨b, hb, hcall⟩ := Res.bind_eq_ok.mp hcall
  injection hcall with hcall
  rw [hx1] at hb
  have hbe := psfUses_eq hu ht h1 hb
  refine ⟨j', x.2, _, a1, hx2, rfl, ?_⟩
  rw [← hbe, a7 hpos, ← b4, ← b5]
  have hcast : cfg.cast "psf" = castOf "f4" := by
    obtain ⟨_, _, _, _, _, _, _, _, _, _, _, _, _, _, _, _, _, _, _, hq⟩ := toCfg_parts h2
    rw [hq]; rfl
  rw [hcast]
  subst hcall
  cases b <;> rfl

/-- The object of the example: with a colour for positions and one for PSFs. -/
def exObj : InputObj := { id := 1, boxSize := 2, sky := { ra := 3, dec := 3, color := some (1 / 4), psfColor := some 2 }, number := 1, extra := "x" }

-- the coadd (image 0) uses no colour, the single epoch image does, for its WCS and its PSF
example : exCheck (.dict [("se_astrom", .dict [("use_color", .bool true)]), ("psf", .dict [("se", .dict [("use_color", .bool true)])])]) [exObj]
    (some [exPsf, exPsf]) (fun m =>
      m.cat.rows.map (fun o => o.slots.map (fun s => (s.origCol, s.dvdrow))) = [[(2, 1), (7 / 4, 1 / 4)]] &&
      decide (m.getPsf 0 0 = .ok ⟨2, 2, [2, 4, 3, 5]⟩) && decide (m.getPsf 0 1 = .ok ⟨2, 2, [202, 204, 203, 205]⟩)) = true := by decide +kernel

/-- **C71** The colour of an object for positions is its `color` entry; without that column `wcs_color`; and for PSFs `psf_color`.  With C71_wcs_colour and
C71_psf_colour this says which column reaches the WCS and the PSF model. -/
theorem C71_columns {castOf : String → ℚ → ℚ} {config : Val} {hn : Bool} {objs : List RawObj}
    {images : List RawImage} {psf : Option (List RawPsf)} {psfInfo : Option String} {md : String} {mk mk' : Maker} {f : Fits} {m : MEDS}
    (hc : construct castOf config hn (objs.map RawObj.seen) images psf psfInfo md = .ok mk) (hw : mk.write = .ok (mk', f)) (ho : MEDS.openFile f = .ok m)
    {o : ObjRow} (hr : o ∈ m.cat.rows) :
    ∃ a ∈ objs, o.id = a.id ∧ o.number = a.number ∧ o.sky.ra = a.ra ∧ o.sky.dec = a.dec ∧ (∀ c, a.color = some c → o.sky.color = some c) ∧
      (a.color = none → o.sky.color = a.wcsColor) ∧ o.sky.psfColor = a.psfColor := by
  obtain ⟨l, cfg, ims, ps, h1, h2, h3, h4, h5, h6⟩ := construct_parts hc
  have h := C05_catalogue_is_input h5 hw ho
  have key : ∀ {l : List InputObj} {l' : List ObjRow}, List.Forall₂ SameObject l l' → o ∈ l' → ∃ b ∈ l, SameObject b o := by
    intro l l' h
    induction h with
    | nil => intro h; cases h
    | cons hab _ ih =>
      intro h
      rcases List.mem_cons.mp h with rfl | h
      · exact ⟨_, List.mem_cons_self, hab⟩
      · obtain ⟨b, h1, h2⟩ := ih h
        exact ⟨b, List.mem_cons_of_mem _ h1, h2⟩
  obtain ⟨b, hbf, hs⟩ := key h hr
  have hbm : b ∈ objs.map RawObj.seen := (List.mem_filter.mp hbf).1
  obtain ⟨a, ha, hab⟩ := List.mem_map.mp hbm
  subst hab
  obtain ⟨e1, e2, e3, _⟩ := hs
  refine ⟨a, ha, e1, e3, by rw [e2]; rfl, by rw [e2]; rfl, fun c hc => ?_, fun hc => ?_, by rw [e2]; rfl⟩
  · rw [e2]; simp [RawObj.seen, pickColor, hc]
  · rw [e2]; simp [RawObj.seen, pickColor, hc]

/-- **C71** The shape a PSF model announces is asked for with the same colour as the image: with models that draw what they announce, colour by colour, an input
that can be written without PSFs can be written with them. -/
theorem C71_write_completes {castOf : String → ℚ → ℚ} {config : Val} {hn : Bool} {objs : List InputObj}
    {images : List RawImage} {ps : List RawPsf} {psfInfo : Option String} {md : String} {mk : Maker}
    (hc : construct castOf config hn objs images (some ps) psfInfo md = .ok mk)
    (hv : ∀ l cfg ims, load config = .ok l → toCfg castOf l.d = .ok cfg → mapRes (callImage l.d) (numbered images) = .ok ims → ValidInput cfg objs ims none)
    (hwf : ∀ p ∈ ps, ∀ r c a, (p.getRec r c a).WF)
    (hsh : ∀ p ∈ ps, ∀ shape, p.recShape = some shape → ∀ r c a, shape r c a = ((p.getRec r c a).nr, (p.getRec r c a).nc)) :
    ∃ mk' f, mk.write = .ok (mk', f) := by
  obtain ⟨l, cfg, ims, qs, h1, h2, h3, h4, h5, h6⟩ := construct_parts hc
  unfold callPsfs at h4
  obtain ⟨ms, hms, h4⟩ := Res.bind_eq_ok.mp h4
  injection h4 with h4
  subst h4
  have v := hv l cfg ims h1 h2 h3
  have v' : ValidInput cfg objs ims (some ms) := { v with
    psf := by
      intro ps' e
      injection e with e
      subst e
      refine ⟨?_, ?_⟩
      · have hq : psfLengthBad (some ms) ims.length = false := by
          by_contra hne
          unfold Maker.init at h5
          obtain ⟨_, _, h5⟩ := Res.bind_eq_ok.mp h5
          rw [if_pos (by simpa using hne)] at h5
          cases h5
        unfold psfLengthBad at hq
        simpa using hq
      · intro p hp
        obtain ⟨n, hn⟩ := List.mem_iff_getElem?.mp hp
        obtain ⟨x, hx, hcall⟩ := mapRes_getElem?_inv hms hn
        obtain ⟨hx1, hx2⟩ := numbered_getElem? hx
        unfold callPsfModel at hcall
        obtain ⟨b, hb, hcall⟩ := Res.bind_eq_ok.mp hcall
        injection hcall with hcall
        subst hcall
        have hm := List.mem_of_getElem? hx2
        refine ⟨?_, ?_⟩
        · intro sky r c
          unfold callPsf
          dsimp only
          split
          · exact hwf _ hm _ _ _
          · exact hwf _ hm _ _ _
        · intro shape hs sky r c
          unfold callPsf at hs ⊢
          dsimp only at hs ⊢
          cases hrs : x.2.recShape with
          | none => rw [hrs] at hs; cases hs
          | some g =>
            rw [hrs] at hs
            injection hs with hs
            rw [← hs]
            cases b
            · exact hsh _ hm g hrs _ _ _
            · exact hsh _ hm g hrs _ _ _ }
  obtain ⟨mk0, mk', f, e1, e2⟩ := C15_write_completes_partial v' hn psfInfo md
  rw [h5] at e1
  injection e1 with e1
  subst e1
  exact ⟨mk', f, e2⟩

/-- A PSF model that announces its shapes, which depend on the colour. -/
def exPsfC : RawPsf :=
  { getRec := fun r _ c => match c with | some (some _) => Img.ofFn 3 3 (fun i j => r + i + 2 * j) | _ => Img.ofFn 2 2 (fun i j => r + i + 2 * j),
    recShape := some (fun _ _ c => match c with | some (some _) => (3, 3) | _ => (2, 2)), center := fun _ _ => (1, 1) }

-- written with such models, of which only the second is asked for a colour
example : exCheck (.dict [("psf", .dict [("se", .dict [("use_color", .bool true)])])]) [exObj]
    (some [exPsfC, exPsfC]) (fun m => m.cat.rows.map (fun o => o.slots.map (fun s => (s.psfRowSize, s.psfColSize))) = [[(2, 2), (3, 3)]]) = true := by decide +kernel

-- `color` is preferred to `wcs_color`
example : (RawObj.seen { id := 1, boxSize := 2, ra := 3, dec := 3, color := some 5, wcsColor := some 6, psfColor := none, number := 1, extra := "" }).sky.color = some 5 ∧
    (RawObj.seen { id := 1, boxSize := 2, ra := 3, dec := 3, color := none, wcsColor := some 6, psfColor := none, number := 1, extra := "" }).sky.color = some 6 := by decide +kernel

/-- **C71** PSFs need a `psf` entry in the configuration. -/
theorem C71_psf_entry_needed {castOf : String → ℚ → ℚ} {config : Val} (hu : ((userEntries config).map Prod.fst).Nodup)
    (hp : (userEntries config).lookup "psf" = none) (ht : (userEntries config).lookup "psf_type" = none) {hn : Bool} {objs : List InputObj}
    {images : List RawImage} {ps : List RawPsf} {psfInfo : Option String} {md : String} :
    ∃ e, construct castOf config hn objs images (some ps) psfInfo md = .error e := by
  cases hc : construct castOf config hn objs images (some ps) psfInfo md with
  | error e => exact ⟨e, rfl⟩
  | ok mk =>
    obtain ⟨l, cfg, ims, qs, h1, h2, h3, h4, h5, h6⟩ := construct_parts hc
    have key : Dict.get? l.d "psf" = none := by
      rw [get?_eq_lookup, C68_settings_partial hu h1 (by decide) (fun _ => ht), hp]
      rfl
    simp [psfEntry, key] at h6

/-- Truth values as numbers. -/
example : asNum (.bool false) = .ok 0 ∧ asNum (.bool true) = .ok 1 ∧ asInt (.bool false) = .ok 0 ∧ asInt (.bool true) = .ok 1 := ⟨rfl, rfl, rfl, rfl⟩

end Meds.Config
