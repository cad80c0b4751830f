import Verif.Spec.Versions
import Verif.Model.Columns
import Verif.Lemmas.Basic

/-!
# Columns of the catalogue and of the metadata (C64, C65, C66, C67)
-/

namespace Meds
namespace Columns

variable {α : Type}

/-- A structured array as numpy makes them: distinct names, one value list per row, of the right length. -/
structure Arr.WF (a : Arr α) : Prop where
  nodup : a.names.Nodup
  rows : ∀ c ∈ a.cols, c.vals.length = a.n
  widths : ∀ c ∈ a.cols, ∀ r ∈ c.vals, r.length = c.field.width.getD 1

/-- The columns the maker fills in itself. -/
def computedNames : List String :=
  ["ncutout", "file_id", "start_row", "orig_row", "orig_col", "orig_start_row", "orig_start_col", "cutout_row", "cutout_col",
   "dudrow", "dudcol", "dvdrow", "dvdcol", "psf_row_size", "psf_col_size", "psf_cutout_row", "psf_cutout_col", "psf_start_row"]

theorem find_nodup {cols : List (Col α)} (hn : (cols.map (·.field.name)).Nodup) {c : Col α} (hc : c ∈ cols) :
    cols.find? (fun x => x.field.name == c.field.name) = some c := by
  induction cols with
  | nil => cases hc
  | cons d ds ih =>
    rw [List.map_cons, List.nodup_cons] at hn
    rcases List.mem_cons.mp hc with rfl | hc
    · rw [List.find?_cons_of_pos (by simp)]
    · rw [List.find?_cons_of_neg, ih hn.2 hc]
      simp only [beq_iff_eq]
      intro h
      exact hn.1 (h ▸ List.mem_map_of_mem hc)

theorem Arr.col?_of_mem {a : Arr α} (hn : a.names.Nodup) {c : Col α} (hc : c ∈ a.cols) : a.col? c.field.name = some c :=
  find_nodup hn hc

theorem Arr.mem_of_col? {a : Arr α} {s : String} {c : Col α} (h : a.col? s = some c) : c ∈ a.cols ∧ c.field.name = s :=
  ⟨List.mem_of_find?_eq_some h, by simpa using List.find?_some h⟩

theorem Arr.col?_none {a : Arr α} {s : String} (h : s ∉ a.names) : a.col? s = none := by
  refine List.find?_eq_none.mpr fun c hc hs => h ?_
  rw [show s = c.field.name by simpa using Eq.symm (by simpa using hs)]
  exact List.mem_map_of_mem hc

theorem Arr.names_eq (a : Arr α) : a.names = a.descr.map (·.name) := by
  simp [Arr.names, Arr.descr]

theorem broadcast_same {n : Nat} {w : Option Nat} {vals : List (List α)} : broadcast n w w vals = .ok vals := by
  cases w with
  | none => rfl
  | some w => simp [broadcast]

theorem filled_ok {n : Nat} {dt : List Field} {init : String → α} {a : Arr α} (h : filled n dt init = .ok a) :
    (dt.map (·.name)).Nodup ∧ a = { n := n, cols := dt.map (fun f => { field := f, vals := List.replicate n (List.replicate (f.width.getD 1) (init f.name)) }) } := by
  unfold filled at h
  split at h
  · rename_i hn
    injection h with h
    exact ⟨hn, h.symm⟩
  · cases h

theorem filled_nodup {n : Nat} {dt : List Field} {init : String → α} (hn : (dt.map (·.name)).Nodup) :
    filled n dt init = .ok { n := n, cols := dt.map (fun f => { field := f, vals := List.replicate n (List.replicate (f.width.getD 1) (init f.name)) }) } := by
  unfold filled
  rw [if_pos hn]

/-- Copying between arrays whose common fields have the same shape: names and widths stay, common columns are replaced. -/
theorem copyFields_same {a b : Arr α} (hn : a.n = b.n)
    (hw : ∀ c ∈ a.cols, ∀ d ∈ b.cols, c.field.name = d.field.name → c.field = d.field) :
    copyFields a b = .ok { b with cols := b.cols.map (fun d => (a.col? d.field.name).getD d) } := by
  unfold copyFields
  rw [if_neg (not_not_intro hn)]
  rw [mapRes_congr (g := fun d => .ok ((a.col? d.field.name).getD d)), mapRes_ok_map]
  · rfl
  · intro d hd
    unfold copyInto
    cases h : a.col? d.field.name with
    | none => rfl
    | some s =>
      obtain ⟨hs, hsn⟩ := Arr.mem_of_col? h
      have hf := hw s hs d hd hsn
      dsimp only
      rw [hf, broadcast_same]
      simp only [Res.ok_bind, Option.getD_some, ← hf]

theorem copyFields_filled {a : Arr α} {n : Nat} {dt : List Field} {g : Field → List (List α)} (hn : a.n = n)
    (hw : ∀ c ∈ a.cols, ∀ f ∈ dt, c.field.name = f.name → c.field = f) :
    copyFields a { n := n, cols := dt.map (fun f => { field := f, vals := g f }) } =
      .ok { n := n, cols := (dt.map (fun f => ({ field := f, vals := g f } : Col α))).map (fun d => (a.col? d.field.name).getD d) } := by
  refine copyFields_same (b := { n := n, cols := dt.map (fun f => { field := f, vals := g f }) }) hn ?_
  intro c hc d hd hcd
  obtain ⟨f, hf, rfl⟩ := List.mem_map.mp hd
  exact hw c hc f hf hcd

theorem outputDtype_names (nmax : Nat) (extra : List Field) :
    (outputDtype nmax extra).map (·.name) = scalarNames ++ epochNames ++ extra.map (·.name) := by
  simp [outputDtype, scalarNames, epochNames]

theorem psfDtype_names (nmax : Nat) :
    (psfDtype nmax).map (·.name) = ["psf_row_size", "psf_col_size", "psf_cutout_row", "psf_cutout_col", "psf_start_row"] := rfl

/-- The user's own fields, in order. -/
def userFields (obj : Arr α) : List Field :=
  obj.descr.filter (fun f => !((scalarNames ++ epochNames).contains f.name) &&
    !(["psf_row_size", "psf_col_size", "psf_cutout_row", "psf_cutout_col", "psf_start_row"].contains f.name))

theorem extraFields_eq (psf : Bool) (obj : Arr α) (nmax : Nat) :
    extraFields psf obj nmax = userFields obj ++ (if psf then psfDtype nmax else []) := by
  unfold extraFields userFields
  simp only [outputDtype_names, psfDtype_names, List.map_nil, List.append_nil]

theorem dtype_nodup (psf : Bool) {obj : Arr α} (nmax : Nat) (hn : obj.names.Nodup) :
    ((outputDtype nmax (extraFields psf obj nmax)).map (·.name)).Nodup := by
  rw [outputDtype_names, extraFields_eq, List.map_append]
  have hu : ((userFields obj).map (·.name)).Nodup := by
    unfold userFields Arr.descr
    have : (obj.cols.map (·.field)).map (·.name) = obj.names := by simp [Arr.names]
    exact (List.Sublist.map _ List.filter_sublist).nodup (this ▸ hn)
  have hmem : ∀ s ∈ (userFields obj).map (·.name), s ∉ scalarNames ++ epochNames ∧
      s ∉ ["psf_row_size", "psf_col_size", "psf_cutout_row", "psf_cutout_col", "psf_start_row"] := by
    intro s hs
    obtain ⟨f, hf, rfl⟩ := List.mem_map.mp hs
    have := (List.mem_filter.mp hf).2
    simp only [Bool.and_eq_true, Bool.not_eq_true', List.contains_eq_mem, decide_eq_false_iff_not] at this
    exact this
  have hpn : ((if psf then psfDtype nmax else []).map (·.name)).Nodup := by
    cases psf
    · exact List.nodup_nil
    · rw [if_pos rfl, psfDtype_names]; decide
  have hps : ∀ s ∈ (if psf then psfDtype nmax else []).map (·.name),
      s ∈ ["psf_row_size", "psf_col_size", "psf_cutout_row", "psf_cutout_col", "psf_start_row"] := by
    cases psf
    · intro s hs; simp at hs
    · intro s hs; rwa [if_pos rfl, psfDtype_names] at hs
  rw [List.nodup_append]
  refine ⟨by decide, ?_, ?_⟩
  · rw [List.nodup_append]
    refine ⟨hu, hpn, ?_⟩
    rintro s hs t ht rfl
    exact (hmem s hs).2 (hps s ht)
  · rintro s hs t ht rfl
    rcases List.mem_append.mp ht with ht | ht
    · exact (hmem s ht).1 hs
    · have := hps s ht
      revert hs this
      have : ∀ s ∈ scalarNames ++ epochNames, s ∉ ["psf_row_size", "psf_col_size", "psf_cutout_row", "psf_cutout_col", "psf_start_row"] := by decide
      exact fun a b => this s a b

theorem names_computed {s : String} (hs : s ∈ scalarNames ++ epochNames ++ ["psf_row_size", "psf_col_size", "psf_cutout_row", "psf_cutout_col", "psf_start_row"]) :
    s ∈ inputNames ∨ s ∈ computedNames := by
  have : ∀ s ∈ scalarNames ++ epochNames ++ ["psf_row_size", "psf_col_size", "psf_cutout_row", "psf_cutout_col", "psf_start_row"],
      s ∈ inputNames ∨ s ∈ computedNames := by decide
  exact this s hs

/-- A field of the output dtype is scalar with a fixed name, per epoch with a computed name, or one of the user's. -/
theorem mem_outputDtype {psf : Bool} {obj : Arr α} {nmax : Nat} {f : Field} (hf : f ∈ outputDtype nmax (extraFields psf obj nmax)) :
    (f.width = none ∧ f.name ∈ scalarNames) ∨ (f.width = some nmax ∧ f.name ∈ computedNames ∧ f.name ≠ "ncutout") ∨ f ∈ userFields obj := by
  unfold outputDtype at hf
  rw [extraFields_eq] at hf
  rcases List.mem_append.mp hf with hf | hf
  · rcases List.mem_append.mp hf with hf | hf
    · obtain ⟨s, hs, rfl⟩ := List.mem_map.mp hf
      exact Or.inl ⟨rfl, hs⟩
    · obtain ⟨s, hs, rfl⟩ := List.mem_map.mp hf
      have : ∀ s ∈ epochNames, s ∈ computedNames ∧ s ≠ "ncutout" := by decide
      exact Or.inr (Or.inl ⟨rfl, this s hs⟩)
  · rcases List.mem_append.mp hf with hf | hf
    · exact Or.inr (Or.inr hf)
    · cases psf
      · cases hf
      · obtain ⟨s, hs, rfl⟩ := List.mem_map.mp hf
        have : ∀ s ∈ ["psf_row_size", "psf_col_size", "psf_cutout_row", "psf_cutout_col", "psf_start_row"], s ∈ computedNames ∧ s ≠ "ncutout" := by decide
        exact Or.inr (Or.inl ⟨rfl, this s hs⟩)

theorem userFields_mem {obj : Arr α} {f : Field} :
    f ∈ userFields obj ↔ (∃ c ∈ obj.cols, c.field = f) ∧ f.name ∉ inputNames ∧ f.name ∉ computedNames := by
  unfold userFields Arr.descr
  rw [List.mem_filter, List.mem_map]
  refine and_congr Iff.rfl ?_
  simp only [Bool.and_eq_true, Bool.not_eq_true', List.contains_eq_mem, decide_eq_false_iff_not]
  have key : ∀ s : String, s ∈ inputNames ∨ s ∈ computedNames ↔
      s ∈ scalarNames ++ epochNames ∨ s ∈ ["psf_row_size", "psf_col_size", "psf_cutout_row", "psf_cutout_col", "psf_start_row"] := by
    intro s
    simp only [inputNames, computedNames, scalarNames, epochNames, List.mem_append, List.mem_cons, List.not_mem_nil, or_false]
    tauto
  have := key f.name
  tauto

/-- **C64** (construction) For an input catalogue with the required columns and none of the maker's own, the new catalogue is made, has as many rows,
contains every input column unchanged, and every other column is one of the maker's own: zero in `ncutout` and DEFVAL elsewhere. -/
theorem C64_catalogue_made {zero defval : α} {psf : Bool} {nmax : Nat} {obj : Arr α} (hw : obj.WF) (hreq : ∀ s ∈ inputNames, s ∈ obj.names)
    (hsc : ∀ c ∈ obj.cols, c.field.name ∈ inputNames → c.field.width = none) (hno : ∀ s ∈ obj.names, s ∉ computedNames) :
    ∃ full, setObjData zero defval psf nmax obj = .ok full ∧ full.WF ∧ full.n = obj.n ∧ (∀ c ∈ obj.cols, c ∈ full.cols) ∧
      (∀ c ∈ full.cols, c ∈ obj.cols ∨
        (c.field.name ∈ computedNames ∧ ∀ r ∈ c.vals, ∀ v ∈ r, v = if c.field.name = "ncutout" then zero else defval)) ∧
      full.names = scalarNames ++ epochNames ++ (userFields obj).map (·.name) ++
        (if psf then ["psf_row_size", "psf_col_size", "psf_cutout_row", "psf_cutout_col", "psf_start_row"] else []) := by
  have hnd := dtype_nodup psf nmax hw.nodup
  have hcheck : checkRequired obj = .ok () := by
    unfold checkRequired
    rw [if_neg]
    rw [Nat.not_lt, Nat.le_zero, List.length_eq_zero_iff, List.filter_eq_nil_iff]
    intro s hs
    simp [hreq s hs]
  have hfields : ∀ c ∈ obj.cols, ∀ f ∈ outputDtype nmax (extraFields psf obj nmax), c.field.name = f.name → c.field = f := by
    intro c hc f hf hcf
    rcases mem_outputDtype hf with ⟨h1, h2⟩ | ⟨_, h2, _⟩ | h
    · have : c.field.name ∈ inputNames := by
        have hall : ∀ s ∈ scalarNames, s ∈ inputNames ∨ s ∈ computedNames := by decide
        rcases hall _ h2 with h | h
        · rwa [hcf]
        · exact absurd (hcf ▸ h) (hno _ (List.mem_map_of_mem hc))
      have hwid := hsc c hc this
      cases hcc : c.field with
      | mk a b =>
        cases f
        simp_all
    · exact absurd (hcf ▸ h2) (hno _ (List.mem_map_of_mem hc))
    · obtain ⟨⟨d, hd, rfl⟩, _⟩ := userFields_mem.mp h
      have e1 := Arr.col?_of_mem hw.nodup hc
      have e2 := Arr.col?_of_mem hw.nodup hd
      rw [hcf, e2] at e1
      injection e1 with e1
      rw [e1]
  set new : Arr α := { n := obj.n, cols := (outputDtype nmax (extraFields psf obj nmax)).map (fun f =>
    { field := f, vals := List.replicate obj.n (List.replicate (f.width.getD 1) (if f.name = "ncutout" then zero else defval)) }) } with hnew
  have hcopy : copyFields obj new = .ok { new with cols := new.cols.map (fun d => (obj.col? d.field.name).getD d) } := by
    refine copyFields_same rfl ?_
    intro c hc d hd hcd
    obtain ⟨f, hf, rfl⟩ := List.mem_map.mp hd
    exact hfields c hc f hf hcd
  have hfield : ∀ d ∈ new.cols, ((obj.col? d.field.name).getD d).field = d.field := by
    intro d hd
    cases h : obj.col? d.field.name with
    | none => rfl
    | some s =>
      obtain ⟨f, hf, rfl⟩ := List.mem_map.mp hd
      obtain ⟨h1, h2⟩ := Arr.mem_of_col? h
      exact hfields s h1 f hf h2
  have hnames : (new.cols.map (fun d => (obj.col? d.field.name).getD d)).map (·.field) = outputDtype nmax (extraFields psf obj nmax) := by
    rw [List.map_map]
    refine (List.map_congr_left (g := fun d => d.field) (fun d hd => hfield d hd)).trans ?_
    rw [hnew, List.map_map]
    exact List.map_id _
  refine ⟨{ new with cols := new.cols.map (fun d => (obj.col? d.field.name).getD d) }, ?_, ⟨?_, ?_, ?_⟩, rfl, ?_, ?_, ?_⟩
  · unfold setObjData
    rw [hcheck, Res.ok_bind]
    unfold fullObjData outputStruct
    rw [filled_nodup hnd, Res.ok_bind]
    exact hcopy
  · rw [Arr.names_eq, Arr.descr]
    dsimp only
    rw [hnames]
    exact hnd
  · intro c hc
    obtain ⟨d, hd, rfl⟩ := List.mem_map.mp hc
    cases h : obj.col? d.field.name with
    | none =>
      obtain ⟨f, _, rfl⟩ := List.mem_map.mp hd
      simp [hnew]
    | some s => exact hw.rows s (Arr.mem_of_col? h).1
  · intro c hc
    obtain ⟨d, hd, rfl⟩ := List.mem_map.mp hc
    cases h : obj.col? d.field.name with
    | none =>
      obtain ⟨f, _, rfl⟩ := List.mem_map.mp hd
      intro r hr
      simp only [Option.getD_none] at hr ⊢
      obtain ⟨_, rfl⟩ := List.mem_replicate.mp hr
      simp
    | some s => exact hw.widths s (Arr.mem_of_col? h).1
  · intro c hc
    have hcn : c.field ∈ outputDtype nmax (extraFields psf obj nmax) := by
      unfold outputDtype
      rw [extraFields_eq]
      by_cases h1 : c.field.name ∈ inputNames
      · have hs : c.field = ⟨c.field.name, none⟩ := by rw [← hsc c hc h1]
        have : ∀ s ∈ inputNames, s ∈ scalarNames := by decide
        rw [hs]
        exact List.mem_append_left _ (List.mem_append_left _ (List.mem_map_of_mem (f := fun s => (⟨s, none⟩ : Field)) (this _ h1)))
      · exact List.mem_append_right _ (List.mem_append_left _ (userFields_mem.mpr ⟨⟨c, hc, rfl⟩, h1, hno _ (List.mem_map_of_mem hc)⟩))
    refine List.mem_map.mpr ⟨⟨c.field, List.replicate obj.n (List.replicate (c.field.width.getD 1) (if c.field.name = "ncutout" then zero else defval))⟩,
      List.mem_map_of_mem (f := fun f : Field => (⟨f, List.replicate obj.n (List.replicate (f.width.getD 1) (if f.name = "ncutout" then zero else defval))⟩ : Col α)) hcn, ?_⟩
    dsimp only
    rw [Arr.col?_of_mem hw.nodup hc]
    rfl
  · intro c hc
    obtain ⟨d, hd, rfl⟩ := List.mem_map.mp hc
    cases h : obj.col? d.field.name with
    | some s => exact Or.inl (Arr.mem_of_col? h).1
    | none =>
      right
      obtain ⟨f, hf, rfl⟩ := List.mem_map.mp hd
      simp only [Option.getD_none]
      refine ⟨?_, ?_⟩
      · rcases mem_outputDtype hf with ⟨_, h2⟩ | ⟨_, h2, _⟩ | h3
        · have hall : ∀ s ∈ scalarNames, s ∈ inputNames ∨ s ∈ computedNames := by decide
          rcases hall _ h2 with h4 | h4
          · obtain ⟨c, hc, hcn⟩ := List.mem_map.mp (hreq _ h4)
            have := Arr.col?_of_mem hw.nodup hc
            rw [hcn] at this
            dsimp only at h
            rw [h] at this
            cases this
          · exact h4
        · exact h2
        · obtain ⟨⟨c, hc, hcf⟩, _⟩ := userFields_mem.mp h3
          have := Arr.col?_of_mem hw.nodup hc
          rw [hcf] at this
          dsimp only at h
          rw [h] at this
          cases this
      · intro r hr v hv
        obtain ⟨_, rfl⟩ := List.mem_replicate.mp hr
        exact (List.mem_replicate.mp hv).2
  · rw [Arr.names_eq, Arr.descr]
    dsimp only
    rw [hnames, outputDtype_names, extraFields_eq, List.map_append, ← List.append_assoc]
    cases psf <;> rfl

/-- **C64** (resizing) The resized catalogue keeps every column that is not per epoch as it is, and the first `nmax` entries of the others. -/
theorem C64_resized {zero defval : α} {psf : Bool} {nmax : Nat} {old : Arr α} (hw : old.WF)
    (hsc : ∀ c ∈ old.cols, c.field.name ∈ scalarNames → c.field.width = none)
    (hep : ∀ c ∈ old.cols, c.field.name ∈ computedNames → c.field.name ≠ "ncutout" → ∃ w, c.field.width = some w ∧ nmax ≤ w) :
    ∃ out, resized zero defval psf nmax old = .ok out ∧ out.n = old.n ∧
      (∀ c ∈ old.cols, c.field.name ∈ scalarNames ∨ c.field.name ∉ computedNames → c ∈ out.cols) ∧
      (∀ c ∈ old.cols, c.field.name ∈ epochNames → ⟨⟨c.field.name, some nmax⟩, c.vals.map (·.take nmax)⟩ ∈ out.cols) ∧
      (psf = true → ∀ c ∈ old.cols, c.field.name ∈ ["psf_row_size", "psf_col_size", "psf_cutout_row", "psf_cutout_col", "psf_start_row"] →
        ⟨⟨c.field.name, some nmax⟩, c.vals.map (·.take nmax)⟩ ∈ out.cols) := by
  have hnd := dtype_nodup psf nmax hw.nodup
  -- what happens to one new column whose name the old array has
  have hcol : ∀ f ∈ outputDtype nmax (extraFields psf old nmax), ∀ c ∈ old.cols, ∀ v0, c.field.name = f.name →
      resizeCol old nmax ⟨f, v0⟩ = .ok ⟨f, if f.name ∈ computedNames ∧ f.name ≠ "ncutout" then c.vals.map (·.take nmax) else c.vals⟩ ∧
      (f.name ∈ computedNames ∧ f.name ≠ "ncutout" → f.width = some nmax) ∧ (¬ (f.name ∈ computedNames ∧ f.name ≠ "ncutout") → f = c.field) := by
    intro f hf c hc v0 hcf
    have hfind := Arr.col?_of_mem hw.nodup hc
    rw [hcf] at hfind
    unfold resizeCol
    dsimp only
    rw [hfind]
    dsimp only
    simp only [outputDtype_names, psfDtype_names, List.map_nil, List.append_nil]
    rcases mem_outputDtype hf with ⟨h1, h2⟩ | ⟨h1, h2, h3⟩ | h
    · have hno : ¬ (f.name ∈ computedNames ∧ f.name ≠ "ncutout") := by
        have : ∀ s ∈ scalarNames, ¬ (s ∈ computedNames ∧ s ≠ "ncutout") := by decide
        exact this _ h2
      have hps : ¬ f.name ∈ ["psf_row_size", "psf_col_size", "psf_cutout_row", "psf_cutout_col", "psf_start_row"] := by
        have : ∀ s ∈ scalarNames, ¬ s ∈ ["psf_row_size", "psf_col_size", "psf_cutout_row", "psf_cutout_col", "psf_start_row"] := by decide
        exact this _ h2
      have hff : f = c.field := by
        have hwid := hsc c hc (hcf ▸ h2)
        cases hcc : c.field
        cases f
        simp_all
      rw [if_neg (by simp [h1, hps]), if_neg hno, hff, broadcast_same]
      exact ⟨rfl, fun h => absurd (hff ▸ h) (hff ▸ hno), fun _ => rfl⟩
    · obtain ⟨w, hw1, hw2⟩ := hep c hc (hcf ▸ h2) (hcf ▸ h3)
      have hin : f.name ∈ scalarNames ++ epochNames ∨ f.name ∈ ["psf_row_size", "psf_col_size", "psf_cutout_row", "psf_cutout_col", "psf_start_row"] := by
        have : ∀ s ∈ computedNames, s ∈ scalarNames ++ epochNames ∨ s ∈ ["psf_row_size", "psf_col_size", "psf_cutout_row", "psf_cutout_col", "psf_start_row"] := by decide
        exact this _ h2
      rw [if_pos (by rcases hin with h | h <;> simp only [List.contains_eq_mem, h, h1] <;> simp), hw1]
      dsimp only
      rw [h1, Nat.min_eq_right hw2, broadcast_same, if_pos ⟨h2, h3⟩]
      exact ⟨rfl, fun _ => rfl, fun h => absurd ⟨h2, h3⟩ h⟩
    · obtain ⟨⟨d, hd, hdf⟩, h2, h3⟩ := userFields_mem.mp h
      have hff : f = c.field := by
        have := Arr.col?_of_mem hw.nodup hd
        rw [hdf, hfind] at this
        injection this with this
        rw [this, hdf]
      have hno : ¬ (f.name ∈ computedNames ∧ f.name ≠ "ncutout") := fun h => h3 h.1
      have hout : ¬ f.name ∈ scalarNames ++ epochNames := by
        intro h
        have : ∀ s ∈ scalarNames ++ epochNames, s ∈ inputNames ∨ s ∈ computedNames := by decide
        exact (this _ h).elim h2 h3
      have hps : ¬ f.name ∈ ["psf_row_size", "psf_col_size", "psf_cutout_row", "psf_cutout_col", "psf_start_row"] := by
        intro h
        have : ∀ s ∈ ["psf_row_size", "psf_col_size", "psf_cutout_row", "psf_cutout_col", "psf_start_row"], s ∈ computedNames := by decide
        exact h3 (this _ h)
      rw [if_neg (by simp only [List.contains_eq_mem, hout, hps]; simp), if_neg hno, hff, broadcast_same]
      exact ⟨rfl, fun h => absurd (hff ▸ h) (hff ▸ hno), fun _ => rfl⟩
  have hstep : ∀ d ∈ (outputDtype nmax (extraFields psf old nmax)).map (fun f : Field =>
      (⟨f, List.replicate old.n (List.replicate (f.width.getD 1) (if f.name = "ncutout" then zero else defval))⟩ : Col α)),
      ∃ y, resizeCol old nmax d = .ok y := by
    intro d hd
    obtain ⟨f, hf, rfl⟩ := List.mem_map.mp hd
    cases h : old.col? f.name with
    | none => exact ⟨_, by unfold resizeCol; dsimp only; rw [h]⟩
    | some c =>
      obtain ⟨h1, h2⟩ := Arr.mem_of_col? h
      exact ⟨_, (hcol f hf c h1 _ h2).1⟩
  obtain ⟨cs, hcs⟩ := mapRes_of_forall hstep
  refine ⟨{ n := old.n, cols := cs }, ?_, rfl, ?_⟩
  · unfold resized outputStruct
    rw [filled_nodup hnd, Res.ok_bind]
    dsimp only
    rw [hcs]
    rfl
  have hput : ∀ f ∈ outputDtype nmax (extraFields psf old nmax), ∀ c ∈ old.cols, c.field.name = f.name →
      (⟨f, if f.name ∈ computedNames ∧ f.name ≠ "ncutout" then c.vals.map (·.take nmax) else c.vals⟩ : Col α) ∈ cs := by
    intro f hf c hc hcf
    obtain ⟨i, hi⟩ := List.mem_iff_getElem?.mp (List.mem_map_of_mem (f := fun f : Field =>
      (⟨f, List.replicate old.n (List.replicate (f.width.getD 1) (if f.name = "ncutout" then zero else defval))⟩ : Col α)) hf)
    obtain ⟨y, hy1, hy2⟩ := mapRes_getElem? hcs hi
    rw [(hcol f hf c hc _ hcf).1] at hy2
    injection hy2 with hy2
    rw [hy2]
    exact List.mem_of_getElem? hy1
  have hmemDt : ∀ f : Field, f ∈ outputDtype nmax (extraFields psf old nmax) ↔
      f ∈ scalarNames.map (fun s => (⟨s, none⟩ : Field)) ∨ f ∈ epochNames.map (fun s => (⟨s, some nmax⟩ : Field)) ∨ f ∈ userFields old ∨
        f ∈ (if psf then psfDtype nmax else []) := by
    intro f
    unfold outputDtype
    rw [extraFields_eq, List.mem_append, List.mem_append, List.mem_append]
    tauto
  refine ⟨?_, ?_, ?_⟩
  · intro c hc hcn
    have hf : c.field ∈ outputDtype nmax (extraFields psf old nmax) ∧ ¬ (c.field.name ∈ computedNames ∧ c.field.name ≠ "ncutout") := by
      rw [hmemDt]
      by_cases h1 : c.field.name ∈ scalarNames
      · have hs : c.field = ⟨c.field.name, none⟩ := by rw [← hsc c hc h1]
        refine ⟨Or.inl (hs ▸ List.mem_map_of_mem (f := fun s => (⟨s, none⟩ : Field)) h1), ?_⟩
        have : ∀ s ∈ scalarNames, ¬ (s ∈ computedNames ∧ s ≠ "ncutout") := by decide
        exact this _ h1
      · have h2 := hcn.resolve_left h1
        refine ⟨Or.inr (Or.inr (Or.inl (userFields_mem.mpr ⟨⟨c, hc, rfl⟩, ?_, h2⟩))), fun h => h2 h.1⟩
        have : ∀ s ∈ inputNames, s ∈ scalarNames := by decide
        exact fun h => h1 (this _ h)
    have := hput c.field hf.1 c hc rfl
    rwa [if_neg hf.2] at this
  · intro c hc hcn
    have h1 : c.field.name ∈ computedNames ∧ c.field.name ≠ "ncutout" := by
      have : ∀ s ∈ epochNames, s ∈ computedNames ∧ s ≠ "ncutout" := by decide
      exact this _ hcn
    have := hput ⟨c.field.name, some nmax⟩ ((hmemDt _).mpr (Or.inr (Or.inl (List.mem_map_of_mem (f := fun s => (⟨s, some nmax⟩ : Field)) hcn)))) c hc rfl
    rwa [if_pos h1] at this
  · intro hpsf c hc hcn
    have h1 : c.field.name ∈ computedNames ∧ c.field.name ≠ "ncutout" := by
      have : ∀ s ∈ ["psf_row_size", "psf_col_size", "psf_cutout_row", "psf_cutout_col", "psf_start_row"], s ∈ computedNames ∧ s ≠ "ncutout" := by decide
      exact this _ hcn
    have := hput ⟨c.field.name, some nmax⟩ ((hmemDt _).mpr (Or.inr (Or.inr (Or.inr (by
      rw [hpsf]; exact List.mem_map_of_mem (f := fun s => (⟨s, some nmax⟩ : Field)) hcn))))) c hc rfl
    rwa [if_pos h1] at this

/-- What the layout does to a catalogue, seen from outside the maker's own columns: rows `keep` are kept in that order (`trim_to_coadd`), fields stay,
and only the maker's own columns and `box_size` (made even) get new values. -/
structure LaidOut (full lay : Arr α) (keep : List Nat) : Prop where
  wf : lay.WF
  descr : lay.descr = full.descr
  inside : ∀ i ∈ keep, i < full.n
  rows : lay.n = keep.length
  others : ∀ c ∈ full.cols, c.field.name ∉ computedNames → c.field.name ≠ "box_size" → ⟨c.field, keep.filterMap (fun i => c.vals[i]?)⟩ ∈ lay.cols

/-- **C64** Every column of the input catalogue that the maker does not compute itself is in the output catalogue with the same type and, for the
objects kept, the same values in the same order. -/
theorem C64_user_columns_written {zero defval : α} {psf : Bool} {nmax nmax' : Nat} {obj full lay : Arr α} {keep : List Nat} (hw : obj.WF)
    (hreq : ∀ s ∈ inputNames, s ∈ obj.names) (hsc : ∀ c ∈ obj.cols, c.field.name ∈ inputNames → c.field.width = none)
    (hno : ∀ s ∈ obj.names, s ∉ computedNames) (hfull : setObjData zero defval psf nmax obj = .ok full) (hlay : LaidOut full lay keep)
    (hle : nmax' ≤ nmax) :
    ∃ out, resized zero defval psf nmax' lay = .ok out ∧ out.n = keep.length ∧
      ∀ c ∈ obj.cols, c.field.name ≠ "box_size" → ⟨c.field, keep.filterMap (fun i => c.vals[i]?)⟩ ∈ out.cols := by
  obtain ⟨full', h1, h2, h3, h4, h5, h6⟩ := C64_catalogue_made (zero := zero) (defval := defval) (psf := psf) (nmax := nmax) hw hreq hsc hno
  rw [hfull] at h1
  injection h1 with h1
  subst h1
  -- the shapes of the columns of `full`
  have hshape : ∀ f ∈ full.descr, (f.name ∈ scalarNames → f.width = none) ∧ (f.name ∈ computedNames → f.name ≠ "ncutout" → f.width = some nmax) := by
    have hd : full.descr = outputDtype nmax (extraFields psf obj nmax) := by
      unfold setObjData at hfull
      obtain ⟨_, _, hfull⟩ := Res.bind_eq_ok.mp hfull
      unfold fullObjData outputStruct at hfull
      obtain ⟨new, hn, hfull⟩ := Res.bind_eq_ok.mp hfull
      obtain ⟨_, rfl⟩ := filled_ok hn
      unfold copyFields at hfull
      split at hfull
      · cases hfull
      obtain ⟨cs, hcs, hfull⟩ := Res.bind_eq_ok.mp hfull
      injection hfull with hfull
      subst hfull
      unfold Arr.descr
      dsimp only
      have key : ∀ (l : List (Col α)) (cs : List (Col α)), mapRes (copyInto obj) l = .ok cs → cs.map (·.field) = l.map (·.field) := by
        intro l cs h
        apply List.ext_getElem?
        intro i
        rw [List.getElem?_map, List.getElem?_map]
        cases hl : l[i]? with
        | none =>
          rw [List.getElem?_eq_none (by rw [mapRes_length h]; exact List.getElem?_eq_none_iff.mp hl)]
        | some d =>
          obtain ⟨y, hy1, hy2⟩ := mapRes_getElem? h hl
          rw [hy1]
          simp only [Option.map_some, Option.some.injEq]
          unfold copyInto at hy2
          split at hy2
          · injection hy2 with hy2
            rw [hy2]
          · obtain ⟨v, _, hy2⟩ := Res.bind_eq_ok.mp hy2
            injection hy2 with hy2
            rw [← hy2]
      rw [key _ _ hcs, List.map_map]
      exact List.map_id _
    intro f hf
    rw [hd] at hf
    rcases mem_outputDtype hf with ⟨a, b⟩ | ⟨a, b, c⟩ | h
    · refine ⟨fun _ => a, fun h1 h2 => ?_⟩
      have : ∀ s ∈ scalarNames, ¬ (s ∈ computedNames ∧ s ≠ "ncutout") := by decide
      exact absurd ⟨h1, h2⟩ (this _ b)
    · refine ⟨fun h1 => ?_, fun _ _ => a⟩
      have : ∀ s ∈ scalarNames, ¬ (s ∈ computedNames ∧ s ≠ "ncutout") := by decide
      exact absurd ⟨b, c⟩ (this _ h1)
    · obtain ⟨_, h1, h2⟩ := userFields_mem.mp h
      refine ⟨fun h3 => ?_, fun h3 _ => absurd h3 h2⟩
      have : ∀ s ∈ scalarNames, s ∈ inputNames ∨ s ∈ computedNames := by decide
      exact absurd (this _ h3) (by tauto)
  have hl : ∀ c ∈ lay.cols, c.field ∈ full.descr := fun c hc => hlay.descr ▸ List.mem_map_of_mem (f := (·.field)) hc
  obtain ⟨out, g1, g2, g3, _, _⟩ := C64_resized (zero := zero) (defval := defval) (psf := psf) (nmax := nmax') hlay.wf
    (fun c hc => (hshape _ (hl c hc)).1) (fun c hc a b => ⟨nmax, (hshape _ (hl c hc)).2 a b, hle⟩)
  refine ⟨out, g1, g2.trans hlay.rows, ?_⟩
  intro c hc hb
  have hn := hno _ (List.mem_map_of_mem (f := fun c : Col α => c.field.name) hc)
  exact g3 _ (hlay.others c (h4 c hc) hn hb) (Or.inr hn)

-- a catalogue with a user column of three values per object, and one row dropped
example :
    let obj : Arr Int := ⟨2, [⟨⟨"id", none⟩, [[7], [8]]⟩, ⟨⟨"mag", some 3⟩, [[1, 2, 3], [4, 5, 6]]⟩, ⟨⟨"box_size", none⟩, [[32], [48]]⟩,
      ⟨⟨"ra", none⟩, [[0], [1]]⟩, ⟨⟨"dec", none⟩, [[2], [3]]⟩]⟩
    (match setObjData 0 (-9999) true 4 obj with
     | .ok full =>
       let lay : Arr Int := ⟨1, full.cols.map (fun c => ⟨c.field, [1].filterMap (fun i => c.vals[i]?)⟩)⟩
       (match resized 0 (-9999) true 2 lay with
        | .ok out => decide (out.col? "mag" = some ⟨⟨"mag", some 3⟩, [[4, 5, 6]]⟩) && decide (out.col? "id" = some ⟨⟨"id", none⟩, [[8]]⟩) &&
            decide (out.col? "file_id" = some ⟨⟨"file_id", some 2⟩, [[-9999, -9999]]⟩)
        | .error _ => false)
     | .error _ => false) = true := by decide +kernel

/-! ### C67: required columns -/

/-- **C67** A catalogue without one of the columns id, box_size, ra, dec is refused. -/
theorem C67_missing_column_refused {zero defval : α} {psf : Bool} {nmax : Nat} {obj : Arr α} {s : String}
    (hs : s = "id" ∨ s = "box_size" ∨ s = "ra" ∨ s = "dec") (hm : s ∉ obj.names) : setObjData zero defval psf nmax obj = .error .valueError := by
  have : checkRequired obj = .error .valueError := by
    unfold checkRequired
    rw [if_pos]
    refine List.length_pos_of_mem (a := s) (List.mem_filter.mpr ⟨?_, by simpa using hm⟩)
    rcases hs with rfl | rfl | rfl | rfl <;> decide
  unfold setObjData
  rw [this]
  rfl

/-- **C67** A catalogue that has the four as plain numbers, and no column with a name that the maker computes, is accepted. -/
theorem C67_catalogue_accepted {zero defval : α} {psf : Bool} {nmax : Nat} {obj : Arr α} (hw : obj.WF)
    (hreq : ∀ s ∈ ["id", "box_size", "ra", "dec"], ∃ c ∈ obj.cols, c.field = ⟨s, none⟩)
    (hno : ∀ s ∈ ["ncutout", "file_id", "start_row", "orig_row", "orig_col", "orig_start_row", "orig_start_col", "cutout_row", "cutout_col", "dudrow", "dudcol",
      "dvdrow", "dvdcol", "psf_row_size", "psf_col_size", "psf_cutout_row", "psf_cutout_col", "psf_start_row"], s ∉ obj.names) :
    ∃ full, setObjData zero defval psf nmax obj = .ok full := by
  obtain ⟨full, h, _⟩ := C64_catalogue_made (zero := zero) (defval := defval) (psf := psf) (nmax := nmax) hw
    (fun s hs => by
      obtain ⟨c, hc, e⟩ := hreq s hs
      exact List.mem_map.mpr ⟨c, hc, by rw [e]⟩)
    (fun c hc hn => by
      obtain ⟨d, hd, e⟩ := hreq _ hn
      have e1 := Arr.col?_of_mem hw.nodup hc
      have e2 := Arr.col?_of_mem hw.nodup hd
      rw [e] at e2
      dsimp only at e2
      rw [e1] at e2
      injection e2 with e2
      rw [e2, e])
    (fun s hs hc => hno s hc hs)
  exact ⟨full, h⟩

/-- **C67** `image_info` is accepted exactly when it has path and extension of every kind of image, the identifier, the flags, the zero point, the
scale and the position offset. -/
theorem C67_image_info {info : Arr α} : checkImageInfo info = .ok () ↔
    (∀ t ∈ ["image", "weight", "seg", "bmask", "bkg"], t ++ "_path" ∈ info.names ∧ t ++ "_ext" ∈ info.names) ∧
    "image_id" ∈ info.names ∧ "image_flags" ∈ info.names ∧ "magzp" ∈ info.names ∧ "scale" ∈ info.names ∧ "position_offset" ∈ info.names := by
  unfold checkImageInfo
  have e : (infoNames.filter (fun s => !(info.names.contains s))).length > 0 ↔ ¬ ∀ s ∈ infoNames, s ∈ info.names := by
    rw [gt_iff_lt, List.length_pos_iff, ne_eq, List.filter_eq_nil_iff]
    simp
  rw [if_congr e rfl rfl]
  have e2 : (∀ s ∈ infoNames, s ∈ info.names) ↔
    (∀ t ∈ ["image", "weight", "seg", "bmask", "bkg"], t ++ "_path" ∈ info.names ∧ t ++ "_ext" ∈ info.names) ∧
    "image_id" ∈ info.names ∧ "image_flags" ∈ info.names ∧ "magzp" ∈ info.names ∧ "scale" ∈ info.names ∧ "position_offset" ∈ info.names := by
    simp only [infoNames, List.forall_mem_cons, List.not_mem_nil, false_imp_iff, implies_true, and_true,
      show "image" ++ "_path" = "image_path" from rfl, show "image" ++ "_ext" = "image_ext" from rfl,
      show "weight" ++ "_path" = "weight_path" from rfl, show "weight" ++ "_ext" = "weight_ext" from rfl,
      show "seg" ++ "_path" = "seg_path" from rfl, show "seg" ++ "_ext" = "seg_ext" from rfl,
      show "bmask" ++ "_path" = "bmask_path" from rfl, show "bmask" ++ "_ext" = "bmask_ext" from rfl,
      show "bkg" ++ "_path" = "bkg_path" from rfl, show "bkg" ++ "_ext" = "bkg_ext" from rfl]
    tauto
  rw [← e2]
  by_cases h : ∀ s ∈ infoNames, s ∈ info.names
  · rw [if_neg (not_not_intro h)]
    exact ⟨fun _ => h, fun _ => rfl⟩
  · rw [if_pos h]
    exact ⟨fun h' => (by cases h'), fun h' => absurd h' h⟩

/-! ### C65: metadata -/

theorem versionNames_nodup : ((versionNames.map (fun s => (⟨s, none⟩ : Field))).map (·.name)).Nodup := by decide

theorem setScalar_mem {v : String → α} {names : List String} {a : Arr α} {c : Col α} (hc : c ∈ a.cols) (hn : c.field.name ∉ names) :
    c ∈ (setScalar v names a).cols := by
  refine List.mem_map.mpr ⟨c, hc, ?_⟩
  rw [if_neg (by simpa using hn)]

theorem setScalar_set {v : String → α} {names : List String} {a : Arr α} {c : Col α} (hc : c ∈ a.cols) (hn : c.field.name ∈ names) :
    ⟨c.field, List.replicate a.n [v c.field.name]⟩ ∈ (setScalar v names a).cols := by
  refine List.mem_map.mpr ⟨c, hc, ?_⟩
  rw [if_pos (by simpa using hn)]

theorem setScalar_descr {v : String → α} {names : List String} {a : Arr α} : (setScalar v names a).descr = a.descr := by
  unfold setScalar Arr.descr
  dsimp only
  rw [List.map_map]
  refine List.map_congr_left fun c _ => ?_
  simp only [Function.comp]
  split <;> rfl

theorem meta65_metadata_partial {zero : α} {version : String → α} {a : Arr α} (hw : a.WF) (hno : ∀ s ∈ a.names, s ∉ versionNames) :
    ∃ m, setMetaData zero version (some a) = .ok m ∧ m.n = a.n ∧ m.descr = a.descr ++ versionNames.map (fun s => ⟨s, none⟩) ∧
      (∀ c ∈ a.cols, c ∈ m.cols) ∧ (∀ s ∈ versionNames, ⟨⟨s, none⟩, List.replicate a.n [version s]⟩ ∈ m.cols) := by
  have hnd : ((a.descr ++ versionNames.map (fun s => (⟨s, none⟩ : Field))).map (·.name)).Nodup := by
    rw [List.map_append, ← Arr.names_eq, List.nodup_append]
    refine ⟨hw.nodup, versionNames_nodup, ?_⟩
    rintro s hs t ht rfl
    refine hno s hs ?_
    obtain ⟨f, hf, rfl⟩ := List.mem_map.mp ht
    obtain ⟨u, hu, rfl⟩ := List.mem_map.mp hf
    exact hu
  unfold setMetaData
  dsimp only
  rw [filled_nodup hnd, Res.ok_bind]
  have hfield : ∀ c ∈ a.cols, ∀ f ∈ a.descr ++ versionNames.map (fun s => (⟨s, none⟩ : Field)), c.field.name = f.name → c.field = f := by
    intro c hc f hf hcf
    rcases List.mem_append.mp hf with hf | hf
    · obtain ⟨d, hd, rfl⟩ := List.mem_map.mp hf
      have e1 := Arr.col?_of_mem hw.nodup hc
      have e2 := Arr.col?_of_mem hw.nodup hd
      rw [hcf, e2] at e1
      injection e1 with e1
      rw [e1]
    · obtain ⟨u, hu, rfl⟩ := List.mem_map.mp hf
      exact absurd (hcf ▸ hu) (hno _ (List.mem_map_of_mem (f := fun c : Col α => c.field.name) hc))
  rw [copyFields_filled rfl hfield]
  simp only [Res.ok_bind]
  refine ⟨_, rfl, rfl, ?_, ?_, ?_⟩
  · rw [setScalar_descr]
    unfold Arr.descr
    dsimp only
    rw [List.map_map, List.map_map]
    refine (List.map_congr_left (g := id) ?_).trans (List.map_id _)
    intro f hf
    simp only [Function.comp, id]
    cases h : a.col? f.name with
    | none => rfl
    | some c =>
      obtain ⟨h1, h2⟩ := Arr.mem_of_col? h
      exact hfield c h1 f hf h2
  · intro c hc
    refine setScalar_mem ?_ (hno _ (List.mem_map_of_mem (f := fun c : Col α => c.field.name) hc))
    refine List.mem_map.mpr ⟨⟨c.field, List.replicate a.n (List.replicate (c.field.width.getD 1) zero)⟩,
      List.mem_map_of_mem (f := fun f : Field => (⟨f, List.replicate a.n (List.replicate (f.width.getD 1) zero)⟩ : Col α))
        (List.mem_append_left _ (List.mem_map_of_mem (f := (·.field)) hc)), ?_⟩
    dsimp only
    rw [Arr.col?_of_mem hw.nodup hc]
    rfl
  · intro s hs
    have : (⟨⟨s, none⟩, List.replicate a.n (List.replicate 1 zero)⟩ : Col α) ∈
        (((a.descr ++ versionNames.map (fun s => (⟨s, none⟩ : Field))).map (fun f : Field =>
          (⟨f, List.replicate a.n (List.replicate (f.width.getD 1) zero)⟩ : Col α))).map (fun d => (a.col? d.field.name).getD d)) := by
      refine List.mem_map.mpr ⟨_, List.mem_map_of_mem (List.mem_append_right _ (List.mem_map_of_mem hs)), ?_⟩
      dsimp only
      rw [Arr.col?_none (fun h => hno s h hs)]
      rfl
    exact setScalar_set (a := ⟨a.n, _⟩) this hs

/-- **C65** (partial: the metadata do not name a software version themselves) The metadata table has the user's fields with their values in every row,
followed by the five version fields. -/
theorem C65_metadata_partial {zero : α} {version : String → α} {a : Arr α} (hw : a.WF) (hno : ∀ s ∈ a.names, s ∉ Spec.versionColumns) :
    ∃ m, setMetaData zero version (some a) = .ok m ∧ m.n = a.n ∧ m.descr = a.descr ++ Spec.versionColumns.map (fun s => ⟨s, none⟩) ∧
      (∀ c ∈ a.cols, c ∈ m.cols) ∧ (∀ s ∈ Spec.versionColumns, ⟨⟨s, none⟩, List.replicate a.n [version s]⟩ ∈ m.cols) :=
  meta65_metadata_partial hw hno

theorem meta65_no_metadata {zero : α} {version : String → α} :
    setMetaData zero version none = .ok ⟨1, versionNames.map (fun s => ⟨⟨s, none⟩, [[version s]]⟩)⟩ := by
  unfold setMetaData
  dsimp only
  rw [List.nil_append, filled_nodup versionNames_nodup]
  rfl

/-- **C65** Without metadata there is one row with the five version fields. -/
theorem C65_no_metadata {zero : α} {version : String → α} :
    setMetaData zero version none = .ok ⟨1, Spec.versionColumns.map (fun s => ⟨⟨s, none⟩, [[version s]]⟩)⟩ :=
  meta65_no_metadata

theorem meta65_versions_refused {zero : α} {version : String → α} {a : Arr α} {s : String} (hs : s ∈ a.names) (hv : s ∈ versionNames) :
    setMetaData zero version (some a) = .error .valueError := by
  unfold setMetaData
  dsimp only
  have : filled a.n (a.descr ++ versionNames.map (fun s => (⟨s, none⟩ : Field))) (fun _ => zero) = .error .valueError := by
    unfold filled
    rw [if_neg]
    rw [List.map_append, ← Arr.names_eq, List.nodup_append]
    rintro ⟨_, _, h⟩
    exact h s hs s (List.mem_map.mpr ⟨⟨s, none⟩, List.mem_map_of_mem (f := fun s => (⟨s, none⟩ : Field)) hv, rfl⟩) rfl
  rw [this]
  rfl

/-- **C65** (what goes wrong) Metadata that already name one of the versions are refused. -/
theorem C65_versions_refused {zero : α} {version : String → α} {a : Arr α} {s : String} (hs : s ∈ a.names) (hv : s ∈ Spec.versionColumns) :
    setMetaData zero version (some a) = .error .valueError :=
  meta65_versions_refused hs hv

/-- **C65** is false: the metadata of a file made by this maker, read back and given to another maker, make its constructor raise. -/
theorem C65_counterexample {zero : α} {version version' : String → α} {input : Option (Arr α)} {m : Arr α}
    (h : setMetaData zero version input = .ok m) : setMetaData zero version' (some m) = .error .valueError := by
  refine C65_versions_refused (s := "meds_version") ?_ (by decide)
  unfold setMetaData at h
  obtain ⟨m1, h1, h⟩ := Res.bind_eq_ok.mp h
  obtain ⟨m2, h2, h⟩ := Res.bind_eq_ok.mp h
  injection h with h
  subst h
  rw [Arr.names_eq, setScalar_descr]
  obtain ⟨_, rfl⟩ := filled_ok h1
  have hd : ∀ c : Col α, c.field = ⟨"meds_version", none⟩ → ∀ a y, copyInto a c = .ok y → y.field = ⟨"meds_version", none⟩ := by
    intro c hc a y hy
    unfold copyInto at hy
    split at hy
    · injection hy with hy; rw [← hy]; exact hc
    · obtain ⟨v, _, hy⟩ := Res.bind_eq_ok.mp hy
      injection hy with hy; rw [← hy]; exact hc
  have hv : (⟨"meds_version", none⟩ : Field) ∈ versionNames.map (fun s => (⟨s, none⟩ : Field)) := by decide
  refine List.mem_map.mpr ⟨⟨"meds_version", none⟩, ?_, rfl⟩
  cases input with
  | none =>
    injection h2 with h2
    subst h2
    exact List.mem_map.mpr ⟨_, List.mem_map_of_mem hv, rfl⟩
  | some a =>
    dsimp only at h2
    unfold copyFields at h2
    split at h2
    · cases h2
    obtain ⟨cs, hcs, h2⟩ := Res.bind_eq_ok.mp h2
    injection h2 with h2
    subst h2
    obtain ⟨i, hi⟩ := List.mem_iff_getElem?.mp (List.mem_map_of_mem (f := fun f : Field =>
      (⟨f, List.replicate a.n (List.replicate (f.width.getD 1) zero)⟩ : Col α)) (List.mem_append_right a.descr hv))
    obtain ⟨y, hy1, hy2⟩ := mapRes_getElem? hcs hi
    exact List.mem_map.mpr ⟨y, List.mem_of_getElem? hy1, hd _ rfl _ _ hy2⟩

theorem meta65_coadd_metadata {zero : α} {version : String → α} {a : Arr α} (hw : a.WF) (h1 : a.n = 1)
    (hv : ∀ c ∈ a.cols, c.field.name ∈ versionNames → c.field.width = none) :
    ∃ m, coaddSetMeta zero version a = .ok m ∧ m.n = 1 ∧ (∀ c ∈ a.cols, c.field.name ∉ versionNames → c ∈ m.cols) ∧
      (∀ s ∈ versionNames, ⟨⟨s, none⟩, [[version s]]⟩ ∈ m.cols) := by
  have hnd : ((versionNames.map (fun s => (⟨s, none⟩ : Field)) ++ a.descr.filter (fun f => !(versionNames.contains f.name))).map (·.name)).Nodup := by
    rw [List.map_append, List.nodup_append]
    refine ⟨versionNames_nodup, (List.Sublist.map _ List.filter_sublist).nodup (Arr.names_eq a ▸ hw.nodup), ?_⟩
    rintro s hs t ht rfl
    obtain ⟨f, hf, rfl⟩ := List.mem_map.mp ht
    obtain ⟨g, hg, hgf⟩ := List.mem_map.mp hs
    obtain ⟨u, hu, rfl⟩ := List.mem_map.mp hg
    have := (List.mem_filter.mp hf).2
    rw [← hgf] at this
    simp [hu] at this
  unfold coaddSetMeta
  dsimp only
  rw [filled_nodup hnd, Res.ok_bind]
  have hfield : ∀ c ∈ a.cols, ∀ f ∈ versionNames.map (fun s => (⟨s, none⟩ : Field)) ++ a.descr.filter (fun f => !(versionNames.contains f.name)),
      c.field.name = f.name → c.field = f := by
    intro c hc f hf hcf
    rcases List.mem_append.mp hf with hf | hf
    · obtain ⟨u, hu, rfl⟩ := List.mem_map.mp hf
      have := hv c hc (hcf ▸ hu)
      cases hcc : c.field
      simp_all
    · obtain ⟨d, hd, rfl⟩ := List.mem_map.mp (List.mem_filter.mp hf).1
      have e1 := Arr.col?_of_mem hw.nodup hc
      have e2 := Arr.col?_of_mem hw.nodup hd
      rw [hcf, e2] at e1
      injection e1 with e1
      rw [e1]
  rw [copyFields_filled h1 hfield]
  simp only [Res.ok_bind]
  refine ⟨_, rfl, rfl, ?_, ?_⟩
  · intro c hc hcn
    refine setScalar_mem ?_ hcn
    refine List.mem_map.mpr ⟨_, List.mem_map_of_mem (List.mem_append_right _ (List.mem_filter.mpr
      ⟨List.mem_map_of_mem (f := (·.field)) hc, by simpa using hcn⟩)), ?_⟩
    dsimp only
    rw [Arr.col?_of_mem hw.nodup hc]
    rfl
  · intro s hs
    have key := fun (c : Col α) hc => setScalar_set (v := version) (names := versionNames) (a := ⟨1, ((versionNames.map (fun s => (⟨s, none⟩ : Field)) ++
      a.descr.filter (fun f => !(versionNames.contains f.name))).map (fun f : Field =>
          (⟨f, List.replicate 1 (List.replicate (f.width.getD 1) zero)⟩ : Col α))).map (fun d => (a.col? d.field.name).getD d)⟩) (c := c) hc
    cases h : a.col? s with
    | none =>
      refine key ⟨⟨s, none⟩, [[zero]]⟩ ?_ hs
      refine List.mem_map.mpr ⟨_, List.mem_map_of_mem (List.mem_append_left _ (List.mem_map_of_mem hs)), ?_⟩
      dsimp only
      rw [h]
      rfl
    | some c =>
      obtain ⟨g1, g2⟩ := Arr.mem_of_col? h
      have gf : c.field = ⟨s, none⟩ := by
        have := hv c g1 (g2 ▸ hs)
        cases hcc : c.field
        simp_all
      have := key c (List.mem_map.mpr ⟨_, List.mem_map_of_mem (List.mem_append_left _ (List.mem_map_of_mem hs)), by
        dsimp only
        rw [h]
        rfl⟩) (g2 ▸ hs)
      rw [gf] at this
      exact this

/-- **C65** (the coadd maker) It replaces the version fields and keeps the others, for one row of metadata. -/
theorem C65_coadd_metadata {zero : α} {version : String → α} {a : Arr α} (hw : a.WF) (h1 : a.n = 1)
    (hv : ∀ c ∈ a.cols, c.field.name ∈ Spec.versionColumns → c.field.width = none) :
    ∃ m, coaddSetMeta zero version a = .ok m ∧ m.n = 1 ∧ (∀ c ∈ a.cols, c.field.name ∉ Spec.versionColumns → c ∈ m.cols) ∧
      (∀ s ∈ Spec.versionColumns, ⟨⟨s, none⟩, [[version s]]⟩ ∈ m.cols) :=
  meta65_coadd_metadata hw h1 hv

/-- **C65** (the coadd maker) Metadata of any other number of rows are refused. -/
theorem C65_coadd_one_row {zero : α} {version : String → α} {a : Arr α} (h1 : a.n ≠ 1) : ∃ e, coaddSetMeta zero version a = .error e := by
  unfold coaddSetMeta
  dsimp only
  unfold filled
  split
  · refine ⟨.valueError, ?_⟩
    unfold copyFields
    rw [Res.ok_bind, if_pos h1]
    rfl
  · exact ⟨_, rfl⟩

-- one user field; then the coadd maker on the result
example :
    let a : Arr Int := ⟨1, [⟨⟨"tile", none⟩, [[5]]⟩]⟩
    (match setMetaData 0 (fun _ => 9) (some a) with
     | .ok m => decide (m.col? "tile" = some ⟨⟨"tile", none⟩, [[5]]⟩) && decide (m.col? "meds_version" = some ⟨⟨"meds_version", none⟩, [[9]]⟩) &&
         (match coaddSetMeta 0 (fun _ => 10) m with
          | .ok m' => decide (m'.col? "tile" = some ⟨⟨"tile", none⟩, [[5]]⟩) && decide (m'.col? "meds_version" = some ⟨⟨"meds_version", none⟩, [[10]]⟩)
          | .error _ => false)
     | .error _ => false) = true := by decide +kernel

end Columns

/-! ### C66: `validate_meds` -/

namespace Validate

/-- The columns every catalogue must have. -/
def catalogueColumns : List String :=
  ["id", "box_size", "ra", "dec", "ncutout", "file_id", "start_row", "orig_row", "orig_col", "orig_start_row", "orig_start_col", "cutout_row",
   "cutout_col", "dudrow", "dudcol", "dvdrow", "dvdcol"]

theorem catalogueColumns_lower : ∀ n ∈ catalogueColumns, n.toLower = n := by decide +kernel

/-- **C66** (partial: the three tables that `MEDS` opens are there) `validate_meds` complains about exactly what is missing: the extension
`image_cutouts`, required catalogue columns, required `image_info` columns; upper and lower case do not matter. -/
theorem C66_reports_partial {f : List Ext} {od ii md : Ext} (h1 : ext? f "object_data" = some od) (h2 : ext? f "image_info" = some ii)
    (h3 : ext? f "metadata" = some md) :
    ∃ l, validate f = .ok l ∧ (∀ e, .ext e ∈ l ↔ e = "image_cutouts" ∧ ext? f "image_cutouts" = none) ∧
      (∀ n, .objectColumn n ∈ l ↔ n ∈ catalogueColumns ∧ ∀ c ∈ od.columns, c.toLower ≠ n) ∧
      (∀ n, .infoColumn n ∈ l ↔ n ∈ ["image_path", "image_ext", "image_id", "image_flags", "magzp", "scale"] ∧ ∀ c ∈ ii.columns, c.toLower ≠ n) := by
  unfold validate
  rw [h1, h2, h3]
  refine ⟨_, rfl, ?_, ?_, ?_⟩
  · intro e
    simp only [List.mem_append, List.mem_map, List.mem_filter, Missing.ext.injEq, reduceCtorEq, and_false, exists_false, or_false, exists_eq_right,
      requiredExt, List.mem_cons, List.not_mem_nil, Option.isNone_iff_eq_none]
    constructor
    · rintro ⟨rfl | rfl | rfl, h⟩
      · rw [h1] at h; cases h
      · rw [h2] at h; cases h
      · exact ⟨rfl, h⟩
    · rintro ⟨rfl, h⟩
      exact ⟨Or.inr (Or.inr rfl), h⟩
  · intro n
    have hn : (Columns.outputDtype 10 []).map (·.name) = catalogueColumns := rfl
    rw [hn]
    simp only [List.mem_append, List.mem_map, List.mem_filter, Missing.objectColumn.injEq, reduceCtorEq, and_false, exists_false, or_false, false_or,
      exists_eq_right, Bool.not_eq_true', List.contains_eq_mem, decide_eq_false_iff_not, not_exists, not_and]
    constructor
    · rintro ⟨h, h'⟩
      exact ⟨h, fun c hc => by rw [← catalogueColumns_lower n h]; exact h' c hc⟩
    · rintro ⟨h, h'⟩
      exact ⟨h, fun c hc => by rw [catalogueColumns_lower n h]; exact h' c hc⟩
  · intro n
    simp only [List.mem_append, List.mem_map, List.mem_filter, Missing.infoColumn.injEq, reduceCtorEq, and_false, exists_false, false_or,
      exists_eq_right, Bool.not_eq_true', List.contains_eq_mem, decide_eq_false_iff_not, not_exists, not_and, requiredInfo]

/-- **C66** (what goes wrong) When the catalogue, `image_info` or the metadata are missing, nothing is reported: the file cannot be opened. -/
theorem C66_missing_table_raises {f : List Ext} (h : ext? f "object_data" = none ∨ ext? f "image_info" = none ∨ ext? f "metadata" = none) :
    validate f = .error .osError := by
  unfold validate
  rcases h with h | h | h
  · rw [h]
  · rw [h]; cases ext? f "object_data" <;> rfl
  · rw [h]; cases ext? f "object_data" <;> cases ext? f "image_info" <;> rfl

/-- **C66** is false: `image_info` is a required extension, but its absence is not reported. -/
theorem C66_counterexample : ∃ f, ext? f "image_info" = none ∧ (ext? f "object_data").isSome ∧ ¬ ∃ l, validate f = .ok l :=
  ⟨[⟨"object_data", catalogueColumns⟩, ⟨"metadata", []⟩, ⟨"image_cutouts", []⟩], by decide +kernel, by decide +kernel, by
    rintro ⟨l, h⟩
    rw [C66_missing_table_raises (Or.inr (Or.inl (by decide +kernel)))] at h
    cases h⟩

-- two complaints
example : validate [⟨"object_data", "ID" :: catalogueColumns.tail⟩, ⟨"image_info", ["image_path", "image_ext", "image_id", "image_flags", "scale"]⟩,
    ⟨"metadata", []⟩] = .ok [.ext "image_cutouts", .infoColumn "magzp"] := by decide +kernel

end Validate
end Meds
