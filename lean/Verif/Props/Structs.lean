import Verif.Model.Structs
import Verif.Props.Table
import Verif.Props.CReader

/-!
# Arrays made with the helpers (C98)
-/

namespace Meds
namespace Columns

variable {α : Type}

/-- Columns that may be added: names used once and not among the others. -/
def _root_.Meds.Spec.NewColumns (used : List String) (extra : List Field) : Prop := (extra.map (·.name)).Nodup ∧ ∀ f ∈ extra, f.name ∉ used

theorem nodup_append_new {l : List String} {extra : List Field} (hl : l.Nodup) : (l ++ extra.map (·.name)).Nodup ↔ Spec.NewColumns l extra := by
  unfold Spec.NewColumns
  rw [List.nodup_append]
  constructor
  · rintro ⟨_, h2, h3⟩
    exact ⟨h2, fun f hf hc => h3 _ hc _ (List.mem_map_of_mem hf) rfl⟩
  · rintro ⟨h1, h2⟩
    refine ⟨hl, h1, fun a ha b hb hab => ?_⟩
    obtain ⟨f, hf, rfl⟩ := List.mem_map.mp hb
    exact h2 f hf (hab ▸ ha)

/-- An array with `n` rows and the given columns, all of one value per column. -/
structure _root_.Meds.Spec.Constant (a : Arr α) (n : Nat) (dt : List Field) (val : String → α) : Prop where
  rows : a.n = n
  descr : a.descr = dt
  vals : ∀ c ∈ a.cols, c.vals.length = n ∧ ∀ r ∈ c.vals, r.length = c.field.width.getD 1 ∧ ∀ v ∈ r, v = val c.field.name

theorem filled_constant {n : Nat} {dt : List Field} {init : String → α} {a : Arr α} (h : filled n dt init = .ok a) : Spec.Constant a n dt init ∧ a.WF := by
  obtain ⟨hnd, rfl⟩ := filled_ok h
  have hv : ∀ c ∈ dt.map (fun f => ({ field := f, vals := List.replicate n (List.replicate (f.width.getD 1) (init f.name)) } : Col α)),
      c.vals.length = n ∧ ∀ r ∈ c.vals, r.length = c.field.width.getD 1 ∧ ∀ v ∈ r, v = init c.field.name := by
    intro c hc
    obtain ⟨f, _, rfl⟩ := List.mem_map.mp hc
    refine ⟨List.length_replicate .., fun r hr => ?_⟩
    rw [List.eq_of_mem_replicate hr]
    exact ⟨List.length_replicate .., fun v hv => List.eq_of_mem_replicate hv⟩
  refine ⟨⟨rfl, ?_, hv⟩, ⟨?_, fun c hc => (hv c hc).1, fun c hc r hr => ((hv c hc).2 r hr).1⟩⟩
  · unfold Arr.descr
    rw [List.map_map]
    exact List.map_id _
  · unfold Arr.names
    rw [List.map_map]
    exact hnd

theorem filled_iff {n : Nat} {dt : List Field} {init : String → α} : (∃ a, filled n dt init = .ok a) ↔ (dt.map (·.name)).Nodup :=
  ⟨fun ⟨_, h⟩ => (filled_ok h).1, fun h => ⟨_, filled_nodup h⟩⟩

theorem filled_dup {n : Nat} {dt : List Field} {init : String → α} (h : ¬ (dt.map (·.name)).Nodup) : filled n dt init = .error .valueError := by
  unfold filled
  rw [if_neg h]

/-- **C98** `get_meds_input_struct` gives an array for any added columns with new names, a ValueError otherwise. -/
theorem C98_input_made {zero : String → α} {defval : α} {n : Nat} {extra : List Field} :
    (Spec.NewColumns ["id", "box_size", "ra", "dec"] extra → ∃ a, inputStruct zero defval n extra = .ok a ∧
      Spec.Constant a n ([⟨"id", none⟩, ⟨"box_size", none⟩, ⟨"ra", none⟩, ⟨"dec", none⟩] ++ extra) (fun s => if s = "ncutout" then zero s else defval)) ∧
    (¬ Spec.NewColumns ["id", "box_size", "ra", "dec"] extra → inputStruct zero defval n extra = .error .valueError) := by
  have hnd : ((inputDtype extra).map (·.name)).Nodup ↔ Spec.NewColumns ["id", "box_size", "ra", "dec"] extra := by
    unfold inputDtype
    rw [List.map_append]
    exact nodup_append_new (by decide)
  constructor
  · intro h
    obtain ⟨a, ha⟩ := filled_iff (n := n) (init := fun s => if s = "ncutout" then zero s else defval) |>.mpr (hnd.mpr h)
    exact ⟨a, ha, (filled_constant ha).1⟩
  · intro h
    exact filled_dup fun hh => h (hnd.mp hh)

/-- **C98** Whatever the user writes into the array, `MEDSMaker` finds the columns that it requires; if no added column is one that the maker computes, the
catalogue is made and keeps every column. -/
theorem C98_input_accepted {zero : String → α} {z defval : α} {n : Nat} {extra : List Field} {a b : Arr α} (h : inputStruct zero defval n extra = .ok a)
    (hd : b.descr = a.descr) :
    checkRequired b = .ok () ∧ (b.WF → (∀ f ∈ extra, f.name ∉ computedNames) → ∀ (psf : Bool) (nmax : Nat),
      ∃ full, setObjData z defval psf nmax b = .ok full ∧ full.n = b.n ∧ ∀ c ∈ b.cols, c ∈ full.cols) := by
  have hdt := (filled_constant h).1.descr
  have hnm : b.names = inputNames ++ extra.map (·.name) := by
    rw [Arr.names_eq, hd, hdt]
    unfold inputDtype
    rw [List.map_append, List.map_map]
    congr 1
  have hreq : ∀ s ∈ inputNames, s ∈ b.names := fun s hs => by rw [hnm]; exact List.mem_append_left _ hs
  refine ⟨?_, fun hw hc psf nmax => ?_⟩
  · unfold checkRequired
    rw [if_neg]
    rw [Nat.not_lt, Nat.le_zero, List.length_eq_zero_iff, List.filter_eq_nil_iff]
    intro s hs
    simp [hreq s hs]
  · have hfield : ∀ c ∈ b.cols, c.field ∈ inputDtype extra := by
      intro c hcc
      rw [← hdt, ← hd]
      exact List.mem_map_of_mem (f := fun c : Col α => c.field) hcc
    obtain ⟨full, h1, _, h3, h4, _⟩ := C64_catalogue_made (zero := z) (defval := defval) (psf := psf) (nmax := nmax) hw hreq
      (by
        intro c hcc hin
        rcases List.mem_append.mp (hfield c hcc) with hf | hf
        · obtain ⟨s, _, hs⟩ := List.mem_map.mp hf
          rw [← hs]
        · have hn := (filled_constant h).2.nodup
          rw [Arr.names_eq, ← hd, ← Arr.names_eq, hnm, List.nodup_append] at hn
          exact absurd rfl (hn.2.2 _ hin _ (List.mem_map_of_mem (f := fun f : Field => f.name) hf)))
      (by
        intro s hs
        rw [hnm] at hs
        rcases List.mem_append.mp hs with hs | hs
        · have : ∀ s ∈ inputNames, s ∉ computedNames := by decide
          exact this s hs
        · obtain ⟨f, hf, rfl⟩ := List.mem_map.mp hs
          exact hc f hf)
    exact ⟨full, h1, h3, h4⟩

/-- The columns of `get_image_info_struct` without the added ones. -/
def _root_.Meds.Spec.infoColumns (wcs : Bool) : List String :=
  ["image_path", "image_ext", "weight_path", "weight_ext", "seg_path", "seg_ext", "bmask_path", "bmask_ext", "bkg_path", "bkg_ext",
   "image_id", "image_flags", "magzp", "scale", "position_offset"] ++ (if wcs then ["wcs"] else [])

theorem infoDtype_eq (wcs : Bool) (extra : List Field) : infoDtype wcs extra = (Spec.infoColumns wcs).map (fun s => ⟨s, none⟩) ++ extra := by
  unfold infoDtype Spec.infoColumns
  cases wcs <;> rfl

/-- **C98** `get_image_info_struct` gives an array with scale 1 and zeros or empty strings elsewhere, for any added columns with new names; a ValueError
otherwise.  Without `wcs_len` a column `wcs` can be added. -/
theorem C98_info_made {zero : String → α} {one : α} {n : Nat} {wcs : Bool} {extra : List Field} :
    (Spec.NewColumns (Spec.infoColumns wcs) extra → ∃ a, infoStruct zero one n wcs extra = .ok a ∧
      Spec.Constant a n ((Spec.infoColumns wcs).map (fun s => ⟨s, none⟩) ++ extra) (fun s => if s = "scale" then one else zero s)) ∧
    (¬ Spec.NewColumns (Spec.infoColumns wcs) extra → infoStruct zero one n wcs extra = .error .valueError) := by
  have hnd : ((infoDtype wcs extra).map (·.name)).Nodup ↔ Spec.NewColumns (Spec.infoColumns wcs) extra := by
    rw [infoDtype_eq, List.map_append, List.map_map]
    rw [show (Spec.infoColumns wcs).map ((fun f : Field => f.name) ∘ fun s => ⟨s, none⟩) = Spec.infoColumns wcs from List.map_id _]
    exact nodup_append_new (by cases wcs <;> decide)
  constructor
  · intro h
    obtain ⟨a, ha⟩ := filled_iff (n := n) (init := fun s => if s = "scale" then one else zero s) |>.mpr (hnd.mpr h)
    refine ⟨a, ha, ?_⟩
    rw [← infoDtype_eq]
    exact (filled_constant ha).1
  · intro h
    exact filled_dup fun hh => h (hnd.mp hh)

/-- **C98** Whatever the user writes into the array, `MEDSMaker` accepts it, and the file has the columns of `image_info` that `validate_meds` asks for. -/
theorem C98_info_accepted {zero : String → α} {one : α} {n : Nat} {wcs : Bool} {extra : List Field} {a b : Arr α} (h : infoStruct zero one n wcs extra = .ok a)
    (hd : b.descr = a.descr) : checkImageInfo b = .ok () ∧ ∀ s ∈ ["image_path", "image_ext", "image_id", "image_flags", "magzp", "scale"], s ∈ b.names := by
  have hdt := (filled_constant h).1.descr
  have hnm : ∀ s ∈ Spec.infoColumns false, s ∈ b.names := by
    intro s hs
    rw [Arr.names_eq, hd, hdt, infoDtype_eq, List.map_append, List.map_map]
    refine List.mem_append_left _ ?_
    rw [show (Spec.infoColumns wcs).map ((fun f : Field => f.name) ∘ fun s => ⟨s, none⟩) = Spec.infoColumns wcs from List.map_id _]
    cases wcs
    · exact hs
    · exact List.mem_append_left _ (by simpa [Spec.infoColumns] using hs)
  refine ⟨C67_image_info.mpr ⟨?_, ?_, ?_, ?_, ?_, ?_⟩, fun s hs => hnm s ?_⟩
  · intro t ht
    have : ∀ t ∈ ["image", "weight", "seg", "bmask", "bkg"], t ++ "_path" ∈ Spec.infoColumns false ∧ t ++ "_ext" ∈ Spec.infoColumns false := by decide
    exact ⟨hnm _ (this t ht).1, hnm _ (this t ht).2⟩
  all_goals first | exact hnm _ (by decide) | skip
  have : ∀ s ∈ ["image_path", "image_ext", "image_id", "image_flags", "magzp", "scale"], s ∈ Spec.infoColumns false := by decide
  exact this s hs

/-- **C98** The columns that `meds_open` of the C library asks for are there exactly if `wcs_path` and `sky_path` were added. -/
theorem C98_info_c_columns {zero : String → α} {one : α} {n : Nat} {wcs : Bool} {extra : List Field} {a b : Arr α} (h : infoStruct zero one n wcs extra = .ok a)
    (hd : b.descr = a.descr) : b.names = imageInfoNames wcs (extra.map (·.name)) ∧
      ((∀ s ∈ C.infoColumns, s ∈ b.names) ↔ "wcs_path" ∈ extra.map (·.name) ∧ "sky_path" ∈ extra.map (·.name)) := by
  have hdt := (filled_constant h).1.descr
  have hnm : b.names = Spec.infoColumns wcs ++ extra.map (·.name) := by
    rw [Arr.names_eq, hd, hdt, infoDtype_eq, List.map_append, List.map_map]
    congr 1
    exact List.map_id _
  constructor
  · rw [hnm]
    cases wcs <;> rfl
  · rw [hnm]
    have h1 : "wcs_path" ∉ Spec.infoColumns wcs ∧ "sky_path" ∉ Spec.infoColumns wcs := by cases wcs <;> decide
    have h2 : ∀ s ∈ C.infoColumns, s ∈ Spec.infoColumns wcs ∨ s = "wcs_path" ∨ s = "sky_path" := by cases wcs <;> decide
    constructor
    · intro hh
      exact ⟨(List.mem_append.mp (hh "wcs_path" (by decide))).resolve_left h1.1, (List.mem_append.mp (hh "sky_path" (by decide))).resolve_left h1.2⟩
    · rintro ⟨hw, hs⟩ s hin
      rcases h2 s hin with h | rfl | rfl
      · exact List.mem_append_left _ h
      · exact List.mem_append_right _ hw
      · exact List.mem_append_right _ hs

-- two objects with a column of three colours added, and one image with a column for the sky
example : Spec.NewColumns ["id", "box_size", "ra", "dec"] [⟨"colors", some 3⟩] ∧ Spec.NewColumns (Spec.infoColumns true) [⟨"sky_path", none⟩] := by
  constructor <;> constructor <;> decide

example : (match inputStruct (fun _ => (0 : Int)) (-9999) 2 [⟨"colors", some 3⟩, ⟨"ncutout", none⟩] with
    | .ok a => decide (a.names = ["id", "box_size", "ra", "dec", "colors", "ncutout"] ∧ (a.col? "colors").map (·.vals) = some [[-9999, -9999, -9999], [-9999, -9999, -9999]] ∧
        (a.col? "ncutout").map (·.vals) = some [[0], [0]])
    | .error _ => false) = true := by decide +kernel

example : (match infoStruct (fun _ => (0 : Int)) 1 1 true [⟨"wcs", none⟩] with | .ok _ => none | .error e => some e) = some Err.valueError := by decide +kernel

end Columns
end Meds
