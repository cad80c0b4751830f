import Verif.Props.RangeTotal

/-!
# C20: `copy_all`, and concrete extractions
-/

namespace Meds
open Spec

namespace Extract

/-- How often a name occurs among the extensions. -/
def nameCount (f : Fits) (n : String) : Nat := (f.hdus.map (·.1)).count n

theorem lookup_filter {l : List (String × Hdu)} {n : String} (q : String → Bool) (hq : q n = true) :
    Fits.lookup (l.filter (fun h => q h.1)) n = Fits.lookup l n := by
  induction l with
  | nil => rfl
  | cons x t ih =>
    obtain ⟨nm, h⟩ := x
    by_cases hn : nm = n
    · subst hn
      rw [List.filter_cons_of_pos (by simpa using hq)]
      simp [Fits.lookup]
    · by_cases hk : q nm = true
      · rw [List.filter_cons_of_pos (by simpa using hk)]
        simp only [Fits.lookup, if_neg hn]
        exact ih
      · rw [List.filter_cons_of_neg (by simpa using hk)]
        simp only [Fits.lookup, if_neg hn]
        exact ih

theorem mapRes_mem {α β : Type} {f : α → Res β} {l : List α} {ys : List β} (h : mapRes f l = .ok ys) {y : β} (hy : y ∈ ys) :
    ∃ x ∈ l, f x = .ok y := by
  obtain ⟨k, hk, rfl⟩ := List.mem_iff_getElem.mp hy
  have hf := mapRes_ok_iff.mp h
  have hl := hf.length_eq
  exact ⟨l[k]'(by omega), List.getElem_mem _, (List.forall₂_iff_get.mp hf).2 k (by omega) hk⟩

/-- The names of the extensions written before the extra ones. -/
theorem Ranged.cut_names {f g : Fits} {a b : Int} {copyAll : Bool} {t : ObjTable} {rows : List ObjRow} {r : Int × Int} {psf : Option (Int × Int)}
    {info : List InfoRow} {md : String} {cuts : List (String × Hdu)} (h : Ranged f a b copyAll t rows r psf info md cuts g) :
    ∀ x ∈ cuts, x.1 ∈ defaultExt ∨ x.1 = "noise_cutouts" := by
  intro x hx
  by_cases hr : r.1 = -1
  · have := h.cuts_eq
    unfold rangeCutouts at this
    rw [if_pos hr] at this
    injection this with this
    subst this
    left
    simp only [dummyHdus, List.mem_cons, List.not_mem_nil, or_false] at hx
    rcases hx with rfl | rfl | rfl | rfl <;> decide
  · obtain ⟨c, p, hc, hp, rfl⟩ := h.cuts_some hr
    rcases List.mem_append.mp hx with hx | hx
    · obtain ⟨n, hn, hs⟩ := mapRes_mem hc hx
      obtain ⟨_, _, _, _, rfl⟩ := sliceExt_ok hs
      unfold rangeExts at hn
      dsimp only
      simp only [List.mem_append, List.mem_filter, List.mem_cons, List.not_mem_nil, or_false] at hn
      rcases hn with (rfl | rfl | rfl) | ⟨rfl | rfl, _⟩
      · left; decide
      · left; decide
      · left; decide
      · left; decide
      · right; rfl
    · rcases Ranged.psf_name hp with ⟨_, rfl⟩ | ⟨_, _, _, _, _, _, rfl⟩
      · cases hx
      · simp only [List.mem_cons, List.not_mem_nil, or_false] at hx
        subst hx
        left
        show "psf" ∈ defaultExt
        decide

/-- **C20 (what `copy_all` does)** Every extension outside the standard list is copied, byte for byte, not cut to the extracted objects. -/
theorem C20_extra_copied_whole {f g : Fits} {a b : Int} (hx : extractRange f a b true = .ok g) {n : String}
    (hn : n ∉ ["object_data", "image_info", "metadata", "image_cutouts", "weight_cutouts", "seg_cutouts", "bmask_cutouts", "psf", "noise"])
    (hn' : n ≠ "noise_cutouts") : g.find n = f.find n ∧ nameCount g n = nameCount f n := by
  obtain ⟨t, rows, r, psf, info, md, cuts, h⟩ := ranged_iff.mp hx
  have hno : ∀ x ∈ cuts, x.1 ≠ n := by
    intro x hxc e
    rcases h.cut_names x hxc with h1 | h1
    · rw [e] at h1; exact hn h1
    · rw [e] at h1; exact hn' h1
  have hne : ∀ k ∈ defaultExt, k ≠ n := fun k hk e => hn (e ▸ hk)
  constructor
  · rw [h.out]
    unfold Fits.find
    dsimp only
    rw [lookup_append, lookup_append]
    have e1 : Fits.lookup cuts n = none := by
      clear h
      induction cuts with
      | nil => rfl
      | cons x t ih =>
        obtain ⟨nm, hd⟩ := x
        simp only [Fits.lookup, if_neg (show nm ≠ n from hno (nm, hd) List.mem_cons_self)]
        exact ih (fun y hy => hno y (List.mem_cons_of_mem _ hy))
    rw [e1]
    have e2 : Fits.lookup (extras f true) n = Fits.lookup f.hdus n := by
      unfold extras
      rw [if_pos rfl]
      exact lookup_filter (fun m => decide (m ∉ defaultExt)) (decide_eq_true hn)
    rw [e2]
    simp [Fits.lookup, hne "object_data" (by decide), hne "image_info" (by decide), hne "metadata" (by decide)]
  · unfold nameCount
    rw [h.out]
    dsimp only
    rw [List.map_append, List.map_append, List.count_append, List.count_append]
    have e1 : (cuts.map (·.1)).count n = 0 := by
      rw [List.count_eq_zero]
      intro hm
      obtain ⟨x, hxc, e⟩ := List.mem_map.mp hm
      exact hno x hxc e
    have e2 : (([("object_data", Hdu.objects { t with rows := rows.map (shiftRow (eff r.1) (effPsf psf)) }), ("image_info", Hdu.info info), ("metadata", Hdu.metadata md)] : List (String × Hdu)).map (·.1)).count n = 0 := by
      rw [List.count_eq_zero]
      simp only [List.map_cons, List.map_nil, List.mem_cons, List.not_mem_nil, or_false, not_or]
      exact ⟨(hne "object_data" (by decide)).symm, (hne "image_info" (by decide)).symm, (hne "metadata" (by decide)).symm⟩
    have e3 : ((extras f true).map (·.1)).count n = (f.hdus.map (·.1)).count n := by
      unfold extras
      rw [if_pos rfl]
      generalize f.hdus = l
      induction l with
      | nil => rfl
      | cons x t ih =>
        by_cases hk : x.1 ∉ defaultExt
        · rw [List.filter_cons_of_pos (by simpa using hk)]
          simp only [List.map_cons, List.count_cons, ih]
        · rw [List.filter_cons_of_neg (by simpa using hk)]
          have : x.1 ≠ n := hne _ (by simpa using hk)
          simp only [List.map_cons, List.count_cons, ih]
          simp [this]
    omega

/-- **C20** (partial: ranges whose first cutout is stored at the very beginning of the file) With `copy_all` every supported cutout type, including `ormask`,
reads as before.  Missing: ranges that start later, for which `C20_counterexample` shows wrong pixels. -/
theorem C20_copy_all_from_start_partial {f g : Fits} {m : MEDS} {a b : Int} (ho : MEDS.openFile f = .ok m)
    (hord : CutoutsInOrder m.cat.rows) (hpsf : f.has "psf" = true → PsfInOrder m.cat)
    (hx : extractRange f a b true = .ok g)
    (hz : ∃ (i k : Nat) (o : ObjRow) (s : Slot), Epoch m.cat.rows i k o s ∧ a ≤ i ∧ (i : Int) ≤ b ∧ s.startRow = 0) :
    ∃ mg, MEDS.openFile g = .ok mg ∧ ∀ i : Nat, i < mg.size →
      SameView ["image", "weight", "seg", "bmask", "noise", "ormask"] mg i m (a.toNat + i) := by
  obtain ⟨t, rows, r, psf, info, md, cuts, h⟩ := ranged_iff.mp hx
  obtain ⟨p1, p2, p3, p4⟩ := opened_parts ho
  have htc : t = m.cat := by have := h.objects; rw [p2] at this; simpa using this.symm
  subst htc
  refine ⟨_, h.opens, fun i hi => ?_⟩
  unfold MEDS.size at hi
  simp only [List.length_map] at hi
  obtain ⟨o, hri⟩ : ∃ o, rows[i]? = some o := ⟨_, List.getElem?_eq_getElem hi⟩
  have tw := twin_range h ho hord hpsf hri
  have hs : CutoutsInOrder rows := by rw [h.rows_eq]; exact CutoutsInOrder.slice hord _ _
  refine (Twin.sameView (types := ["image", "weight", "seg", "bmask", "noise", "ormask"]) (o := o) (o' := shiftRow (eff r.1) (effPsf psf) o) ?_).symm
  refine { row := tw.row, row' := tw.row', same := tw.same, dtype := tw.dtype, info := tw.info, psf := tw.psf, nonneg := tw.nonneg, ext := ?_ }
  intro ty hty
  by_cases hk : ty ∈ keptTypes
  · exact tw.ext ty hk
  have hty : ty = "ormask" := by
    simp only [keptTypes, List.mem_cons, List.not_mem_nil, or_false] at hk hty
    tauto
  subst hty
  refine ⟨by decide, fun hn => ?_⟩
  have hne : withCutouts rows ≠ [] := fun hw => by
    have := withCutouts_nil.mp hw o (List.mem_of_getElem? hri)
    omega
  obtain ⟨r1, r2, r3, r4⟩ := eff_le hs.pieces h.range hne
  have hr0 : r.1 = 0 := by
    obtain ⟨i', k', o', s', he', hi', hb, h0⟩ := hz
    have hin := h.inside
    have he : Epoch rows (i' - a.toNat) k' o' s' := by
      rw [h.rows_eq]
      exact epoch_slice.mpr ⟨by omega, by rw [show a.toNat + (i' - a.toNat) = i' by omega]; exact he'⟩
    have := (r4 _ _ _ _ he).1
    omega
  have hc := (C20_extra_copied_whole hx (n := "ormask_cutouts") (by decide) (by decide)).1
  have hhas : g.has "ormask_cutouts" = f.has "ormask_cutouts" := by unfold Fits.has; rw [hc]
  have hsl : ∀ x y, g.imageSlice "ormask_cutouts" x y = f.imageSlice "ormask_cutouts" x y := by
    intro x y; unfold Fits.imageSlice; rw [hc]
  have hst : ∀ (k : Nat) (s s' : Slot), o.slots[k]? = some s → (shiftRow (eff r.1) (effPsf psf) o).slots[k]? = some s' → s'.startRow = s.startRow := by
    intro k s s' e1 e2
    simp only [shiftRow, List.getElem?_map, e1, Option.map_some, Option.some.injEq] at e2
    rw [← e2, r2, hr0]
    simp
  rw [p1]
  refine ⟨hhas, ?_, ?_⟩
  · intro k s s' _ e1 e2
    rw [hst k s s' e1 e2]
    exact hsl _ _
  · intro s s' e1 e2
    rw [hst 0 s s' e1 e2]
    exact hsl _ _

end Extract
end Meds

namespace Meds.Ex
open Spec Extract

/-- The example file with noise and ormask extensions as other programs may add them: as many pixels as the image extension. -/
def withMore : Fits :=
  ⟨file.hdus ++ [("noise_cutouts", .image ((List.range 200).map (fun n : Nat => (n : ℚ)))), ("ormask_cutouts", .image ((List.range 200).map (fun n : Nat => (n : ℚ))))]⟩

theorem file_in_order : CutoutsInOrder med.cat.rows := by
  obtain ⟨mk, mk', h1, h2⟩ := run_file
  exact C18_written_in_order h1 h2 open_file

theorem file_psf_in_order : PsfInOrder med.cat := by
  obtain ⟨mk, mk', h1, h2⟩ := run_file
  refine C18_written_psf_in_order h1 h2 open_file ?_ (by decide +kernel)
  intro ps hps p hp sky r c
  injection hps with hps
  subst hps
  simp only [psfs, List.mem_cons, List.not_mem_nil, or_false] at hp
  rcases hp with rfl | rfl | rfl <;> simp [psf, Img.WF, Img.ofFn]

theorem more_opens : MEDS.openFile withMore = .ok { med with fits := withMore } := by decide +kernel

/-- Run an extraction and a test on the result. -/
def extracted (f : Fits) (a b : Int) (copyAll : Bool) (test : MEDS → Bool) : Bool :=
  match extractRange f a b copyAll with
  | .ok g =>
    match MEDS.openFile g with
    | .ok m => test m
    | .error _ => false
  | .error _ => false

theorem extracted_iff {f : Fits} {a b : Int} {c : Bool} {test : MEDS → Bool} (h : extracted f a b c test = true) :
    ∃ g mg, extractRange f a b c = .ok g ∧ MEDS.openFile g = .ok mg ∧ test mg = true := by
  unfold extracted at h
  split at h
  · rename_i g hg
    split at h
    · rename_i m hm; exact ⟨g, m, hg, hm, h⟩
    · cases h
  · cases h

-- the hypotheses of C18, C19 and C20_copy_all_from_start_partial are met by the file of the example run, and the extractions complete
example : ∃ g, extractRange file 1 1 false = .ok g := by
  obtain ⟨g, _, h, _⟩ := extracted_iff (f := file) (a := 1) (b := 1) (c := false) (test := fun _ => true) (by decide +kernel)
  exact ⟨g, h⟩

-- the second object alone: its pixels moved to the front, same cutouts, same PSFs, one row
example : extracted file 1 1 false (fun mg =>
    decide (mg.size = 1) && decide (mg.cat.rows.map (fun o => o.slots.map (·.startRow)) = [[0, 4, 8]]) &&
    decide (med.cat.rows.map (fun o => o.slots.map (·.startRow)) = [[0, 16, -9999], [32, 36, 40]]) &&
    decide (mg.getCutout 0 2 "image" = med.getCutout 1 2 "image") && decide (mg.getPsf 0 2 = med.getPsf 1 2) &&
    decide (mg.getMosaic 0 "weight" = med.getMosaic 1 "weight")) = true := by decide +kernel

-- ... and extracting it from an extraction of everything is the same
example : extracted file 0 1 false (fun m1 => extracted m1.fits 1 1 false (fun m2 => extracted file 1 1 false (fun m3 => decide (m2 = m3)))) = true := by
  decide +kernel

-- with `copy_all`, from the first object on: ormask reads as before
example : extracted withMore 0 0 true (fun mg => decide (mg.getCutout 0 1 "ormask" = ({ med with fits := withMore } : MEDS).getCutout 0 1 "ormask")) = true := by
  decide +kernel

end Meds.Ex

namespace Meds.Extract
open Spec

/-- **C20 fails** There is a file in catalogue order, extended by noise and ormask extensions, for which `copy_all` writes the noise extension twice,
and an extracted object's ormask cutout has other pixels than before; without `copy_all` it can not be read at all. -/
theorem C20_counterexample : ∃ f m g mg, MEDS.openFile f = .ok m ∧ CutoutsInOrder m.cat.rows ∧ PsfInOrder m.cat ∧
    extractRange f 1 1 true = .ok g ∧ MEDS.openFile g = .ok mg ∧
    nameCount f "noise_cutouts" = 1 ∧ nameCount g "noise_cutouts" = 2 ∧
    (∃ im im', m.getCutout 1 0 "ormask" = .ok im ∧ mg.getCutout 0 0 "ormask" = .ok im' ∧ im ≠ im') ∧
    (∃ g2 mg2, extractRange f 1 1 false = .ok g2 ∧ MEDS.openFile g2 = .ok mg2 ∧ mg2.getCutout 0 0 "ormask" = .error .valueError) := by
  obtain ⟨g, mg, h1, h2, h3⟩ := Ex.extracted_iff (f := Ex.withMore) (a := 1) (b := 1) (c := true)
    (test := fun mg => decide (nameCount mg.fits "noise_cutouts" = 2) && decide (mg.getCutout 0 0 "ormask" = .ok ⟨2, 2, [0, 1, 2, 3]⟩)) (by decide +kernel)
  obtain ⟨g2, mg2, i1, i2, i3⟩ := Ex.extracted_iff (f := Ex.withMore) (a := 1) (b := 1) (c := false)
    (test := fun mg => decide (mg.getCutout 0 0 "ormask" = .error .valueError)) (by decide +kernel)
  simp only [Bool.and_eq_true, decide_eq_true_eq] at h3 i3
  refine ⟨Ex.withMore, _, g, mg, Ex.more_opens, Ex.file_in_order, Ex.file_psf_in_order, h1, h2, by decide +kernel, ?_, ?_, g2, mg2, i1, i2, i3⟩
  · rw [← (opened_parts h2).1]; exact h3.1
  · refine ⟨⟨2, 2, [32, 33, 34, 35]⟩, _, by decide +kernel, h3.2, by decide +kernel⟩

/-- **C55 fails without a `number` column** The numbers change. -/
theorem C55_counterexample : ∃ f m g mg, MEDS.openFile f = .ok m ∧ CutoutsInOrder m.cat.rows ∧ extractRange f 1 1 false = .ok g ∧
    MEDS.openFile g = .ok mg ∧ m.getNumber 1 = .ok 2 ∧ mg.getNumber 0 = .ok 1 := by
  obtain ⟨g, mg, h1, h2, h3⟩ := Ex.extracted_iff
    (f := ⟨[("object_data", .objects { Ex.med.cat with dtype := { Ex.med.cat.dtype with hasNumber := false } })] ++ Ex.file.hdus⟩) (a := 1) (b := 1) (c := false)
    (test := fun mg => decide (mg.getNumber 0 = .ok 1)) (by decide +kernel)
  simp only [decide_eq_true_eq] at h3
  refine ⟨_, { Ex.med with cat := { Ex.med.cat with dtype := { Ex.med.cat.dtype with hasNumber := false } }, fits := ⟨[("object_data", .objects { Ex.med.cat with dtype := { Ex.med.cat.dtype with hasNumber := false } })] ++ Ex.file.hdus⟩ },
    g, mg, by decide +kernel, Ex.file_in_order, h1, h2, by decide +kernel, h3⟩

end Meds.Extract
