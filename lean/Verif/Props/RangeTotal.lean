import Verif.Props.RangeExtract

/-!
# C18, C19, C20, C24, C55: when range extraction completes, when two extractions are equal files, what it drops

-/

namespace Meds
open Spec

namespace Extract

theorem readSlice_total {α : Type} (pix : List α) {a b : Int} (h : 0 ≤ a) (h' : a < b) : ∃ l, readSlice pix a b = .ok l := by
  unfold readSlice
  rw [if_neg (by omega), if_neg (by omega)]
  exact ⟨_, rfl⟩

theorem imageSlice_total {f : Fits} {n : String} (hn : ∃ pix, f.find n = some (.image pix)) {a b : Int} (h : 0 ≤ a) (h' : a < b) :
    ∃ l, f.imageSlice n a b = .ok l := by
  obtain ⟨pix, hp⟩ := hn
  unfold Fits.imageSlice
  rw [hp]
  exact readSlice_total pix h h'

theorem withCutouts_ends {rows : List ObjRow} (hfit : EpochsFit rows) (hne : withCutouts rows ≠ []) :
    ∃ first last s0 s1, (withCutouts rows).head? = some first ∧ (withCutouts rows).getLast? = some last ∧
      (∃ i : Nat, Epoch rows i 0 first s0) ∧ (∃ i : Nat, Epoch rows i (last.ncutout - 1).toNat last s1) ∧
      pyGet first.slots 0 = .ok s0 ∧ pyGet last.slots (last.ncutout - 1) = .ok s1 := by
  obtain ⟨first, h1⟩ : ∃ x, (withCutouts rows).head? = some x := by
    cases hw : withCutouts rows with
    | nil => exact absurd hw hne
    | cons x t => exact ⟨x, rfl⟩
  obtain ⟨last, h2⟩ : ∃ x, (withCutouts rows).getLast? = some x := ⟨_, List.getLast?_eq_some_getLast hne⟩
  obtain ⟨j, hj, hjn, _⟩ := head_withCutouts h1
  obtain ⟨l, hl, hln, _⟩ := last_withCutouts h2
  have f1 := hfit first (List.mem_of_getElem? hj)
  have f2 := hfit last (List.mem_of_getElem? hl)
  have e1 : first.slots[0]? = some (first.slots[0]'(by omega)) := List.getElem?_eq_getElem _
  have e2 : last.slots[(last.ncutout - 1).toNat]? = some (last.slots[(last.ncutout - 1).toNat]'(by omega)) := List.getElem?_eq_getElem _
  refine ⟨first, last, _, _, h1, h2, ⟨j, hj, by push_cast; omega, e1⟩, ⟨l, hl, by omega, e2⟩, ?_, ?_⟩
  · exact pyGet_nat_some e1
  · have := pyGet_nat_some e2
    rwa [Int.toNat_of_nonneg (by omega)] at this

/-- **C18 (completion)** Extraction of a non-empty range completes for every file in catalogue order whose cutout and PSF extensions are images with
at least one pixel per epoch, provided the PSF sizes are given per epoch, or as a box size. -/
theorem C18_extraction_completes {f : Fits} {m : MEDS} {a b : Int} (copyAll : Bool) (ho : MEDS.openFile f = .ok m)
    (hord : CutoutsInOrder m.cat.rows) (hpsf : f.has "psf" = true → PsfInOrder m.cat)
    (ha : 0 ≤ a) (hab : a ≤ b) (has : a < m.size)
    (himg : ∀ n ∈ ["image_cutouts", "weight_cutouts", "seg_cutouts"], ∃ pix, f.find n = some (.image pix))
    (hopt : ∀ n ∈ ["bmask_cutouts", "noise_cutouts", "psf"], f.has n = true → ∃ pix, f.find n = some (.image pix))
    (hbox : ∀ i k o s, Epoch m.cat.rows i k o s → o.boxSize ≠ 0)
    (hpix : f.has "psf" = true → ∀ i k o s, Epoch m.cat.rows i k o s → psfPixels m.cat.dtype o s ≠ 0)
    (hkind : f.has "psf" = true → m.cat.dtype.psfBox ≠ .absent ∨ m.cat.dtype.psfRowCol = .perEpoch) :
    ∃ g, extractRange f a b copyAll = .ok g := by
  obtain ⟨p1, p2, p3, p4⟩ := opened_parts ho
  have hs := CutoutsInOrder.slice hord a.toNat (b + 1).toNat
  set rows := (m.cat.rows.take (b + 1).toNat).drop a.toNat with hrows
  have hep : ∀ i k o s, Epoch rows i k o s → Epoch m.cat.rows (a.toNat + i) k o s := fun i k o s he => (epoch_slice.mp he).2
  by_cases hne : withCutouts rows = []
  · -- nothing to read
    have e1 : rowRange rows = .ok (-1, -1) := by unfold rowRange; rw [hne]; rfl
    have e2 : psfRowRange m.cat.dtype rows = .ok (-1, -1) := by unfold psfRowRange; rw [hne]; rfl
    obtain ⟨q, hq⟩ : ∃ q, psfRange f m.cat.dtype rows = .ok q := by
      unfold psfRange
      split
      · rw [e2]; exact ⟨_, rfl⟩
      · exact ⟨_, rfl⟩
    exact ⟨_, ranged_iff.mpr ⟨m.cat, rows, _, q, m.info, m.metaData, dummyHdus,
      hab, p2, ⟨ha, has⟩, rfl, e1, hq, p3, p4, rfl, rfl⟩⟩
  · obtain ⟨first, last, s0, s1, h1, h2, ⟨i0, e0⟩, ⟨i1, e1⟩, g0, g1⟩ := withCutouts_ends hs.fit hne
    have er : rowRange rows = .ok (s0.startRow, s1.startRow + last.boxSize ^ 2) := by
      unfold rowRange
      rw [h1, h2]
      dsimp only
      rw [g0, g1]
      rfl
    obtain ⟨r1, _, r2, r3⟩ := eff_le hs.pieces er hne
    dsimp only at r1 r2 r3
    have hlt : s0.startRow < s1.startRow + last.boxSize ^ 2 := by
      have h3 := (r3 _ _ _ _ e1).1
      have := hbox _ _ _ _ (hep _ _ _ _ e1)
      have := sq_pos_of_ne_zero this
      omega
    obtain ⟨cuts, hc⟩ : ∃ c, mapRes (sliceExt f (s0.startRow, s1.startRow + last.boxSize ^ 2)) (rangeExts f) = .ok c := by
      apply mapRes_of_forall
      intro n hn
      have hnf : ∃ pix, f.find n = some (.image pix) := by
        unfold rangeExts at hn
        rcases List.mem_append.mp hn with hn | hn
        · exact himg n hn
        · obtain ⟨h3, h4⟩ := List.mem_filter.mp hn
          apply hopt n _ h4
          simp only [List.mem_cons, List.not_mem_nil, or_false] at h3 ⊢
          tauto
      obtain ⟨l, hl⟩ := imageSlice_total hnf r2 hlt
      unfold sliceExt
      dsimp only
      rw [hl]
      exact ⟨_, rfl⟩
    obtain ⟨q, p, hq, hp⟩ : ∃ q p, psfRange f m.cat.dtype rows = .ok q ∧ psfHdu f q = .ok p := by
      unfold psfRange
      split
      · rename_i hfp
        have hP := hpsf hfp
        have hps : PiecesInOrder (fun _ s => s.psfStartRow) (psfPixels m.cat.dtype) rows := PiecesInOrder.slice hP.pieces a.toNat (b + 1).toNat
        obtain ⟨n, hn⟩ : ∃ n, psfNpix m.cat.dtype last (last.ncutout - 1) = .ok n := by
          unfold psfNpix
          rw [g1]
          have := hkind hfp
          cases hb : m.cat.dtype.psfBox <;> rw [hb] at this
          · rcases this with h | h
            · exact absurd rfl h
            · rw [h]; exact ⟨_, rfl⟩
          · exact ⟨_, rfl⟩
          · exact ⟨_, rfl⟩
        obtain ⟨_, _, hln, _⟩ := last_withCutouts h2
        have hn' := psfNpix_ok hln hP.oneWay e1.2.2 hn
        subst hn'
        have eq : psfRowRange m.cat.dtype rows = .ok (s0.psfStartRow, s1.psfStartRow + psfPixels m.cat.dtype last s1) := by
          unfold psfRowRange
          rw [h1, h2]
          dsimp only
          rw [g0, hn, g1]
          rfl
        obtain ⟨_, _, q2, q3⟩ := effPsf_le hps hP.oneWay eq hne
        dsimp only at q2 q3
        have : s0.psfStartRow < s1.psfStartRow + psfPixels m.cat.dtype last s1 := by
          have h3 := (q3 _ _ _ _ e1).1
          have h4 := hpix hfp _ _ _ _ (hep _ _ _ _ e1)
          have h5 := hps.npix_nonneg _ _ _ _ e1
          omega
        obtain ⟨l, hl⟩ := imageSlice_total (hopt "psf" (by decide) hfp) q2 this
        rw [eq]
        refine ⟨_, [("psf", .image l)], rfl, ?_⟩
        unfold psfHdu
        dsimp only
        rw [hl]
        rfl
      · exact ⟨none, [], rfl, rfl⟩
    refine ⟨_, ranged_iff.mpr ⟨m.cat, rows, _, q, m.info, m.metaData, cuts ++ p, hab, p2, ⟨ha, has⟩, rfl, er, hq, p3, p4, ?_, rfl⟩⟩
    unfold rangeCutouts
    rw [if_neg r1, hc, hp]
    rfl

/-- **C18 (limits)** A file whose catalogue gives the PSF sizes once per object (which the reader accepts) can not be extracted if a chosen object
has cutouts: the extractor raises IndexError. -/
theorem C18_one_psf_size_per_object_fails {f : Fits} {m : MEDS} {a b : Int} (copyAll : Bool) (ho : MEDS.openFile f = .ok m)
    (hfit : EpochsFit m.cat.rows) (ha : 0 ≤ a) (hab : a ≤ b) (hp : f.has "psf" = true)
    (hd : m.cat.dtype.psfBox = .absent ∧ m.cat.dtype.psfRowCol = .perObj)
    {i : Nat} {o : ObjRow} (hi : m.cat.rows[i]? = some o) (hia : a ≤ i) (hib : (i : Int) ≤ b) (hn : 0 < o.ncutout) :
    extractRange f a b copyAll = .error .indexError := by
  obtain ⟨p1, p2, p3, p4⟩ := opened_parts ho
  have hil : i < m.cat.rows.length := (List.getElem?_eq_some_iff.mp hi).1
  unfold extractRange
  rw [if_neg (by omega)]
  unfold range
  rw [objects_ok.mpr p2]
  simp only [Res.ok_bind]
  unfold sliceRows
  rw [if_neg (by omega)]
  simp only [Res.ok_bind]
  set rows := (m.cat.rows.take (b + 1).toNat).drop a.toNat with hrows
  have hfit' : EpochsFit rows := fun o hm => hfit o (List.mem_of_mem_take (List.mem_of_mem_drop hm))
  have hmem : o ∈ rows := by
    rw [List.mem_iff_getElem?]
    refine ⟨i - a.toNat, ?_⟩
    rw [hrows, List.getElem?_drop, List.getElem?_take, if_pos (by omega), show a.toNat + (i - a.toNat) = i by omega, hi]
  have hne : withCutouts rows ≠ [] := by
    intro hw
    have := withCutouts_nil.mp hw o hmem
    omega
  obtain ⟨first, last, s0, s1, h1, h2, _, _, g0, g1⟩ := withCutouts_ends hfit' hne
  have er : rowRange rows = .ok (s0.startRow, s1.startRow + last.boxSize ^ 2) := by
    unfold rowRange
    rw [h1, h2]
    dsimp only
    rw [g0, g1]
    rfl
  rw [er]
  simp only [Res.ok_bind]
  rw [psfRange_shift]
  unfold psfRange psfRowRange
  rw [if_pos hp, h1, h2]
  dsimp only
  rw [g0]
  unfold psfNpix
  rw [hd.1, hd.2]
  rfl

/-! ### C24: the catalogue extractor -/

/-- **C24** The catalogue extractor completes exactly on the files that open as MEDS files, and writes the whole catalogue, the image info and the
metadata, unchanged, and nothing else. -/
theorem C24_catalogue_copied (f g : Fits) :
    extractCatalog f = .ok g ↔ ∃ m, MEDS.openFile f = .ok m ∧
      g.hdus = [("object_data", .objects m.cat), ("image_info", .info m.info), ("metadata", .metadata m.metaData)] := by
  unfold extractCatalog
  constructor
  · intro h
    obtain ⟨t, ht, h⟩ := Res.bind_eq_ok.mp h
    obtain ⟨i, hi, h⟩ := Res.bind_eq_ok.mp h
    obtain ⟨md, hm, h⟩ := Res.bind_eq_ok.mp h
    injection h with h
    refine ⟨{ fits := f, cat := t, info := i, metaData := md }, ?_, by rw [← h]⟩
    unfold MEDS.openFile
    rw [objects_ok.mp ht, imageInfo_ok.mp hi, metaTable_ok.mp hm]
  · rintro ⟨m, hm, hg⟩
    obtain ⟨p1, p2, p3, p4⟩ := opened_parts hm
    rw [objects_ok.mpr p2, imageInfo_ok.mpr p3, metaTable_ok.mpr p4]
    simp only [Res.ok_bind]
    rw [← hg]

/-- **C24** The result opens with the same catalogue, image info and metadata; source and geometry calls answer as before, and there are no pixels:
no cutout, mosaic or PSF request returns an image. -/
theorem C24_catalogue_opens {f g : Fits} {m : MEDS} (ho : MEDS.openFile f = .ok m) (hx : extractCatalog f = .ok g) :
    ∃ mg, MEDS.openFile g = .ok mg ∧ mg.cat = m.cat ∧ mg.info = m.info ∧ mg.metaData = m.metaData ∧
      (∀ i k : Int, mg.getSourceInfo i k = m.getSourceInfo i k ∧ mg.getSourcePath i k = m.getSourcePath i k ∧
        mg.getJacobian i k = m.getJacobian i k ∧ mg.getCutoutRowcol i k = m.getCutoutRowcol i k ∧ mg.getNumber i = m.getNumber i) ∧
      (∀ (i k : Int) (t : String) (im : Img ℚ), mg.getCutout i k t ≠ .ok im ∧ mg.getMosaic i t ≠ .ok im ∧ mg.getPsf i k ≠ .ok im) := by
  obtain ⟨m', hm', hg⟩ := (C24_catalogue_copied f g).mp hx
  rw [ho] at hm'
  injection hm' with hm'
  subst hm'
  have e1 : g.find "object_data" = some (.objects m.cat) := by unfold Fits.find; rw [hg]; rfl
  have e2 : g.find "image_info" = some (.info m.info) := by unfold Fits.find; rw [hg]; simp [Fits.lookup]
  have e3 : g.find "metadata" = some (.metadata m.metaData) := by unfold Fits.find; rw [hg]; simp [Fits.lookup]
  have ep : g.has "psf" = false := by unfold Fits.has Fits.find; rw [hg]; simp [Fits.lookup]
  have eimg : ∀ n a b l, g.imageSlice n a b ≠ .ok l := by
    intro n a b l h
    unfold Fits.imageSlice Fits.find at h
    rw [hg] at h
    simp only [Fits.lookup] at h
    split at h
    · rename_i pix hh
      split at hh
      · cases hh
      · split at hh
        · cases hh
        · split at hh <;> cases hh
    · cases h
  have hps : ∀ (i k : Int) (im : Img ℚ), ({ fits := g, cat := m.cat, info := m.info, metaData := m.metaData } : MEDS).getPsf i k ≠ .ok im := by
    intro i k im h
    unfold MEDS.getPsf MEDS.hasPsf at h
    dsimp only at h
    rw [ep] at h
    cases h
  refine ⟨{ fits := g, cat := m.cat, info := m.info, metaData := m.metaData }, ?_, rfl, rfl, rfl, ?_, ?_⟩
  · unfold MEDS.openFile
    rw [e1, e2, e3]
  · intro i k
    exact ⟨rfl, rfl, rfl, rfl, rfl⟩
  · intro i k t im
    refine ⟨?_, ?_, hps i k im⟩
    · intro h
      unfold MEDS.getCutout at h
      split at h
      · exact hps i k im h
      · obtain ⟨_, _, h⟩ := Res.bind_eq_ok.mp h
        obtain ⟨_, _, h⟩ := Res.bind_eq_ok.mp h
        obtain ⟨_, _, h⟩ := Res.bind_eq_ok.mp h
        obtain ⟨_, _, h⟩ := Res.bind_eq_ok.mp h
        obtain ⟨_, h', _⟩ := Res.bind_eq_ok.mp h
        exact eimg _ _ _ _ h'
    · intro h
      unfold MEDS.getMosaic at h
      obtain ⟨_, _, h⟩ := Res.bind_eq_ok.mp h
      obtain ⟨_, _, h⟩ := Res.bind_eq_ok.mp h
      obtain ⟨_, _, h⟩ := Res.bind_eq_ok.mp h
      obtain ⟨_, _, h⟩ := Res.bind_eq_ok.mp h
      obtain ⟨_, h', _⟩ := Res.bind_eq_ok.mp h
      exact eimg _ _ _ _ h'

/-! ### C55: object numbers -/

/-- **C55** (partial: files with a `number` column) Extraction keeps every object's number: `get_number` gives, before and after, the value of
the `number` column in the row the object was copied from. -/
theorem C55_number_kept_partial {f g : Fits} {m mg : MEDS} {a b : Int} {copyAll : Bool} (ho : MEDS.openFile f = .ok m)
    (hx : extractRange f a b copyAll = .ok g) (hg : MEDS.openFile g = .ok mg) (hn : m.cat.dtype.hasNumber = true)
    {i : Nat} (hi : i < mg.size) :
    ∃ o, m.cat.rows[(a + i).toNat]? = some o ∧ mg.getNumber i = .ok o.number ∧ m.getNumber (a + i) = .ok o.number := by
  obtain ⟨t, rows, r, psf, info, md, cuts, h⟩ := ranged_iff.mp hx
  obtain ⟨p1, p2, p3, p4⟩ := opened_parts ho
  have htc : t = m.cat := by have := h.objects; rw [p2] at this; simpa using this.symm
  subst htc
  have := h.opens
  rw [hg] at this
  injection this with this
  subst this
  unfold MEDS.size at hi
  simp only [List.length_map] at hi
  obtain ⟨o, hri⟩ : ∃ o, rows[i]? = some o := ⟨_, List.getElem?_eq_getElem hi⟩
  have hrow : m.cat.rows[a.toNat + i]? = some o := by
    have hri := hri
    rw [h.rows_eq, List.getElem?_drop, List.getElem?_take] at hri
    split at hri
    · exact hri
    · cases hri
  have hin := h.inside
  have hai : a + (i : Int) = ((a.toNat + i : Nat) : Int) := by omega
  refine ⟨o, by rw [hai]; exact hrow, ?_⟩
  unfold MEDS.getNumber MEDS.row
  dsimp only
  rw [hn, if_pos rfl, if_pos rfl, pyGet_nat_some (x := shiftRow (eff r.1) (effPsf psf) o) (by rw [List.getElem?_map, hri]; rfl),
    hai, pyGet_nat_some hrow]
  exact ⟨rfl, rfl⟩

/-- **C55 (what happens otherwise)** Without a `number` column the number is the row plus one, so it changes by the start of the range. -/
theorem C55_number_without_column {f g : Fits} {m mg : MEDS} {a b : Int} {copyAll : Bool} (ho : MEDS.openFile f = .ok m)
    (hx : extractRange f a b copyAll = .ok g) (hg : MEDS.openFile g = .ok mg) (hn : m.cat.dtype.hasNumber = false) (i : Nat) :
    mg.getNumber i = .ok (i + 1) ∧ m.getNumber (a + i) = .ok (a + i + 1) := by
  obtain ⟨t, rows, r, psf, info, md, cuts, h⟩ := ranged_iff.mp hx
  obtain ⟨p1, p2, p3, p4⟩ := opened_parts ho
  have htc : t = m.cat := by have := h.objects; rw [p2] at this; simpa using this.symm
  subst htc
  have := h.opens
  rw [hg] at this
  injection this with this
  subst this
  unfold MEDS.getNumber
  dsimp only
  rw [hn]
  exact ⟨rfl, rfl⟩

end Extract
end Meds
