import Verif.Props.MakerLayout
import Verif.Lemmas.Reader

/-!
# What is written is what is read (C01, C07, C10, C11)
-/

namespace Meds
open Spec Maker

section
variable {cfg : MakerCfg} {hn : Bool} {objs : List InputObj} {images : List SrcImage} {psf : Option (List PsfModel)}
  {psfInfo : Option String} {md : String} {mk mk' : Maker} {f : Fits} {m : MEDS}

theorem supported_ne_psf {t : String} (h : t ∈ supportedTypes) : t ≠ "psf" := by
  rintro rfl; revert h; decide

theorem type_ne_psf (hi : Maker.init cfg hn objs images psf psfInfo md = .ok mk) {t : String} (ht : t = "image" ∨ t ∈ cfg.cutoutTypes) :
    t ≠ "psf" := by
  have h := (init_ok hi).2.2.2.2.2.1
  exact supported_ne_psf ((setCutoutTypes_ok h).2 t ((mem_types h t).mpr ht))

/-- The block of pixels of an epoch in a written file. -/
theorem written_cutout (hi : Maker.init cfg hn objs images psf psfInfo md = .ok mk) (hw : mk.write = .ok (mk', f))
    (ho : MEDS.openFile f = .ok m) {t : String} (ht : t = "image" ∨ t ∈ cfg.cutoutTypes)
    {i k : Nat} {o : ObjRow} {s : Slot} (he : Epoch m.cat.rows i k o s) (hbox : 0 < o.boxSize) :
    m.getCutout i k t = .ok ⟨o.boxSize.toNat, o.boxSize.toNat, content cfg images t o s⟩ := by
  have hp := type_ne_psf hi ht
  obtain ⟨in0, w, W, rfl, _⟩ := opened_eq hi hw ho
  have htt : t ∈ mk'.types := (mem_types W.types_ok t).mpr ht
  obtain ⟨_, _, _, h4, _⟩ := writeData_ok W.ready W.write_eq
  have hc := W.ready.tiled
  have hl := target_length (cfg := mk'.cfg) (images := mk'.images) (t := t) hc
  have ha := target_at (cfg := mk'.cfg) (images := mk'.images) (t := t) hc (epoch_mem_cells he)
  rw [regions_eq_cells] at hc
  have hb := Consec.bounds hc (List.mem_map_of_mem (f := fun c : ObjRow × Slot => (c.2.startRow, c.1.boxSize * c.1.boxSize)) (epoch_mem_cells he))
  dsimp only at hb
  have hlen := content_length cfg images t o s
  rw [W.cfg_eq, W.images_eq] at ha
  refine MEDS.getCutout_eq he hp (h4 t htt) hbox hb.1 hlen ?_ ?_
  · rw [hlen, hl]; exact hb.2.2
  · rw [W.cfg_eq, W.images_eq]; exact ha

/-- **C01** Every cutout read back is the source image `file_id` seen through the box at `(orig_start_row, orig_start_col)`:
pixel `(r, c)` is the (cast) source pixel there, or the documented default off the image.  If the image has no such plane, it is the reserved zero. -/
theorem C01_cutouts_read_back (hi : Maker.init cfg hn objs images psf psfInfo md = .ok mk) (hw : mk.write = .ok (mk', f))
    (ho : MEDS.openFile f = .ok m) {i k : Nat} {o : ObjRow} {s : Slot} (he : Epoch m.cat.rows i k o s) (hbox : 0 < o.boxSize)
    {t : String} (ht : t = "image" ∨ t ∈ cfg.cutoutTypes) :
    ∃ (j : Nat) (im : SrcImage) (c : Img ℚ), s.fileId = (j : Int) ∧ images[j]? = some im ∧
      m.getCutout i k t = .ok c ∧ (c.nr : Int) = o.boxSize ∧ (c.nc : Int) = o.boxSize ∧ c.WF ∧
      (∃ r, readImage cfg im t = .ok r) ∧
      (∀ src, readImage cfg im t = .ok (some src) → ∃ fill, documentedFill t = some fill ∧
        ∀ r q : Nat, (r : Int) < o.boxSize → (q : Int) < o.boxSize →
          c.get? r q = some (cutoutPixel (cfg.cast t) fill src s.origStartRow s.origStartCol r q)) ∧
      (readImage cfg im t = .ok none → ∀ r q : Nat, (r : Int) < o.boxSize → (q : Int) < o.boxSize → c.get? r q = some 0) := by
  have hread := written_cutout hi hw ho ht he hbox
  obtain ⟨j, im, h1, h2, _⟩ := C06_positions_recorded hi hw ho he
  have hlen := content_length cfg images t o s
  have hwf : (⟨o.boxSize.toNat, o.boxSize.toNat, content cfg images t o s⟩ : Img ℚ).WF := by
    show (content cfg images t o s).length = _
    have : ((o.boxSize.toNat : Nat) : Int) = o.boxSize := Int.toNat_of_nonneg hbox.le
    zify
    rw [hlen, this]
  refine ⟨j, im, _, h1, h2, hread, Int.toNat_of_nonneg hbox.le, Int.toNat_of_nonneg hbox.le, hwf, ?_, ?_, ?_⟩
  · obtain ⟨in0, w, W, rfl, _⟩ := opened_eq hi hw ho
    exact W.read ((mem_types W.types_ok t).mpr ht) (List.mem_of_getElem? h2)
  · intro src hsrc
    obtain ⟨in0, w, W, rfl, _⟩ := opened_eq hi hw ho
    -- the sub-image was cut when the file was written
    have hsub := W.cut (t := t) ((mem_types W.types_ok t).mpr ht) (epoch_mem_cells he) h1 h2 hsrc
    obtain ⟨sub, hsub⟩ := hsub
    obtain ⟨_, fill, hfill, hsubeq⟩ := subImage_ok hsub
    refine ⟨fill, defaultValue_documented hfill, ?_⟩
    intro r q hr hq
    have hcont : content cfg images t o s = sub.flat := by
      unfold content
      rw [h1, Int.toNat_natCast, h2]
      simp only [hsrc, hsub]
    rw [hcont, hsubeq]
    exact Img.ofFn_get? _ (by omega) (by omega)
  · intro hnone r q hr hq
    have hcont : content cfg images t o s = List.replicate (o.boxSize * o.boxSize).toNat 0 := by
      unfold content
      rw [h1, Int.toNat_natCast, h2]
      simp only [hnone]
    rw [hcont]
    unfold Img.get?
    dsimp only
    rw [if_pos ⟨by omega, by omega⟩, List.getElem?_replicate, if_pos]
    rw [hcont] at hwf
    have hw2 : (List.replicate (o.boxSize * o.boxSize).toNat (0:ℚ)).length = o.boxSize.toNat * o.boxSize.toNat := hwf
    rw [List.length_replicate] at hw2
    rw [hw2]
    exact Img.idx_lt (by omega) (by omega)

/-- **C07** With `position_offset` 1, no border and a plane of the size the WCS declares, the pixel holding the object's centre is a real pixel:
the cutout at `(int(cutout_row), int(cutout_col))` is the source at `(int(orig_row), int(orig_col))`, which is inside the image. -/
theorem C07_centre_pixel_real (hi : Maker.init cfg hn objs images psf psfInfo md = .ok mk) (hw : mk.write = .ok (mk', f))
    (ho : MEDS.openFile f = .ok m) {i k : Nat} {o : ObjRow} {s : Slot} (he : Epoch m.cat.rows i k o s) (hbox : 0 < o.boxSize)
    {t : String} (ht : t = "image" ∨ t ∈ cfg.cutoutTypes) {j : Nat} {im : SrcImage} (hj : s.fileId = (j : Int)) (him : images[j]? = some im)
    (hoff : im.info.positionOffset = 1) (hbuf : ¬(j = 0 ∧ cfg.firstImageIsCoadd = true ∧ cfg.coaddBuffer ≠ 0))
    {src : Img ℚ} (hsrc : readImage cfg im t = .ok (some src)) (hwf : src.WF) (hnr : src.nr = im.wcs.nrow) (hnc : src.nc = im.wcs.ncol) :
    ∃ c v, m.getCutout i k t = .ok c ∧
      0 ≤ ⌊s.origRow⌋ ∧ ⌊s.origRow⌋ < im.wcs.nrow ∧ 0 ≤ ⌊s.origCol⌋ ∧ ⌊s.origCol⌋ < im.wcs.ncol ∧
      0 ≤ ⌊s.cutoutRow⌋ ∧ ⌊s.cutoutRow⌋ < o.boxSize ∧ 0 ≤ ⌊s.cutoutCol⌋ ∧ ⌊s.cutoutCol⌋ < o.boxSize ∧
      src.get? ⌊s.origRow⌋.toNat ⌊s.origCol⌋.toNat = some v ∧
      c.get? ⌊s.cutoutRow⌋.toNat ⌊s.cutoutCol⌋.toNat = some (cfg.cast t v) := by
  obtain ⟨j', im', c, h1, h2, h3, h4, h5, _, _, h7, _⟩ := C01_cutouts_read_back hi hw ho he hbox ht
  have hjj : j' = j := by omega
  subst hjj
  rw [h2] at him; injection him with him; subst him
  obtain ⟨fill, _, hpix⟩ := h7 src hsrc
  obtain ⟨jj, im2, p1, p2, p3, p4, p5, p6, p7, p8, p9, _⟩ := C06_positions_recorded hi hw ho he
  have hjj : jj = j' := by omega
  subst hjj
  rw [p2] at h2; injection h2 with h2; subst h2
  obtain ⟨_, g1, g2, g3, g4⟩ := p3
  have hbd : border cfg jj = 0 := by
    unfold border
    split
    · rename_i hh
      by_contra hne
      exact hbuf ⟨hh.1, hh.2, hne⟩
    · rfl
  rw [← p4, hoff, hbd] at g1 g2
  rw [← p5, hoff, hbd] at g3 g4
  rw [← p4] at p6
  rw [← p5] at p7
  have r0 : 0 ≤ s.origRow := by linarith
  have c0 : 0 ≤ s.origCol := by linarith
  have rf0 : 0 ≤ ⌊s.origRow⌋ := Int.floor_nonneg.mpr r0
  have cf0 : 0 ≤ ⌊s.origCol⌋ := Int.floor_nonneg.mpr c0
  have rf1 : ⌊s.origRow⌋ < im2.wcs.nrow := by
    rw [Int.floor_lt]; push_cast; linarith
  have cf1 : ⌊s.origCol⌋ < im2.wcs.ncol := by
    rw [Int.floor_lt]; push_cast; linarith
  have tr : truncZ s.origRow = ⌊s.origRow⌋ := by unfold truncZ; rw [if_pos r0]
  have tc : truncZ s.origCol = ⌊s.origCol⌋ := by unfold truncZ; rw [if_pos c0]
  rw [tr] at p6
  rw [tc] at p7
  have fr : ⌊s.cutoutRow⌋ = ⌊s.origRow⌋ - s.origStartRow := by rw [p8, Int.floor_sub_intCast]
  have fc : ⌊s.cutoutCol⌋ = ⌊s.origCol⌋ - s.origStartCol := by rw [p9, Int.floor_sub_intCast]
  have heven := (C08_boxes_even hi hw ho he.1).1
  have a1 : 0 ≤ ⌊s.cutoutRow⌋ := by omega
  have a2 : ⌊s.cutoutRow⌋ < o.boxSize := by omega
  have a3 : 0 ≤ ⌊s.cutoutCol⌋ := by omega
  have a4 : ⌊s.cutoutCol⌋ < o.boxSize := by omega
  obtain ⟨v, hv⟩ := Img.get?_some_of_WF hwf (i := ⌊s.origRow⌋.toNat) (j := ⌊s.origCol⌋.toNat) (by omega) (by omega)
  refine ⟨c, v, h3, rf0, rf1, cf0, cf1, a1, a2, a3, a4, hv, ?_⟩
  rw [hpix ⌊s.cutoutRow⌋.toNat ⌊s.cutoutCol⌋.toNat (by omega) (by omega)]
  unfold cutoutPixel pixelAt
  have e1 : s.origStartRow + (⌊s.cutoutRow⌋.toNat : Int) = ⌊s.origRow⌋ := by omega
  have e2 : s.origStartCol + (⌊s.cutoutCol⌋.toNat : Int) = ⌊s.origCol⌋ := by omega
  rw [e1, e2, if_pos ⟨rf0, cf0⟩, hv]

/-- The PSF pixel ranges of a written file and their content. -/
theorem written_psf (hi : Maker.init cfg hn objs images psf psfInfo md = .ok mk) (hw : mk.write = .ok (mk', f))
    (ho : MEDS.openFile f = .ok m) {ps : List PsfModel} (hps : psf = some ps) (hwf : PsfWF ps) :
    m.fits.find "psf" = some (.image (psfTarget cfg ps m.cat.rows)) ∧ AllDrawn ps m.cat.rows ∧
    Consec 0 (psfRegions m.cat.rows) (psfTarget cfg ps m.cat.rows).length ∧ m.cat.dtype.psfRowCol = .perEpoch := by
  obtain ⟨in0, w, W, ht, hd, _⟩ := written hi hw
  have := W.open
  rw [ho] at this
  injection this with this
  subst this
  obtain ⟨_, _, _, _, h5, _⟩ := writeData_ok W.ready W.write_eq
  have hpp : mk'.psf = some ps := by rw [W.psf_eq, hps]
  obtain ⟨g1, g2⟩ := h5 ps hpp hwf
  have hc := W.ready.psfTiled ps hpp
  have hl := psfTarget_length (cfg := cfg) hwf g1 hc
  rw [W.cfg_eq] at g2
  refine ⟨g2, g1, ?_, ?_⟩
  · show Consec 0 (psfRegions mk'.objs) _
    rw [show ((psfTarget cfg ps (openedOf mk' f).cat.rows).length : Int) = mk'.totalPsfPixels from hl]
    exact hc
  · show mk'.dtype.psfRowCol = _
    rw [hd, (init_ok hi).2.2.2.2.2.2.1, hps]
    rfl

/-- **C11** The PSF image read for an epoch is the one its PSF model drew for that object at its position in that image, with the catalogue's shape. -/
theorem C11_psf_read_back (hi : Maker.init cfg hn objs images psf psfInfo md = .ok mk) (hw : mk.write = .ok (mk', f))
    (ho : MEDS.openFile f = .ok m) {ps : List PsfModel} (hps : psf = some ps) (hwf : ∀ p ∈ ps, ∀ sky r c, (p.getRec sky r c).WF)
    {i k : Nat} {o : ObjRow} {s : Slot} (he : Epoch m.cat.rows i k o s) :
    ∃ (j : Nat) (im : SrcImage) (p : PsfModel), s.fileId = (j : Int) ∧ images[j]? = some im ∧ ps[j]? = some p ∧
      ((p.getRec o.sky (rowIn im o.sky) (colIn im o.sky)).nr : Int) = s.psfRowSize ∧
      ((p.getRec o.sky (rowIn im o.sky) (colIn im o.sky)).nc : Int) = s.psfColSize ∧
      (s.psfCutoutRow, s.psfCutoutCol) = p.center (rowIn im o.sky) (colIn im o.sky) ∧
      (0 < s.psfRowSize * s.psfColSize →
        m.getPsf i k = .ok ((p.getRec o.sky (rowIn im o.sky) (colIn im o.sky)).map (cfg.cast "psf"))) := by
  obtain ⟨j, im, h1, h2, _, h4, h5, _⟩ := C06_positions_recorded hi hw ho he
  obtain ⟨g1, g2, g3, g4⟩ := written_psf hi hw ho hps hwf
  obtain ⟨p, d1, d2, d3⟩ := g2 o s (epoch_mem_cells he)
  have hpj : ps[j]? = some p := by
    rw [h1] at d1
    have := pyGet_ok_nonneg d1 (by omega); rwa [Int.toNat_natCast] at this
  rw [h4, h5] at d2 d3
  refine ⟨j, im, p, h1, h2, hpj, d2, d3, ?_, ?_⟩
  · obtain ⟨in0, w, W, rfl, _⟩ := opened_eq hi hw ho
    have hm := mem_cells.mp (epoch_mem_cells he)
    obtain ⟨p', q1, _, _, q4⟩ := W.psfOk ps hps o hm.1 s hm.2
    rw [d1] at q1; injection q1 with q1; subst q1
    rw [q4, h4, h5]
  · intro hpos
    have hcont : psfContent cfg ps o s = (p.getRec o.sky (rowIn im o.sky) (colIn im o.sky)).flat.map (cfg.cast "psf") := by
      unfold psfContent
      rw [d1, ← h4, ← h5]
    have hlen : ((psfContent cfg ps o s).length : Int) = s.psfRowSize * s.psfColSize :=
      psfContent_length hwf ⟨d1, by rw [h4, h5]; exact d2, by rw [h4, h5]; exact d3⟩
    have ha := psfTarget_at (cfg := cfg) hwf g2 g3 (epoch_mem_cells he)
    rw [psfRegions_eq_cells] at g3
    have hb := Consec.bounds g3 (List.mem_map_of_mem (f := fun c : ObjRow × Slot => (c.2.psfStartRow, c.2.psfRowSize * c.2.psfColSize)) (epoch_mem_cells he))
    dsimp only at hb
    unfold MEDS.getPsf
    rw [if_pos (show m.hasPsf = true by unfold MEDS.hasPsf Fits.has; rw [g1]; rfl)]
    rw [MEDS.checkIndices_some he.1 he.2.1]
    simp only [Res.ok_bind]
    unfold MEDS.psfShape
    rw [g4]
    dsimp only
    rw [MEDS.Epoch.slot he]
    simp only [Res.ok_bind]
    rw [MEDS.imageSlice_eq g1 hb.1 (by rw [hlen]; exact hb.2.2) hlen.symm hpos ha]
    simp only [Res.ok_bind]
    rw [hcont] at hlen ⊢
    rw [← d2, ← d3] at hlen ⊢
    rw [reshape_nat (by exact_mod_cast hlen)]
    rfl

/-- **C11** `get_psf_list` is the list of `get_psf`, and succeeds when no PSF image is empty. -/
theorem C11_psf_list (hi : Maker.init cfg hn objs images psf psfInfo md = .ok mk) (hw : mk.write = .ok (mk', f))
    (ho : MEDS.openFile f = .ok m) {ps : List PsfModel} (hps : psf = some ps) (hwf : ∀ p ∈ ps, ∀ sky r c, (p.getRec sky r c).WF)
    (hpos : ∀ p ∈ ps, ∀ sky r c, 0 < (p.getRec sky r c).nr ∧ 0 < (p.getRec sky r c).nc)
    {i : Nat} {o : ObjRow} (hr : m.cat.rows[i]? = some o) :
    ∃ l, m.getPsfList i = .ok l ∧ (l.length : Int) = o.ncutout ∧ ∀ k : Nat, (k : Int) < o.ncutout → ∃ c, l[k]? = some c ∧ m.getPsf i k = .ok c := by
  obtain ⟨w, _, hall, _, _⟩ := C09_slots hi hw ho
  obtain ⟨hsl, hn0, hnw⟩ := hall o (List.mem_of_getElem? hr)
  have key : ∀ k : Nat, (k : Int) < o.ncutout → ∃ c, m.getPsf i k = .ok c := by
    intro k hk
    have hkl : k < o.slots.length := by omega
    have he : Epoch m.cat.rows i k o o.slots[k] := ⟨hr, hk, List.getElem?_eq_getElem hkl⟩
    obtain ⟨j, im, p, _, _, hp, e1, e2, _, e3⟩ := C11_psf_read_back hi hw ho hps hwf he
    have := hpos p (List.mem_of_getElem? hp) o.sky (rowIn im o.sky) (colIn im o.sky)
    exact ⟨_, e3 (by rw [← e1, ← e2]; exact Int.mul_pos (by omega) (by omega))⟩
  unfold MEDS.getPsfList
  rw [show m.row (i : Int) = .ok o from pyGet_nat_some hr]
  simp only [Res.ok_bind]
  obtain ⟨l, hl⟩ := mapRes_of_forall (f := fun k : Nat => m.getPsf i k) (l := List.range o.ncutout.toNat) (by
    intro k hk
    rw [List.mem_range] at hk
    exact key k (by omega))
  refine ⟨l, hl, ?_, ?_⟩
  · have := mapRes_length hl
    rw [List.length_range] at this
    omega
  · intro k hk
    obtain ⟨c, hc1, hc2⟩ := mapRes_getElem? hl (i := k) (x := k) (by rw [List.getElem?_range]; omega)
    exact ⟨c, hc1, hc2⟩

/-- **C11** The PSF pixel ranges tile the PSF extension. -/
theorem C11_psf_storage_tiles (hi : Maker.init cfg hn objs images psf psfInfo md = .ok mk) (hw : mk.write = .ok (mk', f))
    (ho : MEDS.openFile f = .ok m) {ps : List PsfModel} (hps : psf = some ps) (hwf : ∀ p ∈ ps, ∀ sky r c, (p.getRec sky r c).WF) :
    ∃ pix, m.fits.find "psf" = some (.image pix) ∧
      (∀ i k o s, Epoch m.cat.rows i k o s → 0 ≤ s.psfStartRow ∧ s.psfStartRow + s.psfRowSize * s.psfColSize ≤ pix.length) ∧
      (∀ i k o s i' k' o' s', Epoch m.cat.rows i k o s → Epoch m.cat.rows i' k' o' s' → (i < i' ∨ (i = i' ∧ k < k')) →
        s.psfStartRow + s.psfRowSize * s.psfColSize ≤ s'.psfStartRow) ∧
      (∀ p : Nat, p < pix.length → ∃ i k o s, Epoch m.cat.rows i k o s ∧ s.psfStartRow ≤ p ∧
        (p : Int) < s.psfStartRow + s.psfRowSize * s.psfColSize) := by
  obtain ⟨g1, g2, g3, g4⟩ := written_psf hi hw ho hps hwf
  refine ⟨_, g1, ?_, ?_, ?_⟩
  · intro i k o s he
    rw [psfRegions_eq_cells] at g3
    have hb := Consec.bounds g3 (List.mem_map_of_mem (f := fun c : ObjRow × Slot => (c.2.psfStartRow, c.2.psfRowSize * c.2.psfColSize)) (epoch_mem_cells he))
    exact ⟨hb.1, hb.2.2⟩
  · intro i k o s i' k' o' s' he he' hlt
    have hp := Consec.pairwise g3
    unfold psfRegions at hp
    rw [List.pairwise_flatMap] at hp
    obtain ⟨hp1, hp2⟩ := hp
    obtain ⟨a1, a2, a3⟩ := he
    obtain ⟨b1, b2, b3⟩ := he'
    have hs := List.mem_map_of_mem (f := fun s : Slot => (s.psfStartRow, s.psfRowSize * s.psfColSize))
        (List.mem_of_getElem? (l := o.slots.take o.ncutout.toNat) (i := k) (by rw [List.getElem?_take, if_pos (by omega)]; exact a3))
    have hs' := List.mem_map_of_mem (f := fun s : Slot => (s.psfStartRow, s.psfRowSize * s.psfColSize))
        (List.mem_of_getElem? (l := o'.slots.take o'.ncutout.toNat) (i := k') (by rw [List.getElem?_take, if_pos (by omega)]; exact b3))
    obtain ⟨l1, e1⟩ := List.getElem?_eq_some_iff.mp a1
    obtain ⟨l2, e2⟩ := List.getElem?_eq_some_iff.mp b1
    rcases hlt with hlt | ⟨rfl, hlt⟩
    · have := List.pairwise_iff_getElem.mp hp2 i i' l1 l2 hlt
      rw [e1, e2] at this
      exact this _ hs _ hs'
    · rw [e1] at e2
      subst e2
      have := hp1 o (List.mem_of_getElem? a1)
      rw [List.pairwise_map] at this
      have kl : k < (o.slots.take o.ncutout.toNat).length := by
        obtain ⟨h, _⟩ := List.getElem?_eq_some_iff.mp a3
        rw [List.length_take]; omega
      have kl' : k' < (o.slots.take o.ncutout.toNat).length := by
        obtain ⟨h, _⟩ := List.getElem?_eq_some_iff.mp b3
        rw [List.length_take]; omega
      have := List.pairwise_iff_getElem.mp this k k' kl kl' hlt
      rw [List.getElem_take, List.getElem_take] at this
      rw [(List.getElem?_eq_some_iff.mp a3).2, (List.getElem?_eq_some_iff.mp b3).2] at this
      exact this
  · intro p hp
    rw [psfRegions_eq_cells] at g3
    obtain ⟨r, hr, h1, h2⟩ := Consec.cover g3 (p := (p : Int)) (by omega) (by omega)
    obtain ⟨⟨o, s⟩, hos, rfl⟩ := List.mem_map.mp hr
    obtain ⟨i, k, he⟩ := mem_cells_epoch hos
    exact ⟨i, k, o, s, he, h1, h2⟩

end

/-- The hypotheses are met: a run of two objects on three images with background, masks, scales and PSFs; an image cutout cut by the image edge,
a masked and scaled weight, a bit mask with fill, a missing seg plane and a PSF. -/
example : Ex.check Ex.cfg Ex.objs Ex.images (some Ex.psfs) (fun m =>
    decide (m.getCutout 1 1 "image" = .ok ⟨2, 2, [424, 0, 444, 0]⟩) &&
    decide (m.getCutout 1 1 "weight" = .ok ⟨2, 2, [1, 0, 1, 0]⟩) &&
    decide (m.getCutout 1 1 "bmask" = .ok ⟨2, 2, [4, 2 ^ 30, 5, 2 ^ 30]⟩) &&
    decide (m.getCutout 1 1 "seg" = .ok ⟨2, 2, [0, 0, 0, 0]⟩) &&
    decide (m.getPsf 1 1 = .ok ⟨2, 2, [1, 3, 2, 4]⟩)) = true := by decide +kernel

end Meds
