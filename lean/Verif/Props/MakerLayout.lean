import Verif.Lemmas.Written
import Verif.Examples.Maker

/-!
# Properties of the catalogue written by `MEDSMaker` (C03 - C09, C16, C52)

In every theorem `mk` is a freshly constructed maker, `f` the file it wrote and `m` that file opened by the reader.
-/

namespace Meds
open Spec Maker

section
variable {cfg : MakerCfg} {hn : Bool} {objs : List InputObj} {images : List SrcImage} {psf : Option (List PsfModel)}
  {psfInfo : Option String} {md : String} {mk mk' : Maker} {f : Fits} {m : MEDS}

/-- A written file always opens (helper for the statements below; part of C01). -/
theorem C01_written_file_opens (hi : Maker.init cfg hn objs images psf psfInfo md = .ok mk) (hw : mk.write = .ok (mk', f)) :
    ∃ m, MEDS.openFile f = .ok m ∧ m.info = images.map (·.info) ∧ m.metaData = md ∧ m.cat.dtype.hasNumber = hn := by
  obtain ⟨in0, w, W, _, hd, hm, _⟩ := written hi hw
  refine ⟨_, W.open, ?_, hm, ?_⟩
  · simp [openedOf, W.images_eq]
  · rw [openedOf, hd, (init_ok hi).2.2.2.2.2.2.1]

theorem opened_eq (hi : Maker.init cfg hn objs images psf psfInfo md = .ok mk) (hw : mk.write = .ok (mk', f))
    (ho : MEDS.openFile f = .ok m) : ∃ in0 w, Written cfg images psf in0 mk' f w ∧ m = openedOf mk' f ∧
      trim cfg images ((objs.map (fullRow (initialNmax cfg images.length))).map forceEven) = .ok in0 := by
  obtain ⟨in0, w, W, ht, _⟩ := written hi hw
  have := W.open
  rw [ho] at this
  injection this with this
  exact ⟨in0, w, W, this, ht⟩

/-- **C03** The pixel ranges of the stored epochs tile every cutout extension: they lie inside, distinct epochs do not overlap,
and every pixel belongs to one. -/
theorem C03_storage_tiles (hi : Maker.init cfg hn objs images psf psfInfo md = .ok mk) (hw : mk.write = .ok (mk', f))
    (ho : MEDS.openFile f = .ok m) {t : String} (ht : t = "image" ∨ t ∈ cfg.cutoutTypes) :
    ∃ pix, m.fits.find (t ++ "_cutouts") = some (.image pix) ∧
      (∀ i k o s, Epoch m.cat.rows i k o s → 0 ≤ s.startRow ∧ s.startRow + o.boxSize ^ 2 ≤ pix.length) ∧
      (∀ i k o s i' k' o' s', Epoch m.cat.rows i k o s → Epoch m.cat.rows i' k' o' s' → (i < i' ∨ (i = i' ∧ k < k')) →
        s.startRow + o.boxSize ^ 2 ≤ s'.startRow) ∧
      (∀ p : Nat, p < pix.length → ∃ i k o s, Epoch m.cat.rows i k o s ∧ s.startRow ≤ p ∧ (p : Int) < s.startRow + o.boxSize ^ 2) := by
  obtain ⟨in0, w, W, rfl, _⟩ := opened_eq hi hw ho
  have htt : t ∈ mk'.types := (mem_types W.types_ok t).mpr ht
  obtain ⟨_, _, _, h4, _⟩ := writeData_ok W.ready W.write_eq
  refine ⟨_, h4 t htt, ?_, ?_, ?_⟩
  · intro i k o s he
    have hc := W.ready.tiled
    have hlen := target_length (cfg := mk'.cfg) (images := mk'.images) (t := t) hc
    rw [regions_eq_cells] at hc
    have := Consec.bounds hc (List.mem_map_of_mem (f := fun c : ObjRow × Slot => (c.2.startRow, c.1.boxSize * c.1.boxSize)) (epoch_mem_cells he))
    dsimp only at this
    rw [hlen, sq]
    omega
  · intro i k o s i' k' o' s' he he' hlt
    have hp := Consec.pairwise W.ready.tiled
    unfold regions at hp
    rw [List.pairwise_flatMap] at hp
    obtain ⟨hp1, hp2⟩ := hp
    obtain ⟨a1, a2, a3⟩ := he
    obtain ⟨b1, b2, b3⟩ := he'
    have hs : (s.startRow, o.boxSize * o.boxSize) ∈ (o.slots.take o.ncutout.toNat).map (fun s => (s.startRow, o.boxSize * o.boxSize)) :=
      List.mem_map_of_mem (f := fun s : Slot => (s.startRow, o.boxSize * o.boxSize))
        (List.mem_of_getElem? (i := k) (by rw [List.getElem?_take, if_pos (by omega)]; exact a3))
    have hs' : (s'.startRow, o'.boxSize * o'.boxSize) ∈ (o'.slots.take o'.ncutout.toNat).map (fun s => (s.startRow, o'.boxSize * o'.boxSize)) :=
      List.mem_map_of_mem (f := fun s : Slot => (s.startRow, o'.boxSize * o'.boxSize))
        (List.mem_of_getElem? (i := k') (by rw [List.getElem?_take, if_pos (by omega)]; exact b3))
    rw [sq]
    obtain ⟨l1, e1⟩ := List.getElem?_eq_some_iff.mp (show mk'.objs[i]? = some o from a1)
    obtain ⟨l2, e2⟩ := List.getElem?_eq_some_iff.mp (show mk'.objs[i']? = some o' from b1)
    rcases hlt with hlt | ⟨rfl, hlt⟩
    · have := List.pairwise_iff_getElem.mp hp2 i i' l1 l2 hlt
      rw [e1, e2] at this
      exact this _ hs _ hs'
    · rw [e1] at e2
      subst e2
      have := hp1 o (List.mem_of_getElem? a1)
      rw [List.pairwise_map] at this
      have kl : k < (o.slots.take o.ncutout.toNat).length := by
        obtain ⟨h, _⟩ := List.getElem?_eq_some_iff.mp a3
        rw [List.length_take]; omega
      have kl' : k' < (o.slots.take o.ncutout.toNat).length := by
        obtain ⟨h, _⟩ := List.getElem?_eq_some_iff.mp b3
        rw [List.length_take]; omega
      have := List.pairwise_iff_getElem.mp this k k' kl kl' hlt
      rw [List.getElem_take, List.getElem_take] at this
      rw [(List.getElem?_eq_some_iff.mp a3).2, (List.getElem?_eq_some_iff.mp b3).2] at this
      exact this
  · intro p hp
    have hc := W.ready.tiled
    have hlen := target_length (cfg := mk'.cfg) (images := mk'.images) (t := t) hc
    rw [regions_eq_cells] at hc
    obtain ⟨r, hr, h1, h2⟩ := Consec.cover hc (p := (p : Int)) (by omega) (by omega)
    obtain ⟨⟨o, s⟩, hos, rfl⟩ := List.mem_map.mp hr
    obtain ⟨i, k, he⟩ := mem_cells_epoch hos
    exact ⟨i, k, o, s, he, h1, by rw [sq]; exact h2⟩

/-- **C04** The number of epochs is the number of images covering the object and the file ids are exactly those images, in increasing order. -/
theorem C04_epochs_are_covering_images (hi : Maker.init cfg hn objs images psf psfInfo md = .ok mk) (hw : mk.write = .ok (mk', f))
    (ho : MEDS.openFile f = .ok m) {i : Nat} {o : ObjRow} (hr : m.cat.rows[i]? = some o) :
    o.ncutout = (coveringImages cfg images o.sky).length ∧
    (∀ k : Nat, (k : Int) < o.ncutout → ∃ s j, o.slots[k]? = some s ∧ (coveringImages cfg images o.sky)[k]? = some j ∧ s.fileId = (j : Int)) ∧
    (coveringImages cfg images o.sky).Pairwise (· < ·) ∧
    (∀ j im, images[j]? = some im → (j ∈ coveringImages cfg images o.sky ↔ Covers cfg j im o.sky)) := by
  obtain ⟨in0, w, W, rfl, _⟩ := opened_eq hi hw ho
  obtain ⟨h0, h1, h2, h3, h4⟩ := laidOut_slots W.laid hr
  have hlen := congrArg List.length h4
  simp only [List.length_map, List.length_take, h2] at hlen
  refine ⟨by omega, ?_, ?_, ?_⟩
  · intro k hk
    have hk' : k < (coveringImages cfg images o.sky).length := by omega
    have hs : k < o.slots.length := by omega
    have e := congrArg (fun l => l[k]?) h4
    simp only [List.getElem?_map, List.getElem?_take] at e
    rw [if_pos (by omega), List.getElem?_eq_getElem hs, List.getElem?_eq_getElem hk'] at e
    simp only [Option.map_some, Option.some.injEq] at e
    exact ⟨o.slots[k], (coveringImages cfg images o.sky)[k], List.getElem?_eq_getElem hs, List.getElem?_eq_getElem hk', e⟩
  · exact List.Pairwise.filter _ List.pairwise_lt_range
  · intro j im him
    have hj := (List.getElem?_eq_some_iff.mp him).1
    simp only [coveringImages, List.mem_filter, List.mem_range, hj, true_and, him, decide_eq_true_eq]

/-- What the output keeps of an input row; `box` is the evened box size. -/
def SameObject (a : InputObj) (o : ObjRow) : Prop :=
  o.id = a.id ∧ o.sky = a.sky ∧ o.number = a.number ∧ o.extra = a.extra ∧
  o.boxSize = if a.boxSize % 2 = 0 then a.boxSize else a.boxSize + 1

theorem forall₂_filter {α β : Type} {R : α → β → Prop} {p : α → Bool} {q : β → Bool} {l : List α} {l' : List β}
    (h : List.Forall₂ R l l') (hpq : ∀ a b, R a b → p a = q b) : List.Forall₂ R (l.filter p) (l'.filter q) := by
  induction h with
  | nil => exact .nil
  | @cons a b as bs hab _ ih =>
    by_cases hp : p a = true
    · rw [List.filter_cons_of_pos hp, List.filter_cons_of_pos (by rw [← hpq a b hab]; exact hp)]
      exact .cons hab ih
    · rw [List.filter_cons_of_neg hp, List.filter_cons_of_neg (by rw [← hpq a b hab]; exact hp)]
      exact ih

theorem sameObject_input (n : Nat) (a : InputObj) : SameObject a (forceEven (fullRow n a)) := by
  obtain ⟨_, _, c, d, e, g⟩ := forceEven_fresh (fullRow n a)
  refine ⟨d, c, e, g, ?_⟩
  unfold forceEven fullRow
  dsimp only
  by_cases h : a.boxSize % 2 = 0 <;> simp [h]

/-- Whether an object at `sky` stays in the catalogue: always, except that with `trim_to_coadd` and a coadd the coadd must cover it. -/
def kept (cfg : MakerCfg) (images : List SrcImage) (sky : SkyPos) : Bool :=
  if cfg.firstImageIsCoadd && cfg.trimToCoadd then
    match images with
    | im :: _ => decide (Covers cfg 0 im sky)
    | [] => false
  else true

/-- **C05** (catalogue part, also used for C08): the output rows are the input objects, in order; with `trim_to_coadd` exactly those
that the coadd covers. -/
theorem C05_catalogue_is_input (hi : Maker.init cfg hn objs images psf psfInfo md = .ok mk) (hw : mk.write = .ok (mk', f))
    (ho : MEDS.openFile f = .ok m) :
    List.Forall₂ SameObject
      (objs.filter (fun a => kept cfg images a.sky)) m.cat.rows := by
  obtain ⟨in0, w, W, rfl, ht⟩ := opened_eq hi hw ho
  have base : List.Forall₂ SameObject objs ((objs.map (fullRow (initialNmax cfg images.length))).map forceEven) := by
    clear hi ht
    induction objs with
    | nil => exact .nil
    | cons a as ih => exact .cons (sameObject_input _ a) ih
  have fin : ∀ {l : List InputObj}, List.Forall₂ SameObject l in0 → List.Forall₂ SameObject l (openedOf mk' f).cat.rows := by
    intro l hl
    refine forall₂_trans hl W.laid ?_
    intro a b c hab hbc
    obtain ⟨S, _, _, rfl⟩ := hbc
    exact hab
  apply fin
  unfold trim at ht
  split at ht
  · rename_i hc
    cases images with
    | nil => cases ht
    | cons im rest =>
      dsimp only at ht
      split at ht
      · cases ht
      · injection ht with ht
        rw [← ht]
        apply forall₂_filter base
        intro a b hab
        unfold kept
        rw [if_pos hc, Bool.eq_iff_iff, accepted_iff, hab.2.1]
        simp
  · rename_i hc
    injection ht with ht
    rw [← ht]
    unfold kept
    simp only [hc]
    simpa using base

/-- **C05** With a coadd first and `check_in_coadd` set, every object of the file has a first epoch and it comes from image 0. -/
theorem C05_coadd_is_cutout_zero (hi : Maker.init cfg hn objs images psf psfInfo md = .ok mk) (hw : mk.write = .ok (mk', f))
    (ho : MEDS.openFile f = .ok m) (hc : cfg.firstImageIsCoadd = true) (hk : cfg.checkInCoadd = true) (hne : images ≠ [])
    {i : Nat} {o : ObjRow} (hr : m.cat.rows[i]? = some o) :
    1 ≤ o.ncutout ∧ ∃ s, o.slots[0]? = some s ∧ s.fileId = 0 := by
  have c4 := C04_epochs_are_covering_images hi hw ho hr
  obtain ⟨in0, w, W, rfl, _⟩ := opened_eq hi hw ho
  obtain ⟨im, rest, rfl⟩ := List.exists_cons_of_ne_nil hne
  -- the input row of `o` is covered by image 0
  have hcov : Covers cfg 0 im o.sky := by
    obtain ⟨hlt, rfl⟩ := List.getElem?_eq_some_iff.mp hr
    have hl := W.laid.length_eq
    have hlt' : i < mk'.objs.length := hlt
    have := (List.forall₂_iff_get.mp W.laid).2 i (by omega) hlt'
    simp only [List.get_eq_getElem] at this
    obtain ⟨S, _, _, e⟩ := this
    have hx := W.coadd hc hk im rest rfl in0[i] (List.getElem_mem _)
    show Covers cfg 0 im (mk'.objs[i]).sky
    rw [e]; exact hx
  have hmem : (0 : Nat) ∈ coveringImages cfg (im :: rest) o.sky := (c4.2.2.2 0 im rfl).mpr hcov
  have hpos : 0 < (coveringImages cfg (im :: rest) o.sky).length := List.length_pos_of_mem hmem
  refine ⟨by have := c4.1; omega, ?_⟩
  obtain ⟨s, j, hs, hj, hf⟩ := c4.2.1 0 (by have := c4.1; omega)
  refine ⟨s, hs, ?_⟩
  -- the first element of a strictly increasing list containing 0 is 0
  have h0 : j = 0 := by
    have hp := c4.2.2.1
    generalize coveringImages cfg (im :: rest) o.sky = l at *
    cases l with
    | nil => cases hmem
    | cons a as =>
      simp only [List.getElem?_cons_zero, Option.some.injEq] at hj
      subst hj
      rcases List.mem_cons.mp hmem with h | h
      · exact h.symm
      · have := (List.pairwise_cons.mp hp).1 0 h
        omega
  rw [hf, h0]; rfl

theorem truncZ_nonneg {q : ℚ} (h : 0 ≤ q) : (truncZ q : ℚ) ≤ q ∧ q < truncZ q + 1 ∧ 0 ≤ truncZ q := by
  unfold truncZ
  rw [if_pos h]
  exact ⟨Int.floor_le q, Int.lt_floor_add_one q, Int.floor_nonneg.mpr h⟩

theorem truncZ_neg {q : ℚ} (h : q < 0) : q ≤ (truncZ q : ℚ) ∧ (truncZ q : ℚ) < q + 1 := by
  unfold truncZ
  rw [if_neg (not_le.mpr h)]
  exact ⟨Int.le_ceil q, Int.ceil_lt_add_one q⟩

/-- **C08** Box sizes are even and are the requested size rounded up to even. -/
theorem C08_boxes_even (hi : Maker.init cfg hn objs images psf psfInfo md = .ok mk) (hw : mk.write = .ok (mk', f))
    (ho : MEDS.openFile f = .ok m) {i : Nat} {o : ObjRow} (hr : m.cat.rows[i]? = some o) :
    o.boxSize % 2 = 0 ∧ ∃ a ∈ objs, SameObject a o ∧ a.boxSize ≤ o.boxSize ∧ o.boxSize ≤ a.boxSize + 1 ∧
      (a.boxSize % 2 = 0 → o.boxSize = a.boxSize) := by
  have h := C05_catalogue_is_input hi hw ho
  obtain ⟨hlt, rfl⟩ := List.getElem?_eq_some_iff.mp hr
  have hl := h.length_eq
  have := (List.forall₂_iff_get.mp h).2 i (by omega) hlt
  simp only [List.get_eq_getElem] at this
  refine ⟨?_, _, (List.mem_filter.mp (List.getElem_mem (l := objs.filter _) (by omega))).1, this, ?_, ?_, ?_⟩
  · rw [this.2.2.2.2]; split <;> omega
  · rw [this.2.2.2.2]; split <;> omega
  · rw [this.2.2.2.2]; split <;> omega
  · intro he; rw [this.2.2.2.2, if_pos he]

/-- Forcing into the (already enlarged) bounds never moves an accepted object. -/
theorem finalPos_eq (cfg : MakerCfg) (i : Nat) (im : SrcImage) (o : ObjRow) (h : Covers cfg i im o.sky) :
    finalPos cfg i im o = objPos im o := by
  unfold finalPos
  split
  · have ha := (accepted_iff cfg i im o).mpr h
    unfold accepted Bounds.containsPoint at ha
    simp only [Bool.and_eq_true, decide_eq_true_eq] at ha
    unfold clipPos clipQ
    obtain ⟨_, ⟨⟨h1, h2⟩, h3⟩, h4⟩ := ha
    rw [max_eq_left h2, min_eq_left h1, max_eq_left h4, min_eq_left h3]
  · rfl

/-- The values recorded for an epoch: the object's position in the image named by `file_id`, the box corner, and the centre in the box. -/
theorem C06_positions_recorded (hi : Maker.init cfg hn objs images psf psfInfo md = .ok mk) (hw : mk.write = .ok (mk', f))
    (ho : MEDS.openFile f = .ok m) {i k : Nat} {o : ObjRow} {s : Slot} (he : Epoch m.cat.rows i k o s) :
    ∃ (j : Nat) (im : SrcImage), s.fileId = (j : Int) ∧ images[j]? = some im ∧ Covers cfg j im o.sky ∧
      s.origRow = rowIn im o.sky ∧ s.origCol = colIn im o.sky ∧
      s.origStartRow = truncZ (rowIn im o.sky) - o.boxSize / 2 + 1 ∧ s.origStartCol = truncZ (colIn im o.sky) - o.boxSize / 2 + 1 ∧
      s.cutoutRow = s.origRow - s.origStartRow ∧ s.cutoutCol = s.origCol - s.origStartCol ∧
      (s.dudcol, s.dudrow, s.dvdcol, s.dvdrow) =
        im.wcs.jacobian o.sky (im.wcs.sky2image o.sky).1 (im.wcs.sky2image o.sky).2 := by
  obtain ⟨in0, w, W, rfl, _⟩ := opened_eq hi hw ho
  obtain ⟨o0, fi, h1, h2, h3, h4, h5, h6⟩ := laidOut_epoch W.laid he
  have hsky : o.sky = o0.sky := by rw [h2]
  have hbox : o.boxSize = o0.boxSize := by rw [h2]
  have hfin : finalPos cfg fi.1 fi.2 o0 = objPos fi.2 o0 := finalPos_eq _ _ _ _ (by rw [← hsky]; exact h6)
  have hs : core s = newSlot fi.1 fi.2 (objPos fi.2 o0) o0 Slot.dflt := by rw [h4, epochOf, hfin]
  refine ⟨fi.1, fi.2, ?_, mem_numbered.mp h5, h6, ?_, ?_, ?_, ?_, ?_, ?_, ?_⟩
  · exact congrArg Slot.fileId hs
  · rw [hsky]; exact congrArg Slot.origRow hs
  · rw [hsky]; exact congrArg Slot.origCol hs
  · rw [hsky, hbox]; exact congrArg Slot.origStartRow hs
  · rw [hsky, hbox]; exact congrArg Slot.origStartCol hs
  · have a := congrArg Slot.cutoutRow hs
    have b := congrArg Slot.origRow hs
    have c := congrArg Slot.origStartRow hs
    exact a.trans (by rw [show s.origRow = (core s).origRow from rfl, show s.origStartRow = (core s).origStartRow from rfl, b, c]; rfl)
  · have a := congrArg Slot.cutoutCol hs
    have b := congrArg Slot.origCol hs
    have c := congrArg Slot.origStartCol hs
    exact a.trans (by rw [show s.origCol = (core s).origCol from rfl, show s.origStartCol = (core s).origStartCol from rfl, b, c]; rfl)
  · rw [hsky]
    have a := congrArg Slot.dudcol hs
    have b := congrArg Slot.dudrow hs
    have c := congrArg Slot.dvdcol hs
    have d := congrArg Slot.dvdrow hs
    rw [show s.dudcol = (core s).dudcol from rfl, show s.dudrow = (core s).dudrow from rfl,
      show s.dvdcol = (core s).dvdcol from rfl, show s.dvdrow = (core s).dvdrow from rfl, a, b, c, d]
    rfl

/-- **C06** Centre plus corner is the original position; for a non-negative position the centre lies in `[box/2 - 1, box/2)`, that is within half a pixel
of the geometric centre `(box - 1)/2`. -/
theorem C06_geometry (hi : Maker.init cfg hn objs images psf psfInfo md = .ok mk) (hw : mk.write = .ok (mk', f))
    (ho : MEDS.openFile f = .ok m) {i k : Nat} {o : ObjRow} {s : Slot} (he : Epoch m.cat.rows i k o s) :
    s.cutoutRow + s.origStartRow = s.origRow ∧ s.cutoutCol + s.origStartCol = s.origCol ∧
    (0 ≤ s.origRow → (o.boxSize : ℚ) / 2 - 1 ≤ s.cutoutRow ∧ s.cutoutRow < (o.boxSize : ℚ) / 2) ∧
    (0 ≤ s.origCol → (o.boxSize : ℚ) / 2 - 1 ≤ s.cutoutCol ∧ s.cutoutCol < (o.boxSize : ℚ) / 2) ∧
    (s.origRow < 0 → (o.boxSize : ℚ) / 2 - 2 < s.cutoutRow ∧ s.cutoutRow ≤ (o.boxSize : ℚ) / 2 - 1) ∧
    (s.origCol < 0 → (o.boxSize : ℚ) / 2 - 2 < s.cutoutCol ∧ s.cutoutCol ≤ (o.boxSize : ℚ) / 2 - 1) := by
  obtain ⟨j, im, _, _, _, h1, h2, h3, h4, h5, h6, _⟩ := C06_positions_recorded hi hw ho he
  have heven := (C08_boxes_even hi hw ho he.1).1
  obtain ⟨hb, hhb⟩ : ∃ hb : Int, o.boxSize = 2 * hb := ⟨o.boxSize / 2, by omega⟩
  have hdiv : o.boxSize / 2 = hb := by omega
  have hq : (o.boxSize : ℚ) / 2 = hb := by rw [hhb]; push_cast; ring
  rw [hdiv] at h3 h4
  have h3' : (s.origStartRow : ℚ) = truncZ s.origRow - hb + 1 := by rw [h3, h1]; push_cast; ring
  have h4' : (s.origStartCol : ℚ) = truncZ s.origCol - hb + 1 := by rw [h4, h2]; push_cast; ring
  refine ⟨by rw [h5]; ring, by rw [h6]; ring, ?_, ?_, ?_, ?_⟩
  · intro h0
    obtain ⟨a, b, _⟩ := truncZ_nonneg h0
    rw [hq, h5, h3']
    constructor <;> linarith
  · intro h0
    obtain ⟨a, b, _⟩ := truncZ_nonneg h0
    rw [hq, h6, h4']
    constructor <;> linarith
  · intro h0
    obtain ⟨a, b⟩ := truncZ_neg h0
    rw [hq, h5, h3']
    constructor <;> linarith
  · intro h0
    obtain ⟨a, b⟩ := truncZ_neg h0
    rw [hq, h6, h4']
    constructor <;> linarith

/-- **C09** All rows have the same number of slots, which is the larger of 2 and the largest number of epochs; slots beyond the
object's epochs hold -9999 in every column. -/
theorem C09_slots (hi : Maker.init cfg hn objs images psf psfInfo md = .ok mk) (hw : mk.write = .ok (mk', f))
    (ho : MEDS.openFile f = .ok m) :
    ∃ w : Nat, 2 ≤ w ∧ (∀ o ∈ m.cat.rows, o.slots.length = w ∧ 0 ≤ o.ncutout ∧ o.ncutout ≤ w) ∧
      (w = 2 ∨ ∃ o ∈ m.cat.rows, o.ncutout = w) ∧
      (∀ o ∈ m.cat.rows, ∀ (k : Nat) (s : Slot), o.slots[k]? = some s → o.ncutout ≤ (k : Int) →
        s.fileId = -9999 ∧ s.startRow = -9999 ∧ s.origRow = -9999 ∧ s.origCol = -9999 ∧ s.origStartRow = -9999 ∧
        s.origStartCol = -9999 ∧ s.cutoutRow = -9999 ∧ s.cutoutCol = -9999 ∧ s.dudrow = -9999 ∧ s.dudcol = -9999 ∧
        s.dvdrow = -9999 ∧ s.dvdcol = -9999 ∧ s.psfStartRow = -9999) := by
  obtain ⟨in0, w, W, rfl, _⟩ := opened_eq hi hw ho
  refine ⟨w, W.w2, ?_, W.wmax, ?_⟩
  · intro o hmem
    obtain ⟨i, hi'⟩ := List.mem_iff_getElem?.mp hmem
    obtain ⟨a, b, c, _⟩ := laidOut_slots W.laid hi'
    exact ⟨c, a, b⟩
  · intro o hmem k s hs hk
    obtain ⟨i, hi'⟩ := List.mem_iff_getElem?.mp hmem
    obtain ⟨a, b, c, d, _⟩ := laidOut_slots W.laid hi'
    have hkw : k < w := by rw [← c]; exact (List.getElem?_eq_some_iff.mp hs).1
    rw [d k hk hkw] at hs
    injection hs with hs
    rw [← hs]
    refine ⟨rfl, rfl, ?_⟩
    simp [Slot.dflt, DEFVAL]

/-- **C16** (counterpart) `force_into_coadd_bounds` never moves an object: the stored position is the WCS position whatever the flag,
so an object accepted through the border stays outside the coadd proper. -/
theorem C16_force_never_moves (hi : Maker.init cfg hn objs images psf psfInfo md = .ok mk) (hw : mk.write = .ok (mk', f))
    (ho : MEDS.openFile f = .ok m) {i k : Nat} {o : ObjRow} {s : Slot} (he : Epoch m.cat.rows i k o s) {im : SrcImage}
    (him : images[s.fileId.toNat]? = some im) : s.origRow = rowIn im o.sky ∧ s.origCol = colIn im o.sky := by
  obtain ⟨j, im', h1, h2, _, h3, h4, _⟩ := C06_positions_recorded hi hw ho he
  rw [h1, Int.toNat_natCast, h2] at him
  injection him with him
  subst him
  exact ⟨h3, h4⟩

/-- **C16** (what does hold) every stored position of an epoch lies in the accepted region of its image, border included. -/
theorem C16_positions_in_bounds_partial (hi : Maker.init cfg hn objs images psf psfInfo md = .ok mk) (hw : mk.write = .ok (mk', f))
    (ho : MEDS.openFile f = .ok m) {i k : Nat} {o : ObjRow} {s : Slot} (he : Epoch m.cat.rows i k o s) :
    ∃ (j : Nat) (im : SrcImage), s.fileId = (j : Int) ∧ images[j]? = some im ∧
      1 - im.info.positionOffset - border cfg j ≤ s.origRow ∧ s.origRow ≤ im.wcs.nrow - im.info.positionOffset + border cfg j ∧
      1 - im.info.positionOffset - border cfg j ≤ s.origCol ∧ s.origCol ≤ im.wcs.ncol - im.info.positionOffset + border cfg j := by
  obtain ⟨j, im, h1, h2, h3, h4, h5, _⟩ := C06_positions_recorded hi hw ho he
  obtain ⟨_, a, b, c, d⟩ := h3
  rw [h4, h5]
  exact ⟨j, im, h1, h2, a, b, c, d⟩

/-- **C52** (layout part) the jacobian read for an epoch is the one the WCS of its image gives at the object's position, in the WCS convention. -/
theorem C52_jacobian_is_wcs_jacobian (hi : Maker.init cfg hn objs images psf psfInfo md = .ok mk) (hw : mk.write = .ok (mk', f))
    (ho : MEDS.openFile f = .ok m) {i k : Nat} {o : ObjRow} {s : Slot} (he : Epoch m.cat.rows i k o s) :
    ∃ (j : Nat) (im : SrcImage) (J : MEDS.Jac), s.fileId = (j : Int) ∧ images[j]? = some im ∧ m.getJacobian i k = .ok J ∧
      (J.dudcol, J.dudrow, J.dvdcol, J.dvdrow) = im.wcs.jacobian o.sky (im.wcs.sky2image o.sky).1 (im.wcs.sky2image o.sky).2 ∧
      J.row0 + s.origStartRow = rowIn im o.sky ∧ J.col0 + s.origStartCol = colIn im o.sky := by
  obtain ⟨j, im, h1, h2, _, h4, h5, _, _, h6, h7, h8⟩ := C06_positions_recorded hi hw ho he
  obtain ⟨r1, r2, r3⟩ := he
  have hi1 := (List.getElem?_eq_some_iff.mp r1).1
  refine ⟨j, im, ⟨s.cutoutRow, s.cutoutCol, s.dudrow, s.dudcol, s.dvdrow, s.dvdcol⟩, h1, h2, ?_, h8, ?_, ?_⟩
  · have hrow : m.row i = .ok o := pyGet_nat_some r1
    have hslot : m.slot i k = .ok s := by
      unfold MEDS.slot
      rw [hrow]
      exact pyGet_nat_some r3
    have hchk : m.checkIndices i (some (k : Int)) = .ok () := by
      unfold MEDS.checkIndices MEDS.size
      rw [if_neg (by omega), hrow]
      simp only [Res.ok_bind]
      rw [if_neg (by omega), if_neg (by omega)]
    unfold MEDS.getJacobian MEDS.getCutoutRowcol
    rw [hchk, hslot]
    rfl
  · rw [h6, ← h4]; ring
  · rw [h7, ← h5]; ring

end

/-- **C16** is false as stated: with the forcing flag set, an object in the border is stored outside the coadd (row -2 with a 5 x 5 coadd). -/
theorem C16_counterexample :
    Ex.check { Ex.cfg with coaddBuffer := 3, forceIntoCoaddBounds := true } [Ex.obj 1 2 3 (-1)] Ex.images none
      (fun m => match m.cat.rows with
        | [o] => match o.slots with
          | s :: _ => decide (s.fileId = 0) && decide (s.origRow = -2) && decide (o.ncutout ≥ 1)
          | [] => false
        | _ => false) = true := by decide +kernel

/-- Hypotheses of the theorems of this file are met by a run with three images and two objects (with PSFs). -/
example : Ex.check Ex.cfg Ex.objs Ex.images (some Ex.psfs) (fun m =>
    m.cat.rows.map (fun o => o.slots.map (·.startRow)) = [[0, 16, -9999], [32, 36, 40]] &&
    m.cat.rows.map (fun o => o.slots.map (fun s => (s.origStartRow, s.origStartCol))) =
      [[(0, 0), (0, 0), (-9999, -9999)], [(1, 3), (1, 3), (1, 1)]]) = true := by decide +kernel

end Meds
