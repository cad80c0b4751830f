import Verif.Props.Mosaic
import Verif.Props.Photometry
import Verif.Lemmas.Total

/-!
# Cutout types, completion of a write, and writing twice (C14, C15, C54)
-/

namespace Meds
open Spec Maker

/-! ### C54 -/

/-- **C54** (as far as it holds) An accepted list of types starts with "image", contains "image" once if it was requested at most once, keeps the other
requested types in their order, and consists of supported types. -/
theorem C54_types_normalised_partial {req types : List String} (h : setCutoutTypes req = .ok types) :
    types.head? = some "image" ∧ (req.count "image" ≤ 1 → types.count "image" = 1) ∧
    types.filter (· ≠ "image") = req.filter (· ≠ "image") ∧ (∀ t ∈ types, t ∈ (["image", "weight", "seg", "bmask", "ormask", "noise"] : List String)) ∧
    (∀ t, t ∈ types ↔ t = "image" ∨ t ∈ req) := by
  have hs := setCutoutTypes_ok h
  have hmem := mem_types h
  obtain ⟨hs1, hs2⟩ := hs
  clear h
  subst hs1
  have hf : ∀ l : List String, (l.erase "image").filter (· ≠ "image") = l.filter (· ≠ "image") := by
    intro l
    induction l with
    | nil => rfl
    | cons a l ih =>
      by_cases ha : a = "image"
      · subst ha; simp
      · rw [List.erase_cons_tail (by simpa using ha)]
        simp only [List.filter_cons]
        rw [ih]
  refine ⟨rfl, ?_, ?_, hs2, hmem⟩
  · intro hc
    rw [List.count_cons_self]
    split
    · rw [List.count_erase_self]; omega
    · rename_i hn
      rw [List.count_eq_zero_of_not_mem hn]
  · split
    · simpa using hf req
    · simp

/-- **C54** Exactly the lists of supported types are accepted; everything else is a ValueError. -/
theorem C54_unsupported_rejected (req : List String) :
    ((∀ t ∈ req, t ∈ (["image", "weight", "seg", "bmask", "ormask", "noise"] : List String)) → ∃ types, setCutoutTypes req = .ok types) ∧
    ((∃ t ∈ req, t ∉ (["image", "weight", "seg", "bmask", "ormask", "noise"] : List String)) → setCutoutTypes req = .error .valueError) := by
  constructor
  · intro h
    unfold setCutoutTypes
    dsimp only
    rw [if_neg]
    · exact ⟨_, rfl⟩
    · intro hne
      apply hne
      rw [List.length_eq_zero_iff, List.filter_eq_nil_iff]
      intro t ht
      have : t ∈ supportedTypes := by
        rcases List.mem_cons.mp ht with rfl | ht
        · decide
        · split at ht
          · exact h t (List.mem_of_mem_erase ht)
          · exact h t ht
      simpa [List.contains_iff_mem] using this
  · rintro ⟨t, ht, hn⟩
    unfold setCutoutTypes
    dsimp only
    rw [if_pos]
    intro h0
    rw [List.length_eq_zero_iff, List.filter_eq_nil_iff] at h0
    have hne : t ≠ "image" := by rintro rfl; exact hn (by decide)
    have := h0 t (by
      refine List.mem_cons_of_mem _ ?_
      split
      · exact (List.mem_erase_of_ne hne).mpr ht
      · exact ht)
    simp at this
    exact hn this

/-- **C54** is false when "image" is requested twice: it stays in the list twice. -/
theorem C54_counterexample : ∃ types, setCutoutTypes ["image", "image"] = .ok types ∧ types.count "image" = 2 :=
  ⟨["image", "image"], by decide +kernel, by decide +kernel⟩

example : setCutoutTypes ["weight", "image", "seg"] = .ok ["image", "weight", "seg"] := by decide +kernel

/-! ### C15 -/

/-- Inputs with which a write is expected to work: the four types with a documented default, non-negative boxes, room for all epochs,
planes present and of matching shape, objects on the coadd if that is demanded, and PSF models that announce the shapes they draw. -/
structure Spec.ValidInput (cfg : MakerCfg) (objs : List InputObj) (images : List SrcImage) (psf : Option (List PsfModel)) : Prop where
  types : ∀ t ∈ cfg.cutoutTypes, t = "image" ∨ t = "weight" ∨ t = "seg" ∨ t = "bmask"
  nonempty : objs ≠ []
  boxes : ∀ a ∈ objs, 0 ≤ a.boxSize
  room : ∀ n, cfg.ncutoutMax = some n → (images.length : Int) ≤ n
  noMinWeight : cfg.minWeightKey = false
  image : ∀ im ∈ images, ∃ raw, im.plane "image" = some (some raw) ∧
    (im.plane "bkg" = some none ∨ ∃ b, im.plane "bkg" = some (some b) ∧ b.nr = raw.nr ∧ b.nc = raw.nc)
  weight : "weight" ∈ cfg.cutoutTypes → ∀ im ∈ images, ∃ raw, im.plane "weight" = some (some raw) ∧
    ∀ flags, cfg.unusableBmask = some flags →
      (im.plane "bmask" = some none ∨ ∃ b, im.plane "bmask" = some (some b) ∧ b.nr = raw.nr ∧ b.nc = raw.nc)
  seg : "seg" ∈ cfg.cutoutTypes → ∀ im ∈ images, ∃ r, im.plane "seg" = some r
  bmask : "bmask" ∈ cfg.cutoutTypes → ∀ im ∈ images, ∃ r, im.plane "bmask" = some r
  coaddImage : cfg.firstImageIsCoadd = true → cfg.trimToCoadd = true → images ≠ []
  coaddSome : cfg.firstImageIsCoadd = true → cfg.trimToCoadd = true ∨ cfg.forceIntoCoaddBounds = true →
    ∀ im rest, images = im :: rest → ∃ a ∈ objs, Covers cfg 0 im a.sky
  coaddAll : cfg.firstImageIsCoadd = true → cfg.checkInCoadd = true → cfg.trimToCoadd = false →
    ∀ im rest, images = im :: rest → ∀ a ∈ objs, Covers cfg 0 im a.sky
  psf : ∀ ps, psf = some ps → ps.length = images.length ∧ ∀ p ∈ ps, (∀ sky r c, (p.getRec sky r c).WF) ∧
    ∀ shape, p.recShape = some shape → ∀ sky r c, shape sky r c = ((p.getRec sky r c).nr, (p.getRec sky r c).nc)

/-- The bad pixels of a bit mask are all on an `nr` by `nc` image. -/
def Spec.BadInside (flags : Int) (mask : Img ℚ) (nr nc : Nat) : Prop :=
  ∀ r c z, mask.get? r c = some z → SharesBit ⌊z⌋ flags → r < nr ∧ c < nc

/-- What type `t` needs of an image.  "image": the plane and a background of its shape, or of length 1 along an axis, if any.  "weight": no `min_weight`
setting, the plane and, when `unusable_bmask` is set, a bit mask without bad pixels off the image, if any.  Other types: a path column, possibly naming no
file. -/
def Spec.Readable (cfg : MakerCfg) (im : SrcImage) (t : String) : Prop :=
  if t = "image" then ∃ raw bkg, im.plane "image" = some (some raw) ∧ im.plane "bkg" = some bkg ∧
    ∀ b, bkg = some b → (b.nr = raw.nr ∨ b.nr = 1) ∧ (b.nc = raw.nc ∨ b.nc = 1)
  else if t = "weight" then cfg.minWeightKey = false ∧ ∃ raw, im.plane "weight" = some (some raw) ∧
    (∀ flags, cfg.unusableBmask = some flags → ∃ mask, im.plane "bmask" = some mask ∧ ∀ b, mask = some b → BadInside flags b raw.nr raw.nc)
  else ∃ r, im.plane t = some r

/-- Exactly the inputs with which a write completes. -/
structure Spec.Writable (cfg : MakerCfg) (objs : List InputObj) (images : List SrcImage) (psf : Option (List PsfModel)) : Prop where
  /-- the requested types are among the six supported ones -/
  types : ∀ t ∈ cfg.cutoutTypes, t ∈ supportedTypes
  /-- one PSF model per image -/
  psfCount : ∀ ps, psf = some ps → ps.length = images.length
  /-- some object stays in the catalogue -/
  nonempty : ∃ a ∈ objs, kept cfg images a.sky = true
  /-- when positions are forced onto the coadd, some object is on it -/
  forced : cfg.firstImageIsCoadd = true → cfg.forceIntoCoaddBounds = true →
    ∀ im rest, images = im :: rest → ∃ a ∈ objs, kept cfg images a.sky = true ∧ Covers cfg 0 im a.sky
  /-- when the coadd check is on, every object is on the coadd -/
  inCoadd : cfg.firstImageIsCoadd = true → cfg.checkInCoadd = true →
    ∀ im rest, images = im :: rest → ∀ a ∈ objs, kept cfg images a.sky = true → Covers cfg 0 im a.sky
  /-- no object has more epochs than `ncutout_max` (by default the number of images), which counts as at least 2 -/
  room : ∀ a ∈ objs, kept cfg images a.sky = true →
    ((coveringImages cfg images a.sky).length : Int) ≤ max 2 (cfg.ncutoutMax.getD images.length)
  /-- every image has what the requested types need -/
  planes : ∀ t, t = "image" ∨ t ∈ cfg.cutoutTypes → ∀ im ∈ images, Readable cfg im t
  /-- an object with epochs has a box that is not negative after being made even -/
  boxes : ∀ a ∈ objs, kept cfg images a.sky = true → coveringImages cfg images a.sky ≠ [] → -1 ≤ a.boxSize
  /-- a plane that is drawn for some object has a documented value for pixels off the image -/
  fills : ∀ a ∈ objs, kept cfg images a.sky = true → ∀ j ∈ coveringImages cfg images a.sky, ∀ im, images[j]? = some im →
    ∀ t ∈ cfg.cutoutTypes, ∀ raw, im.plane t = some (some raw) → documentedFill t ≠ none
  /-- the PSF models announce the shapes they draw, at the positions where they are drawn -/
  psfShapes : ∀ ps, psf = some ps → ∀ a ∈ objs, kept cfg images a.sky = true → ∀ j ∈ coveringImages cfg images a.sky, ∀ im p,
    images[j]? = some im → ps[j]? = some p → ∀ shape, p.recShape = some shape →
      shape a.sky (rowIn im a.sky) (colIn im a.sky) =
        ((p.getRec a.sky (rowIn im a.sky) (colIn im a.sky)).nr, (p.getRec a.sky (rowIn im a.sky) (colIn im a.sky)).nc)

theorem badOutside_iff {flags : Int} {mask : Img ℚ} {nr nc : Nat} : badOutside flags mask nr nc = false ↔ BadInside flags mask nr nc := by
  unfold badOutside BadInside
  rw [List.any_eq_false]
  constructor
  · intro h r c z hz hs
    obtain ⟨hr, hc⟩ := Img.get?_lt hz
    have h1 := h r (List.mem_range.mpr hr)
    rw [Bool.not_eq_true, List.any_eq_false] at h1
    have h2 := h1 c (List.mem_range.mpr hc)
    rw [hz] at h2
    have hb : badBit flags z = true := by rw [badBit_floor]; exact (badBit_iff _ _).mpr hs
    simp only [hb, Bool.true_and, Bool.or_eq_true, decide_eq_true_eq, not_or] at h2
    omega
  · intro h r hr
    rw [Bool.not_eq_true, List.any_eq_false]
    intro c hc
    cases hz : mask.get? r c with
    | none => simp
    | some z =>
      by_cases hb : badBit flags z = true
      · have hs : SharesBit ⌊z⌋ flags := by rw [badBit_floor] at hb; exact (badBit_iff _ _).mp hb
        obtain ⟨h1, h2⟩ := h r c z hz hs
        simp only [hb, Bool.true_and, Bool.or_eq_true, decide_eq_true_eq, not_or]
        omega
      · simp [hb]

theorem readImage_of_readable {cfg : MakerCfg} {im : SrcImage} {t : String} (h : Readable cfg im t) : ∃ r, readImage cfg im t = .ok r := by
  unfold Readable at h
  unfold readImage readOneImage
  split at h
  · rename_i ht
    subst ht
    obtain ⟨raw, bkg, h1, h2, h3⟩ := h
    rw [h1, h2]
    simp only [Res.ok_bind, if_true]
    cases bkg with
    | none => exact ⟨_, rfl⟩
    | some b =>
      obtain ⟨h4, h5⟩ := h3 b rfl
      unfold subBkg
      simp only
      rw [if_pos ⟨h4, h5⟩]
      exact ⟨_, rfl⟩
  · rename_i ht
    split at h
    · rename_i ht'
      subst ht'
      obtain ⟨h0, raw, h1, h2⟩ := h
      rw [h1, h0]
      simp only [Res.ok_bind, if_true]
      rw [if_neg ht, if_neg (by decide)]
      cases hf : cfg.unusableBmask with
      | none => exact ⟨_, rfl⟩
      | some flags =>
        obtain ⟨mask, h3, h4⟩ := h2 flags hf
        rw [h3]
        simp only [Res.ok_bind]
        cases mask with
        | none => exact ⟨_, rfl⟩
        | some b =>
          unfold zeroWhereBad
          simp only
          rw [badOutside_iff.mpr (h4 b rfl)]
          exact ⟨_, rfl⟩
    · rename_i ht'
      obtain ⟨r, h1⟩ := h
      rw [h1]
      simp only [Res.ok_bind]
      rw [if_neg ht, if_neg ht']
      exact ⟨_, rfl⟩

/-- A plane that was read is `Readable`, and it gave pixels exactly when there is a file. -/
theorem readable_of_readImage {cfg : MakerCfg} {im : SrcImage} {t : String} {r : Option (Img ℚ)} (h : readImage cfg im t = .ok r) :
    Readable cfg im t ∧ (r ≠ none ↔ ∃ raw, im.plane t = some (some raw)) := by
  unfold readImage at h
  obtain ⟨raw, hraw, hc⟩ := Res.bind_eq_ok.mp h
  clear h
  rename' hc => h
  have hp : im.plane t = some raw := by
    unfold readOneImage at hraw
    split at hraw
    · cases hraw
    · rename_i r' hr; injection hraw with hraw; rw [hr, hraw]
  unfold Readable
  by_cases ht : t = "image"
  · subst ht
    rw [if_pos rfl] at h ⊢
    obtain ⟨bkg, hb, hc⟩ := Res.bind_eq_ok.mp h
    clear h
    rename' hc => h
    have hbk : im.plane "bkg" = some bkg := by
      unfold readOneImage at hb
      split at hb
      · cases hb
      · rename_i r' hr; injection hb with hb; rw [hr, hb]
    cases raw with
    | none => cases h
    | some x =>
      dsimp only at h
      obtain ⟨y, hy, h⟩ := Res.bind_eq_ok.mp h
      injection h with h
      refine ⟨⟨x, bkg, hp, hbk, ?_⟩, by rw [← h, hp]; simp⟩
      rintro b rfl
      unfold subBkg at hy
      dsimp only at hy
      split at hy
      · rename_i hs; exact hs
      · cases hy
  · rw [if_neg ht] at h ⊢
    by_cases ht' : t = "weight"
    · subst ht'
      rw [if_pos rfl] at h ⊢
      by_cases hm : cfg.minWeightKey = true
      · rw [if_pos hm] at h; cases h
      · have hm' : cfg.minWeightKey = false := by simpa using hm
        rw [if_neg hm] at h
        cases hu : cfg.unusableBmask with
        | none =>
          rw [hu] at h
          cases raw with
          | none => cases h
          | some x =>
            injection h with h
            exact ⟨⟨hm', x, hp, by simp⟩, by rw [← h, hp]; simp⟩
        | some flags =>
          rw [hu] at h
          dsimp only at h
          obtain ⟨mask, hb, hc⟩ := Res.bind_eq_ok.mp h
          clear h
          rename' hc => h
          have hbm : im.plane "bmask" = some mask := by
            unfold readOneImage at hb
            split at hb
            · cases hb
            · rename_i r' hr; injection hb with hb; rw [hr, hb]
          cases raw with
          | none => cases h
          | some x =>
            dsimp only at h
            obtain ⟨y, hy, h⟩ := Res.bind_eq_ok.mp h
            injection h with h
            refine ⟨⟨hm', x, hp, fun fl hfl => ⟨mask, hbm, ?_⟩⟩, by rw [← h, hp]; simp⟩
            injection hfl with hfl
            subst hfl
            rintro b rfl
            unfold zeroWhereBad at hy
            dsimp only at hy
            split at hy
            · cases hy
            · rename_i hs; exact badOutside_iff.mp (by simpa using hs)
    · rw [if_neg ht'] at h ⊢
      injection h with h
      subst h
      refine ⟨⟨_, hp⟩, ?_⟩
      rw [hp]
      cases raw <;> simp

/-- **C10** (what is refused) A plane is read without an exception exactly if it is `Readable`: a background of another shape, neither the image's nor of
length 1 along an axis, is refused, and so is a mask with a bad pixel off the image; a mask of another shape as such is not. -/
theorem C10_read_iff (cfg : MakerCfg) (im : SrcImage) (t : String) : (∃ r, readImage cfg im t = .ok r) ↔ Readable cfg im t :=
  ⟨fun ⟨_, h⟩ => (readable_of_readImage h).1, readImage_of_readable⟩

theorem documented_defaultValue {t : String} (h : documentedFill t ≠ none) : ∃ q, defaultValue t = .ok q := by
  unfold documentedFill at h
  split at h
  · exact ⟨0, by decide +kernel⟩
  · exact ⟨0, by decide +kernel⟩
  · exact ⟨0, by decide +kernel⟩
  · exact ⟨2 ^ 30, by decide +kernel⟩
  · exact absurd rfl h

theorem initialNmax_eq (cfg : MakerCfg) (n : Nat) : ((initialNmax cfg n : Nat) : Int) = max 2 (cfg.ncutoutMax.getD n) := by
  unfold initialNmax
  cases cfg.ncutoutMax with
  | none => simp only [Option.getD_none]; split <;> omega
  | some k => simp only [Option.getD_some]; split <;> omega

/-- The fresh rows of a maker. -/
theorem init_fresh {objs : List InputObj} {n : Nat} :
    ∀ o ∈ (objs.map (fullRow n)).map forceEven, o.ncutout = 0 ∧ o.slots = List.replicate n Slot.dflt := by
  intro o ho
  obtain ⟨o1, ho1, rfl⟩ := List.mem_map.mp ho
  obtain ⟨o2, ho2, rfl⟩ := List.mem_map.mp ho1
  obtain ⟨a, b, _⟩ := forceEven_fresh (fullRow n o2)
  rw [a, b]
  exact ⟨rfl, rfl⟩

/-- The rows after trimming are the kept objects. -/
theorem trim_kept {cfg : MakerCfg} {images : List SrcImage} {objs : List InputObj} {n : Nat} {in0 : List ObjRow}
    (h : trim cfg images ((objs.map (fullRow n)).map forceEven) = .ok in0) :
    in0 = ((objs.filter (fun a => kept cfg images a.sky)).map (fullRow n)).map forceEven := by
  have hsk : ∀ a : InputObj, (forceEven (fullRow n a)).sky = a.sky := fun a => (sameObject_input n a).2.1
  unfold trim at h
  split at h
  · rename_i hc
    cases images with
    | nil => cases h
    | cons im rest =>
      dsimp only at h
      split at h
      · cases h
      · injection h with h
        rw [← h, List.map_map, List.map_map, List.filter_map]
        congr 1
        apply List.filter_congr
        intro a _
        unfold kept
        rw [if_pos hc]
        dsimp only [Function.comp]
        rw [Bool.eq_iff_iff, accepted_iff, hsk]
        simp
  · rename_i hc
    injection h with h
    rw [← h]
    congr 2
    symm
    rw [List.filter_eq_self]
    intro a _
    unfold kept
    rw [if_neg hc]

theorem trim_total {cfg : MakerCfg} {images : List SrcImage} {objs : List InputObj} {n : Nat} (h : ∃ a ∈ objs, kept cfg images a.sky = true) :
    ∃ in0, trim cfg images ((objs.map (fullRow n)).map forceEven) = .ok in0 := by
  obtain ⟨a, ha, hk⟩ := h
  unfold trim
  unfold kept at hk
  split
  · rename_i hc
    rw [if_pos hc] at hk
    cases images with
    | nil => cases hk
    | cons im rest =>
      dsimp only at hk ⊢
      have hmem : forceEven (fullRow n a) ∈ ((objs.map (fullRow n)).map forceEven).filter (accepted cfg 0 im) :=
        List.mem_filter.mpr ⟨List.mem_map_of_mem (List.mem_map_of_mem ha), (accepted_iff _ _ _ _).mpr (by
          rw [(sameObject_input n a).2.1]; exact of_decide_eq_true hk)⟩
      rw [if_neg (by have := List.length_pos_of_mem hmem; omega)]
      exact ⟨_, rfl⟩
  · exact ⟨_, rfl⟩

/-- A cell of the laid-out catalogue belongs to a kept object and one of the images covering it. -/
theorem laidOut_cell {cfg : MakerCfg} {images : List SrcImage} {w n : Nat} {objs : List InputObj} {rows : List ObjRow}
    (h : List.Forall₂ (LaidOut cfg images w) (((objs.filter (fun a => kept cfg images a.sky)).map (fullRow n)).map forceEven) rows)
    {o : ObjRow} {s : Slot} (hc : (o, s) ∈ cells rows) :
    ∃ a ∈ objs, ∃ (j : Nat) (im : SrcImage), kept cfg images a.sky = true ∧ SameObject a o ∧ s.fileId = (j : Int) ∧ images[j]? = some im ∧
      j ∈ coveringImages cfg images a.sky ∧ s.origRow = rowIn im a.sky ∧ s.origCol = colIn im a.sky := by
  obtain ⟨ho, hs⟩ := mem_cells.mp hc
  obtain ⟨i, hi⟩ := List.mem_iff_getElem?.mp ho
  obtain ⟨k, hk⟩ := List.mem_iff_getElem?.mp hs
  rw [List.getElem?_take] at hk
  split at hk
  · rename_i hkn
    have he : Epoch rows i k o s := ⟨hi, by omega, hk⟩
    obtain ⟨o0, fi, h1, h2, h3, h4, h5, h6⟩ := laidOut_epoch h he
    rw [List.map_map, List.getElem?_map] at h1
    obtain ⟨a, ha, hao⟩ := Option.map_eq_some_iff.mp h1
    obtain ⟨hmem, hkept⟩ := List.mem_filter.mp (List.mem_of_getElem? ha)
    have hso : SameObject a o0 := by rw [← hao]; exact sameObject_input n a
    have hsky : o.sky = a.sky := by rw [h2]; exact hso.2.1
    have hfin : finalPos cfg fi.1 fi.2 o0 = objPos fi.2 o0 := finalPos_eq _ _ _ _ (by rw [hso.2.1, ← hsky]; exact h6)
    have hcs : core s = newSlot fi.1 fi.2 (objPos fi.2 o0) o0 Slot.dflt := by rw [h4, epochOf, hfin]
    have him := mem_numbered.mp (show (fi.1, fi.2) ∈ numbered images from h5)
    refine ⟨a, hmem, fi.1, fi.2, hkept, ?_, congrArg Slot.fileId hcs, him, ?_, ?_, ?_⟩
    · rw [h2]; exact hso
    · unfold coveringImages
      rw [List.mem_filter, List.mem_range, him]
      refine ⟨(List.getElem?_eq_some_iff.mp him).1, ?_⟩
      rw [← hsky]
      exact decide_eq_true h6
    · have := congrArg Slot.origRow hcs
      rw [← hso.2.1]; exact this
    · have := congrArg Slot.origCol hcs
      rw [← hso.2.1]; exact this
  · cases hk

/-- Writable inputs are written. -/
theorem writable_completes {cfg : MakerCfg} {objs : List InputObj} {images : List SrcImage} {psf : Option (List PsfModel)}
    (hwf : ∀ ps, psf = some ps → ∀ p ∈ ps, ∀ sky r c, (p.getRec sky r c).WF)
    (v : Writable cfg objs images psf) (hn : Bool) (psfInfo : Option String) (md : String) :
    ∃ mk mk' f, Maker.init cfg hn objs images psf psfInfo md = .ok mk ∧ mk.write = .ok (mk', f) := by
  obtain ⟨types, hty⟩ := (C54_unsupported_rejected cfg.cutoutTypes).1 v.types
  have hlen : psfLengthBad psf images.length = false := by
    unfold psfLengthBad
    cases hp : psf with
    | none => rfl
    | some ps => simp [v.psfCount ps hp]
  obtain ⟨mk, hmk⟩ : ∃ mk, Maker.init cfg hn objs images psf psfInfo md = .ok mk := by
    unfold Maker.init
    rw [hty]
    simp only [Res.ok_bind]
    rw [hlen]
    exact ⟨_, rfl⟩
  obtain ⟨e1, e2, e3, e4, e5, e6, e7, e8, e9⟩ := init_ok hmk
  have hnm := initialNmax_eq cfg images.length
  have hfresh := init_fresh (objs := objs) (n := initialNmax cfg images.length)
  obtain ⟨in0, ht⟩ := trim_total (n := initialNmax cfg images.length) v.nonempty
  have hin := trim_kept ht
  rw [← e8] at hfresh ht
  have hmem : ∀ o ∈ in0, ∃ a ∈ objs, kept cfg images a.sky = true ∧ SameObject a o := by
    intro o ho
    rw [hin, List.map_map] at ho
    obtain ⟨a, ha, rfl⟩ := List.mem_map.mp ho
    obtain ⟨h1, h2⟩ := List.mem_filter.mp ha
    exact ⟨a, h1, h2, sameObject_input _ a⟩
  have hmem' : ∀ a ∈ objs, kept cfg images a.sky = true → ∃ o ∈ in0, o.sky = a.sky := by
    intro a ha hk
    refine ⟨_, ?_, (sameObject_input (initialNmax cfg images.length) a).2.1⟩
    rw [hin]
    exact List.mem_map_of_mem (List.mem_map_of_mem (List.mem_filter.mpr ⟨ha, hk⟩))
  have hne : in0 ≠ [] := by
    obtain ⟨a, ha, hk⟩ := v.nonempty
    obtain ⟨o, ho, _⟩ := hmem' a ha hk
    exact List.ne_nil_of_mem ho
  have hchecks : ∀ fi ∈ numbered mk.images, ChecksOk mk.cfg fi (in0.map (·.sky)) := by
    intro fi hfi
    rw [e2] at hfi
    have hg := mem_numbered.mp (show (fi.1, fi.2) ∈ numbered images from hfi)
    rw [e1]
    constructor
    · intro hf
      unfold forces at hf
      simp only [Bool.and_eq_true, beq_iff_eq] at hf
      obtain ⟨⟨f1, f2⟩, f3⟩ := hf
      rw [f2] at hg
      cases him : images with
      | nil => rw [him] at hg; cases hg
      | cons im rest =>
        rw [him] at hg
        injection hg with hg
        obtain ⟨a, ha, hk, hcov⟩ := v.forced f1 f3 im rest him
        obtain ⟨o, ho, hos⟩ := hmem' a ha hk
        rw [← hos] at hcov
        exact ⟨o.sky, List.mem_map_of_mem ho, by rw [f2, ← hg]; exact hcov⟩
    · intro f1 f2 f3 s hs
      obtain ⟨o, ho, rfl⟩ := List.mem_map.mp hs
      rw [f3] at hg
      cases him : images with
      | nil => rw [him] at hg; cases hg
      | cons im rest =>
        rw [him] at hg
        injection hg with hg
        rw [f3, ← hg]
        obtain ⟨a, ha, hk, hso⟩ := hmem o ho
        rw [hso.2.1]
        exact v.inCoadd f1 f2 im rest him a ha hk
  obtain ⟨mk', hb⟩ := buildLayout_total hfresh (by rw [e1, e2]; exact ht) (trim_sub ht) hne (by omega) (by
    intro o ho
    obtain ⟨a, ha, hk, hso⟩ := hmem o ho
    have := v.room a ha hk
    rw [e1, e2, hso.2.1]
    omega) hchecks (by
    intro p hp
    rw [e3] at hp
    rw [e2]
    exact v.psfCount p hp)
  obtain ⟨objs0, w, g1, g2, g3, g4, g5, g6, g7, g8⟩ := buildLayout_ok hb hfresh
  rw [e1, e2, ht] at g1
  injection g1 with g1
  subst g1
  have c1 : mk'.cfg = cfg := by rw [g7]; exact e1
  have c2 : mk'.images = images := by rw [g7]; exact e2
  have c3 : mk'.psf = psf := by rw [g7]; exact e3
  have c4 : mk'.types = types := by
    rw [g7]
    rw [e6] at hty
    injection hty
  rw [e1, e2, hin] at g4
  have hready : mk'.Ready := by
    refine ⟨?_, g6, ?_, ?_⟩
    · rw [c4]; exact (setCutoutTypes_ok hty).2
    · rw [c2]; exact laidOut_fileIds g4
    · intro p hp
      rw [c3, ← e3] at hp
      exact (g8 p hp).1
  obtain ⟨f, hf⟩ := writeData_total hready (by
      intro o ho
      obtain ⟨i, hi⟩ := List.mem_iff_getElem?.mp ho
      obtain ⟨b1, b2, b3, _⟩ := laidOut_slots g4 hi
      omega) (by
      intro t htt o s hos j im src hj him hr
      rw [c4] at htt
      rw [c2] at him
      rw [c1] at hr
      obtain ⟨a, ha, j', im', hk, hso, hj', him', hcov, _⟩ := laidOut_cell g4 hos
      have hjj : j = j' := by rw [hj] at hj'; omega
      subst hjj
      rw [him] at him'
      injection him' with him'
      subst him'
      constructor
      · rw [hso.2.2.2.2]
        have := v.boxes a ha hk (List.ne_nil_of_mem hcov)
        split <;> omega
      · rcases (mem_types hty t).mp htt with rfl | h
        · exact ⟨_, rfl⟩
        · obtain ⟨raw, hraw⟩ := (readable_of_readImage hr).2.mp (by simp)
          exact documented_defaultValue (v.fills a ha hk j hcov im him t h raw hraw)) (by
      intro t htt im him
      rw [c4] at htt
      rw [c2] at him
      rw [c1]
      exact readImage_of_readable (v.planes t ((mem_types hty t).mp htt) im him)) (by
      intro p hp
      rw [c3] at hp
      refine ⟨hwf p hp, ?_⟩
      intro o s hos
      obtain ⟨ho, hs⟩ := mem_cells.mp hos
      have hp' := hp
      rw [← e3] at hp
      obtain ⟨q, q1, q2, q3, _⟩ := (g8 p hp).2 o ho s hs
      refine ⟨q, q1, ?_⟩
      obtain ⟨a, ha, j, im, hk, hso, hj, him, hcov, hrow, hcol⟩ := laidOut_cell g4 hos
      rw [q2, q3]
      unfold psfShapeOf
      cases hrs : q.recShape with
      | none => exact ⟨rfl, rfl⟩
      | some shape =>
        dsimp only
        rw [hj] at q1
        have hjq := pyGet_ok_nonneg q1 (by omega)
        rw [Int.toNat_natCast] at hjq
        rw [hso.2.1, hrow, hcol, v.psfShapes p hp' a ha hk j hcov im q him hjq shape hrs]
        exact ⟨rfl, rfl⟩)
  refine ⟨mk, mk', f, hmk, ?_⟩
  unfold write
  rw [hb]
  simp only [Res.ok_bind]
  rw [hf]
  rfl

/-- **C15** Exactly which inputs can be written: with well-formed PSF arrays, the maker is constructed and its write completes if and only if the input is
`Writable`. -/
theorem C15_completes_iff {cfg : MakerCfg} {objs : List InputObj} {images : List SrcImage} {psf : Option (List PsfModel)}
    (hwf : ∀ ps, psf = some ps → ∀ p ∈ ps, ∀ sky r c, (p.getRec sky r c).WF) (hn : Bool) (psfInfo : Option String) (md : String) :
    (∃ mk mk' f, Maker.init cfg hn objs images psf psfInfo md = .ok mk ∧ mk.write = .ok (mk', f)) ↔ Writable cfg objs images psf := by
  refine ⟨?_, fun v => writable_completes hwf v hn psfInfo md⟩
  rintro ⟨mk, mk', f, hi, hw⟩
  obtain ⟨e1, e2, e3, e4, e5, e6, e7, e8, e9⟩ := init_ok hi
  obtain ⟨hb, hd⟩ := write_ok hw
  have hnm := initialNmax_eq cfg images.length
  have hfresh := init_fresh (objs := objs) (n := initialNmax cfg images.length)
  obtain ⟨in0, w, W, ht, _⟩ := written hi hw
  have hin := trim_kept ht
  rw [← e8] at hfresh ht
  obtain ⟨n1, n2, n3⟩ := buildLayout_needs hb hfresh (by rw [e1, e2]; exact ht)
  rw [e1, e2] at n2 n3
  have hmem : ∀ o ∈ in0, ∃ a ∈ objs, kept cfg images a.sky = true ∧ SameObject a o := by
    intro o ho
    rw [hin, List.map_map] at ho
    obtain ⟨a, ha, rfl⟩ := List.mem_map.mp ho
    obtain ⟨h1, h2⟩ := List.mem_filter.mp ha
    exact ⟨a, h1, h2, sameObject_input _ a⟩
  have hmem' : ∀ a ∈ objs, kept cfg images a.sky = true → ∃ o ∈ in0, SameObject a o := by
    intro a ha hk
    refine ⟨_, ?_, sameObject_input (initialNmax cfg images.length) a⟩
    rw [hin]
    exact List.mem_map_of_mem (List.mem_map_of_mem (List.mem_filter.mpr ⟨ha, hk⟩))
  have hcell : ∀ a ∈ objs, kept cfg images a.sky = true → ∀ j ∈ coveringImages cfg images a.sky, ∀ im, images[j]? = some im →
      ∃ o s, (o, s) ∈ cells mk'.objs ∧ SameObject a o ∧ s.fileId = (j : Int) ∧ s.origRow = rowIn im a.sky ∧ s.origCol = colIn im a.sky := by
    intro a ha hk j hj im him
    obtain ⟨o0, ho0, hso⟩ := hmem' a ha hk
    obtain ⟨i, hi', rfl⟩ := List.mem_iff_getElem.mp ho0
    have hl := W.laid.length_eq
    have hlt : i < mk'.objs.length := by omega
    have hlo := (List.forall₂_iff_get.mp W.laid).2 i hi' hlt
    simp only [List.get_eq_getElem] at hlo
    obtain ⟨b1, b2, b3, b4, b5⟩ := laidOut_slots W.laid (List.getElem?_eq_getElem hlt)
    have hso' : SameObject a (mk'.objs[i]) := by
      obtain ⟨S, _, _, e⟩ := hlo
      rw [e]; exact hso
    rw [hso'.2.1] at b5
    obtain ⟨s, hs, hsj⟩ := List.mem_map.mp (show (j : Int) ∈ _ from b5 ▸ List.mem_map_of_mem (f := fun j : Nat => (j : Int)) hj)
    have hcs : (mk'.objs[i], s) ∈ cells mk'.objs := mem_cells.mpr ⟨List.getElem_mem _, hs⟩
    obtain ⟨k, hk'⟩ := List.mem_iff_getElem?.mp hs
    rw [List.getElem?_take] at hk'
    split at hk'
    · rename_i hkn
      obtain ⟨o1, fi, h1, h2, h3, h4, h5, h6⟩ := laidOut_epoch W.laid
        (show Epoch mk'.objs i k (mk'.objs[i]) s from ⟨List.getElem?_eq_getElem hlt, by omega, hk'⟩)
      rw [List.getElem?_eq_getElem hi'] at h1
      injection h1 with h1
      subst h1
      have hfin : finalPos cfg fi.1 fi.2 in0[i] = objPos fi.2 in0[i] := finalPos_eq _ _ _ _ (by rw [hso.2.1, ← hso'.2.1]; exact h6)
      have hco : core s = newSlot fi.1 fi.2 (objPos fi.2 in0[i]) in0[i] Slot.dflt := by rw [h4, epochOf, hfin]
      have hfi := mem_numbered.mp (show (fi.1, fi.2) ∈ numbered images from h5)
      have hid : s.fileId = (fi.1 : Int) := congrArg Slot.fileId hco
      have hfj : fi.1 = j := by rw [hid] at hsj; omega
      rw [hfj, him] at hfi
      injection hfi with hfi
      refine ⟨_, s, hcs, hso', hsj, ?_, ?_⟩
      · have := congrArg Slot.origRow hco
        rw [hfi, ← hso.2.1]; exact this
      · have := congrArg Slot.origCol hco
        rw [hfi, ← hso.2.1]; exact this
    · cases hk'
  have himage : ∀ a ∈ objs, kept cfg images a.sky = true → ∀ j ∈ coveringImages cfg images a.sky, ∀ im, images[j]? = some im →
      ∀ t, t = "image" ∨ t ∈ cfg.cutoutTypes → ∀ raw, im.plane t = some (some raw) → -1 ≤ a.boxSize ∧ documentedFill t ≠ none := by
    intro a ha hk j hj im him t ht raw hraw
    obtain ⟨o, s, hcs, hso, hsj, _, _⟩ := hcell a ha hk j hj im him
    have htt := (mem_types W.types_ok t).mpr ht
    obtain ⟨r, hr⟩ := W.read htt (List.mem_of_getElem? him)
    have := (readable_of_readImage hr).2.mpr ⟨raw, hraw⟩
    obtain ⟨src, rfl⟩ := Option.ne_none_iff_exists'.mp this
    obtain ⟨sub, hsub⟩ := W.cut htt hcs hsj him hr
    obtain ⟨h1, fill, h2, _⟩ := subImage_ok hsub
    refine ⟨?_, by rw [defaultValue_documented h2]; simp⟩
    rw [hso.2.2.2.2] at h1
    split at h1 <;> omega
  have hplanes : ∀ t, t = "image" ∨ t ∈ cfg.cutoutTypes → ∀ im ∈ images, Readable cfg im t := by
    intro t ht im him
    obtain ⟨r, hr⟩ := W.read ((mem_types W.types_ok t).mpr ht) him
    exact (readable_of_readImage hr).1
  refine ⟨?_, e9, ?_, ?_, ?_, ?_, hplanes, ?_, ?_, ?_⟩
  · intro t ht
    by_contra hc
    have := (C54_unsupported_rejected cfg.cutoutTypes).2 ⟨t, ht, hc⟩
    rw [W.types_ok] at this
    cases this
  · obtain ⟨o, ho⟩ := List.exists_mem_of_ne_nil _ n1
    obtain ⟨a, ha, hk, _⟩ := hmem o ho
    exact ⟨a, ha, hk⟩
  · intro h1 h2 im rest him
    obtain ⟨o, ho, hc⟩ := n3 im rest him (by simp [forces, h1, h2])
    obtain ⟨a, ha, hk, hso⟩ := hmem o ho
    exact ⟨a, ha, hk, by rw [← hso.2.1]; exact hc⟩
  · intro h1 h2 im rest him a ha hk
    obtain ⟨o, ho, hso⟩ := hmem' a ha hk
    rw [← hso.2.1]
    exact W.coadd h1 h2 im rest him o ho
  · intro a ha hk
    obtain ⟨o, ho, hso⟩ := hmem' a ha hk
    have := n2 o ho
    rw [hso.2.1] at this
    omega
  · intro a ha hk hne
    obtain ⟨j, hj⟩ := List.exists_mem_of_ne_nil _ hne
    have hjl : j < images.length := by
      unfold coveringImages at hj
      exact List.mem_range.mp (List.mem_filter.mp hj).1
    have hr := hplanes "image" (.inl rfl) images[j] (List.getElem_mem hjl)
    unfold Readable at hr
    rw [if_pos rfl] at hr
    obtain ⟨raw, _, hraw, _⟩ := hr
    exact (himage a ha hk j hj _ (List.getElem?_eq_getElem hjl) "image" (.inl rfl) raw hraw).1
  · intro a ha hk j hj im him t ht raw hraw
    exact (himage a ha hk j hj im him t (.inr ht) raw hraw).2
  · intro ps hps a ha hk j hj im p him hp shape hshape
    obtain ⟨o, s, hcs, hso, hsj, hrow, hcol⟩ := hcell a ha hk j hj im him
    obtain ⟨m, hm⟩ : ∃ m, MEDS.openFile f = .ok m := ⟨_, W.open⟩
    have hm' := hm
    rw [W.open] at hm'
    injection hm' with hm'
    obtain ⟨_, hdr, _, _⟩ := written_psf hi hw hm hps (hwf ps hps)
    obtain ⟨q, q1, q2, q3⟩ := hdr o s (by rw [← hm']; exact hcs)
    obtain ⟨hmo, hms⟩ := mem_cells.mp hcs
    obtain ⟨q', r1, r2, r3, _⟩ := W.psfOk ps hps o hmo s hms
    rw [q1] at r1
    injection r1 with r1
    subst r1
    rw [hsj] at q1
    have hjq := pyGet_ok_nonneg q1 (by omega)
    rw [Int.toNat_natCast, hp] at hjq
    injection hjq with hjq
    subst hjq
    unfold psfShapeOf at r2 r3
    rw [hshape] at r2 r3
    dsimp only at r2 r3
    rw [hso.2.1, hrow, hcol] at q2 q3 r2 r3
    apply Prod.ext
    · dsimp only; omega
    · dsimp only; omega

theorem valid_writable {cfg : MakerCfg} {objs : List InputObj} {images : List SrcImage} {psf : Option (List PsfModel)}
    (v : ValidInput cfg objs images psf) : Writable cfg objs images psf := by
  have hcl : ∀ sky, ((coveringImages cfg images sky).length : Int) ≤ images.length := by
    intro sky
    unfold coveringImages
    have := List.length_filter_le (fun i => match images[i]? with | some im => decide (Covers cfg i im sky) | none => false) (List.range images.length)
    rw [List.length_range] at this
    exact_mod_cast this
  have hk1 : cfg.firstImageIsCoadd = true → ∀ im rest, images = im :: rest → ∀ a : InputObj, Covers cfg 0 im a.sky → kept cfg images a.sky = true := by
    intro _ im rest him a hcov
    unfold kept
    split
    · rw [him]; exact decide_eq_true hcov
    · rfl
  have hk2 : cfg.trimToCoadd = true → cfg.firstImageIsCoadd = true → ∀ im rest, images = im :: rest → ∀ a : InputObj,
      kept cfg images a.sky = true → Covers cfg 0 im a.sky := by
    intro h1 h2 im rest him a hk
    unfold kept at hk
    rw [h1, h2, if_pos (by rfl), him] at hk
    exact of_decide_eq_true hk
  refine ⟨?_, fun ps h => (v.psf ps h).1, ?_, ?_, ?_, ?_, ?_, ?_, ?_, ?_⟩
  · intro t ht
    rcases v.types t ht with rfl | rfl | rfl | rfl <;> decide
  · by_cases hc : cfg.firstImageIsCoadd = true ∧ cfg.trimToCoadd = true
    · cases him : images with
      | nil => exact absurd him (v.coaddImage hc.1 hc.2)
      | cons im rest =>
        obtain ⟨a, ha, hcov⟩ := v.coaddSome hc.1 (.inl hc.2) im rest him
        exact ⟨a, ha, by rw [← him]; exact hk1 hc.1 im rest him a hcov⟩
    · obtain ⟨a, ha⟩ := List.exists_mem_of_ne_nil _ v.nonempty
      refine ⟨a, ha, ?_⟩
      unfold kept
      rw [if_neg (by rw [Bool.and_eq_true]; exact hc)]
  · intro h1 h2 im rest him
    obtain ⟨a, ha, hcov⟩ := v.coaddSome h1 (.inr h2) im rest him
    exact ⟨a, ha, hk1 h1 im rest him a hcov, hcov⟩
  · intro h1 h2 im rest him a ha hk
    cases htr : cfg.trimToCoadd with
    | true => exact hk2 htr h1 im rest him a hk
    | false => exact v.coaddAll h1 h2 htr im rest him a ha
  · intro a _ _
    have := hcl a.sky
    cases hm : cfg.ncutoutMax with
    | none => rw [Option.getD_none]; omega
    | some n => have := v.room n hm; rw [Option.getD_some]; omega
  · intro t ht im him
    have himg : Readable cfg im "image" := by
      obtain ⟨raw, h1, h2⟩ := v.image im him
      unfold Readable
      rw [if_pos rfl]
      rcases h2 with h2 | ⟨b, h2, h3⟩
      · exact ⟨raw, none, h1, h2, by simp⟩
      · exact ⟨raw, some b, h1, h2, by rintro b' h; injection h with h; rw [← h]; exact ⟨.inl h3.1, .inl h3.2⟩⟩
    rcases ht with rfl | ht
    · exact himg
    · rcases v.types t ht with rfl | rfl | rfl | rfl
      · exact himg
      · obtain ⟨raw, h1, h2⟩ := v.weight ht im him
        unfold Readable
        rw [if_neg (by decide), if_pos rfl]
        refine ⟨v.noMinWeight, raw, h1, ?_⟩
        intro flags hf
        rcases h2 flags hf with h2 | ⟨b, h2, h3⟩
        · exact ⟨none, h2, by simp⟩
        · refine ⟨some b, h2, ?_⟩
          rintro b' h r c z hz _
          injection h with h
          subst h
          have := Img.get?_lt hz
          omega
      · unfold Readable
        rw [if_neg (by decide), if_neg (by decide)]
        exact v.seg ht im him
      · unfold Readable
        rw [if_neg (by decide), if_neg (by decide)]
        exact v.bmask ht im him
  · intro a ha _ _
    have := v.boxes a ha
    omega
  · intro a _ _ j _ im _ t ht raw _
    rcases v.types t ht with rfl | rfl | rfl | rfl <;> simp [documentedFill]
  · intro ps hps a _ _ j _ im p _ hp shape hshape
    exact ((v.psf ps hps).2 p (List.mem_of_getElem? hp)).2 shape hshape _ _ _

/-- **C15** (as far as it holds) With the types image, weight, seg and bmask a write completes for every valid input. -/
theorem C15_write_completes_partial {cfg : MakerCfg} {objs : List InputObj} {images : List SrcImage} {psf : Option (List PsfModel)}
    (v : ValidInput cfg objs images psf) (hn : Bool) (psfInfo : Option String) (md : String) :
    ∃ mk mk' f, Maker.init cfg hn objs images psf psfInfo md = .ok mk ∧ mk.write = .ok (mk', f) :=
  writable_completes (fun ps h p hp => ((v.psf ps h).2 p hp).1) (valid_writable v) hn psfInfo md

/-- **C15** is false for the accepted types ormask and noise: no write with such a plane and at least one epoch in it ever completes. -/
theorem C15_no_default_never_completes {cfg : MakerCfg} {hn : Bool} {objs : List InputObj} {images : List SrcImage} {psf : Option (List PsfModel)}
    {psfInfo : Option String} {md : String} {mk mk' : Maker} {f : Fits} {t : String} (ht : t = "ormask" ∨ t = "noise") (hreq : t ∈ cfg.cutoutTypes)
    (hi : Maker.init cfg hn objs images psf psfInfo md = .ok mk) (hw : mk.write = .ok (mk', f)) :
    ∀ m i k o s, MEDS.openFile f = .ok m → Epoch m.cat.rows i k o s → ∀ im, images[s.fileId.toNat]? = some im → im.plane t = some none := by
  intro m i k o s ho he im him
  have ho' := ho
  obtain ⟨in0, w, W, rfl, _⟩ := opened_eq hi hw ho
  obtain ⟨j, im', h1, h2, _⟩ := C06_positions_recorded hi hw ho' he
  rw [h1, Int.toNat_natCast, h2] at him
  injection him with him
  subst him
  have htt : t ∈ mk'.types := (mem_types W.types_ok t).mpr (.inr hreq)
  obtain ⟨r, hr⟩ := W.read htt (List.mem_of_getElem? h2)
  have hraw : readOneImage im' t = .ok r := by
    unfold readImage at hr
    obtain ⟨raw, hraw, hr⟩ := Res.bind_eq_ok.mp hr
    rw [if_neg (by rcases ht with rfl | rfl <;> decide), if_neg (by rcases ht with rfl | rfl <;> decide)] at hr
    injection hr with hr
    rw [← hr]; exact hraw
  cases r with
  | none =>
    unfold readOneImage at hraw
    split at hraw
    · cases hraw
    · rename_i r hp; injection hraw with hraw; rw [hp, hraw]
  | some src =>
    exfalso
    obtain ⟨sub, hsub⟩ := W.cut htt (epoch_mem_cells he) h1 h2 hr
    obtain ⟨_, fill, hfill, _⟩ := subImage_ok hsub
    rcases ht with rfl | rfl <;> cases hfill

/-- The input used for the counterexample: the standard example with an `ormask` plane added. -/
def Ex.withOrmask : List SrcImage :=
  Ex.images.map (fun im => { im with plane := fun t => if t = "ormask" then im.plane "bmask" else im.plane t })

/-- **C15** counterexample: an accepted configuration with "ormask" and otherwise valid inputs ends in a KeyError. -/
theorem C15_counterexample : ∃ mk, Maker.init { Ex.cfg with cutoutTypes := ["ormask"] } true Ex.objs Ex.withOrmask none none "m" = .ok mk ∧
    mk.write.toOption.isNone = true ∧ (match mk.write with | .error e => decide (e = Err.keyError) | .ok _ => false) = true :=
  ⟨_, rfl, by decide +kernel, by decide +kernel⟩

/-- The validity conditions are met by the standard example with PSFs. -/
theorem Ex.valid : ValidInput Ex.cfg Ex.objs Ex.images (some Ex.psfs) where
  types := by decide +kernel
  nonempty := by decide +kernel
  boxes := by decide +kernel
  room := by intro n h; cases h
  noMinWeight := rfl
  image := by
    intro im him
    simp only [Ex.images, List.mem_cons, List.not_mem_nil, or_false] at him
    rcases him with rfl | rfl | rfl <;> exact ⟨_, rfl, .inr ⟨_, rfl, rfl, rfl⟩⟩
  weight := by
    intro _ im him
    simp only [Ex.images, List.mem_cons, List.not_mem_nil, or_false] at him
    rcases him with rfl | rfl | rfl <;> exact ⟨_, rfl, fun _ _ => .inr ⟨_, rfl, rfl, rfl⟩⟩
  seg := by
    intro _ im him
    simp only [Ex.images, List.mem_cons, List.not_mem_nil, or_false] at him
    rcases him with rfl | rfl | rfl <;> exact ⟨_, rfl⟩
  bmask := by
    intro _ im him
    simp only [Ex.images, List.mem_cons, List.not_mem_nil, or_false] at him
    rcases him with rfl | rfl | rfl <;> exact ⟨_, rfl⟩
  coaddImage := by intro _ _ h; cases h
  coaddSome := by
    intro _ h
    rcases h with h | h <;> cases h
  coaddAll := by
    intro _ _ _ im rest h
    injection h with h1 h2
    subst h1
    decide +kernel
  psf := by
    intro ps h
    injection h with h
    subst h
    refine ⟨rfl, ?_⟩
    intro p hp
    simp only [Ex.psfs, List.mem_cons, List.not_mem_nil, or_false] at hp
    rcases hp with rfl | rfl | rfl <;> exact ⟨fun _ _ _ => Img.ofFn_WF _ _ _, fun _ h => by cases h⟩

/-- The standard example is writable; a box of -3 makes it unwritable, and so does `ncutout_max = 2` with an object on three images. -/
example : Writable Ex.cfg Ex.objs Ex.images (some Ex.psfs) := valid_writable Ex.valid

example : ¬ Writable Ex.cfg (Ex.objs.map (fun a => { a with boxSize := -3 })) Ex.images (some Ex.psfs) := by
  intro v
  have := v.boxes { Ex.obj 10 3 (5/2) (7/3) with boxSize := -3 } (by decide +kernel) rfl (by decide +kernel)
  revert this
  decide +kernel

example : ¬ Writable { Ex.cfg with ncutoutMax := some 2 } Ex.objs Ex.images (some Ex.psfs) := by
  intro v
  have := v.room (Ex.obj 11 2 (9/2) 2) (by decide +kernel) rfl
  revert this
  decide +kernel

end Meds
