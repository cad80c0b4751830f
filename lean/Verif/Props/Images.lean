import Verif.Props.Independent

/-!
# An epoch depends on the object and its own image only (C94)
-/

namespace Meds

namespace Spec

/-- Epoch `k` of object `i` of `m` and epoch `k'` of object `i'` of `m'` are the same to a reader: every call that names an object and an epoch gives the same
result. -/
structure SameEpoch (types : List String) (m : MEDS) (i k : Nat) (m' : MEDS) (i' k' : Nat) : Prop where
  cutout : ∀ t ∈ types, m.getCutout i k t = m'.getCutout i' k' t
  source : m.getSourceInfo i k = m'.getSourceInfo i' k'
  path : m.getSourcePath i k = m'.getSourcePath i' k'
  jacobian : m.getJacobian i k = m'.getJacobian i' k'
  matrix : m.getJacobianMatrix i k = m'.getJacobianMatrix i' k'
  rowcol : m.getCutoutRowcol i k = m'.getCutoutRowcol i' k'

/-- Some epoch of object `i` of `m` comes from image number `j`. -/
def HasEpochFrom (m : MEDS) (i j : Nat) : Prop := ∃ k o s, Epoch m.cat.rows i k o s ∧ s.fileId = (j : Int)

/-- Both image numbers are treated alike by the maker: the first image is the coadd if the settings say so. -/
def SameRole (cfg : MakerCfg) (j j' : Nat) : Prop := cfg.firstImageIsCoadd = true → (j = 0 ↔ j' = 0)

end Spec

open Spec Maker

section
variable {cfg : MakerCfg} {images images' : List SrcImage} {psf psf' : Option (List PsfModel)}
  {hn hn' : Bool} {objs objs' : List InputObj} {psfInfo psfInfo' : Option String} {md md' : String}
  {mk₁ mk₁' mk₂ mk₂' : Maker} {f₁ f₂ : Fits} {m₁ m₂ : MEDS}

theorem covers_role {j j' : Nat} (h : SameRole cfg j j') (im : SrcImage) (sky : SkyPos) : Covers cfg j im sky ↔ Covers cfg j' im sky := by
  have hb : border cfg j = border cfg j' := by
    unfold border
    by_cases hc : cfg.firstImageIsCoadd = true
    · simp only [hc, and_true, h hc]
    · rw [if_neg (fun x => hc x.2), if_neg (fun x => hc x.2)]
  unfold Covers
  rw [hb]

theorem hasEpochFrom_iff (hi : Maker.init cfg hn objs images psf psfInfo md = .ok mk₁) (hw : mk₁.write = .ok (mk₁', f₁)) (ho : MEDS.openFile f₁ = .ok m₁)
    {i j : Nat} {o : ObjRow} {im : SrcImage} (hr : m₁.cat.rows[i]? = some o) (hj : images[j]? = some im) : HasEpochFrom m₁ i j ↔ Covers cfg j im o.sky := by
  obtain ⟨n, c, _, d⟩ := C04_epochs_are_covering_images hi hw ho hr
  rw [← d j im hj]
  constructor
  · rintro ⟨k, x, s, ⟨hx, hk, hs⟩, hf⟩
    rw [hr] at hx; injection hx with hx; subst hx
    obtain ⟨s', a, hs', ha, hf'⟩ := c k hk
    rw [hs] at hs'; injection hs' with hs'; subst hs'
    have : a = j := by rw [hf] at hf'; omega
    subst this
    exact List.mem_of_getElem? ha
  · intro hm
    obtain ⟨k, hk⟩ := List.mem_iff_getElem?.mp hm
    have hlt : (k : Int) < o.ncutout := by
      have := (List.getElem?_eq_some_iff.mp hk).1
      rw [n]; exact_mod_cast this
    obtain ⟨s, a, hs, ha, hf⟩ := c k hlt
    rw [hk] at ha; injection ha with ha; subst ha
    exact ⟨k, o, s, ⟨hr, hlt, hs⟩, hf⟩

/-- **C94** Two files made with the same settings, from any two catalogues and any two lists of images.  Let an image be number `j` of one list and number `j'`
of the other, and the coadd of both or of none.  An object of both files (same position and colour) has an epoch from that image in the one exactly if
it has one in the other. -/
theorem C94_same_images_cover (hi₁ : Maker.init cfg hn objs images psf psfInfo md = .ok mk₁) (hw₁ : mk₁.write = .ok (mk₁', f₁)) (ho₁ : MEDS.openFile f₁ = .ok m₁)
    (hi₂ : Maker.init cfg hn' objs' images' psf' psfInfo' md' = .ok mk₂) (hw₂ : mk₂.write = .ok (mk₂', f₂)) (ho₂ : MEDS.openFile f₂ = .ok m₂)
    {i i' : Nat} {o o' : ObjRow} (hr : m₁.cat.rows[i]? = some o) (hr' : m₂.cat.rows[i']? = some o') (hsky : o.sky = o'.sky)
    {j j' : Nat} {im : SrcImage} (hj : images[j]? = some im) (hj' : images'[j']? = some im) (hrole : SameRole cfg j j') :
    HasEpochFrom m₁ i j ↔ HasEpochFrom m₂ i' j' := by
  rw [hasEpochFrom_iff hi₁ hw₁ ho₁ hr hj, hasEpochFrom_iff hi₂ hw₂ ho₂ hr' hj', ← hsky]
  exact covers_role hrole im o.sky

theorem same_slot_image (hi₁ : Maker.init cfg hn objs images psf psfInfo md = .ok mk₁) (hw₁ : mk₁.write = .ok (mk₁', f₁)) (ho₁ : MEDS.openFile f₁ = .ok m₁)
    (hi₂ : Maker.init cfg hn' objs' images' psf' psfInfo' md' = .ok mk₂) (hw₂ : mk₂.write = .ok (mk₂', f₂)) (ho₂ : MEDS.openFile f₂ = .ok m₂)
    {i i' k k' : Nat} {o o' : ObjRow} {s s' : Slot} (e1 : Epoch m₁.cat.rows i k o s) (e2 : Epoch m₂.cat.rows i' k' o' s') (hsky : o.sky = o'.sky)
    (hbox : o.boxSize = o'.boxSize) {j j' : Nat} {im : SrcImage} (hj : images[j]? = some im) (hj' : images'[j']? = some im)
    (hf : s.fileId = (j : Int)) (hf' : s'.fileId = (j' : Int)) :
    s.origRow = s'.origRow ∧ s.origCol = s'.origCol ∧ s.origStartRow = s'.origStartRow ∧ s.origStartCol = s'.origStartCol ∧
      s.cutoutRow = s'.cutoutRow ∧ s.cutoutCol = s'.cutoutCol ∧ s.dudrow = s'.dudrow ∧ s.dudcol = s'.dudcol ∧ s.dvdrow = s'.dvdrow ∧ s.dvdcol = s'.dvdcol := by
  obtain ⟨b, im1, p1, p2, _, p3, p4, p5, p6, p7, p8, p9⟩ := C06_positions_recorded hi₁ hw₁ ho₁ e1
  obtain ⟨b', im2, q1, q2, _, q3, q4, q5, q6, q7, q8, q9⟩ := C06_positions_recorded hi₂ hw₂ ho₂ e2
  have h1 : b = j := by rw [hf] at p1; omega
  have h2 : b' = j' := by rw [hf'] at q1; omega
  subst h1; subst h2
  rw [hj] at p2; injection p2 with p2; subst p2
  rw [hj'] at q2; injection q2 with q2; subst q2
  rw [← hsky] at q3 q4 q5 q6 q9
  rw [← hbox] at q5 q6
  rw [← q9] at p9
  simp only [Prod.mk.injEq] at p9
  refine ⟨by rw [p3, q3], by rw [p4, q4], by rw [p5, q5], by rw [p6, q6], ?_, ?_, p9.2.1, p9.1, p9.2.2.2, p9.2.2.1⟩
  · rw [p7, q7, p3, q3, p5, q5]
  · rw [p8, q8, p4, q4, p6, q6]

/-- **C94** … and the two epochs are the same to a reader: the cutouts of every stored type, the record of the source image, the position in the cutout and the
derivatives of the WCS, wherever in the lists the image and the object are. -/
theorem C94_same_epoch (hi₁ : Maker.init cfg hn objs images psf psfInfo md = .ok mk₁) (hw₁ : mk₁.write = .ok (mk₁', f₁)) (ho₁ : MEDS.openFile f₁ = .ok m₁)
    (hi₂ : Maker.init cfg hn' objs' images' psf' psfInfo' md' = .ok mk₂) (hw₂ : mk₂.write = .ok (mk₂', f₂)) (ho₂ : MEDS.openFile f₂ = .ok m₂)
    {i i' k k' : Nat} {o o' : ObjRow} {s s' : Slot} (e1 : Epoch m₁.cat.rows i k o s) (e2 : Epoch m₂.cat.rows i' k' o' s') (hsky : o.sky = o'.sky)
    (hbox : o.boxSize = o'.boxSize) (hpos : 0 < o.boxSize) {j j' : Nat} {im : SrcImage} (hj : images[j]? = some im) (hj' : images'[j']? = some im)
    (hf : s.fileId = (j : Int)) (hf' : s'.fileId = (j' : Int)) :
    SameEpoch ("image" :: cfg.cutoutTypes) m₁ i k m₂ i' k' := by
  obtain ⟨_, _, hsr, hsc, h1, h2, h3, h4, h5, h6⟩ := same_slot_image hi₁ hw₁ ho₁ hi₂ hw₂ ho₂ e1 e2 hsky hbox hj hj' hf hf'
  have row1 : m₁.row (i : Int) = .ok o := pyGet_nat_some e1.1
  have row2 : m₂.row (i' : Int) = .ok o' := pyGet_nat_some e2.1
  have sl1 : m₁.slot (i : Int) (k : Int) = .ok s := by unfold MEDS.slot; rw [row1]; exact pyGet_nat_some e1.2.2
  have sl2 : m₂.slot (i' : Int) (k' : Int) = .ok s' := by unfold MEDS.slot; rw [row2]; exact pyGet_nat_some e2.2.2
  have chk1 : m₁.checkIndices i (some k) = .ok () := by
    unfold MEDS.checkIndices MEDS.size
    rw [if_neg (by have := (List.getElem?_eq_some_iff.mp e1.1).1; omega), row1]
    simp only [Res.ok_bind]
    rw [if_neg (by have := e1.2.1; omega)]
    exact if_neg (by have := e1.2.1; omega)
  have chk2 : m₂.checkIndices i' (some k') = .ok () := by
    unfold MEDS.checkIndices MEDS.size
    rw [if_neg (by have := (List.getElem?_eq_some_iff.mp e2.1).1; omega), row2]
    simp only [Res.ok_bind]
    rw [if_neg (by have := e2.2.1; omega)]
    exact if_neg (by have := e2.2.1; omega)
  have hrc : m₁.getCutoutRowcol i k = m₂.getCutoutRowcol i' k' := by
    unfold MEDS.getCutoutRowcol
    rw [sl1, sl2]
    simp only [Res.ok_bind]
    rw [h1, h2]
  have hsrc : m₁.getSourceInfo i k = m₂.getSourceInfo i' k' := by
    unfold MEDS.getSourceInfo
    rw [chk1, chk2, sl1, sl2]
    simp only [Res.ok_bind]
    rw [hf, hf']
    have hinf1 : m₁.info[j]? = some im.info := by
      obtain ⟨in0, w, W, rfl, _⟩ := opened_eq hi₁ hw₁ ho₁
      show (mk₁'.images.map (·.info))[j]? = some im.info
      rw [W.images_eq, List.getElem?_map, hj]; rfl
    have hinf2 : m₂.info[j']? = some im.info := by
      obtain ⟨in0, w, W, rfl, _⟩ := opened_eq hi₂ hw₂ ho₂
      show (mk₂'.images.map (·.info))[j']? = some im.info
      rw [W.images_eq, List.getElem?_map, hj']; rfl
    rw [pyGet_nat_some hinf1, pyGet_nat_some hinf2]
  refine ⟨?_, hsrc, ?_, ?_, ?_, hrc⟩
  · intro t ht
    have ht := List.mem_cons.mp ht
    rw [written_cutout hi₁ hw₁ ho₁ ht e1 hpos, written_cutout hi₂ hw₂ ho₂ ht e2 (by omega), ← hbox]
    have : content cfg images t o s = content cfg images' t o' s' := by
      unfold content subImage
      rw [hf, hf', Int.toNat_natCast, Int.toNat_natCast, hj, hj', hsr, hsc, hbox]
    rw [this]
  · unfold MEDS.getSourcePath; rw [hsrc]
  · unfold MEDS.getJacobian
    rw [chk1, chk2, hrc, sl1, sl2]
    simp only [Res.ok_bind]
    rw [h3, h4, h5, h6]
  · unfold MEDS.getJacobianMatrix
    rw [sl1, sl2]
    simp only [Res.ok_bind]
    rw [h3, h4, h5, h6]

/-- **C94** (PSF) … and, if both files have the same PSF model for that image, the same PSF image and PSF centre. -/
theorem C94_same_psf (hi₁ : Maker.init cfg hn objs images psf psfInfo md = .ok mk₁) (hw₁ : mk₁.write = .ok (mk₁', f₁)) (ho₁ : MEDS.openFile f₁ = .ok m₁)
    (hi₂ : Maker.init cfg hn' objs' images' psf' psfInfo' md' = .ok mk₂) (hw₂ : mk₂.write = .ok (mk₂', f₂)) (ho₂ : MEDS.openFile f₂ = .ok m₂)
    {ps ps' : List PsfModel} (hps : psf = some ps) (hps' : psf' = some ps') (hwf : ∀ p ∈ ps, ∀ sky r c, (p.getRec sky r c).WF)
    (hwf' : ∀ p ∈ ps', ∀ sky r c, (p.getRec sky r c).WF)
    {i i' k k' : Nat} {o o' : ObjRow} {s s' : Slot} (e1 : Epoch m₁.cat.rows i k o s) (e2 : Epoch m₂.cat.rows i' k' o' s') (hsky : o.sky = o'.sky)
    {j j' : Nat} {im : SrcImage} {p : PsfModel} (hj : images[j]? = some im) (hj' : images'[j']? = some im)
    (hp : ps[j]? = some p) (hp' : ps'[j']? = some p) (hne : ∀ sky r c, 0 < (p.getRec sky r c).nr ∧ 0 < (p.getRec sky r c).nc)
    (hf : s.fileId = (j : Int)) (hf' : s'.fileId = (j' : Int)) :
    m₁.getPsf i k = m₂.getPsf i' k' ∧ s.psfCutoutRow = s'.psfCutoutRow ∧ s.psfCutoutCol = s'.psfCutoutCol := by
  obtain ⟨b, im1, p1, a1, a2, a3, a4, a5, a7, a6⟩ := C11_psf_read_back hi₁ hw₁ ho₁ hps hwf e1
  obtain ⟨b', im2, p2, b1, b2, b3, b4, b5, b7, b6⟩ := C11_psf_read_back hi₂ hw₂ ho₂ hps' hwf' e2
  have h1 : b = j := by rw [hf] at a1; omega
  have h2 : b' = j' := by rw [hf'] at b1; omega
  subst h1; subst h2
  rw [hj] at a2; injection a2 with a2; subst a2
  rw [hj'] at b2; injection b2 with b2; subst b2
  rw [hp] at a3; injection a3 with a3; subst a3
  rw [hp'] at b3; injection b3 with b3; subst b3
  rw [← hsky] at b4 b5 b6 b7
  obtain ⟨c1, c2⟩ := hne o.sky (rowIn im o.sky) (colIn im o.sky)
  have hpos : 0 < s.psfRowSize * s.psfColSize := by rw [← a4, ← a5]; exact Int.mul_pos (by omega) (by omega)
  have hpos' : 0 < s'.psfRowSize * s'.psfColSize := by rw [← b4, ← b5]; exact Int.mul_pos (by omega) (by omega)
  rw [← b7] at a7
  simp only [Prod.mk.injEq] at a7
  exact ⟨by rw [a6 hpos, b6 hpos'], a7.1, a7.2⟩

theorem coveringImages_append (cfg : MakerCfg) (images extra : List SrcImage) (sky : SkyPos) :
    ∃ l, coveringImages cfg (images ++ extra) sky = coveringImages cfg images sky ++ l ∧ ∀ a ∈ l, images.length ≤ a := by
  unfold coveringImages
  rw [List.length_append, List.range_add, List.filter_append]
  refine ⟨_, congrArg (· ++ _) ?_, ?_⟩
  · apply List.filter_congr
    intro x hx
    rw [List.getElem?_append_left (List.mem_range.mp hx)]
  · intro a ha
    obtain ⟨b, _, rfl⟩ := List.mem_map.mp (List.mem_filter.mp ha).1
    omega

/-- **C94** (more images) If the second list of images is the first with further images at its end, an object of both files has its old epochs under their old
numbers in the second file, and any further ones come after them, from the further images. -/
theorem C94_images_added (hi₁ : Maker.init cfg hn objs images psf psfInfo md = .ok mk₁) (hw₁ : mk₁.write = .ok (mk₁', f₁)) (ho₁ : MEDS.openFile f₁ = .ok m₁)
    {extra : List SrcImage} (hi₂ : Maker.init cfg hn' objs' (images ++ extra) psf' psfInfo' md' = .ok mk₂) (hw₂ : mk₂.write = .ok (mk₂', f₂))
    (ho₂ : MEDS.openFile f₂ = .ok m₂) {i i' : Nat} {o o' : ObjRow} (hr : m₁.cat.rows[i]? = some o) (hr' : m₂.cat.rows[i']? = some o') (hsky : o.sky = o'.sky)
    (hbox : o.boxSize = o'.boxSize) (hpos : 0 < o.boxSize) :
    o.ncutout ≤ o'.ncutout ∧ (∀ k : Nat, (k : Int) < o.ncutout → SameEpoch ("image" :: cfg.cutoutTypes) m₁ i k m₂ i' k) ∧
      ∀ k s, Epoch m₂.cat.rows i' k o' s → o.ncutout ≤ (k : Int) → (images.length : Int) ≤ s.fileId := by
  obtain ⟨n1, c1, _, _⟩ := C04_epochs_are_covering_images hi₁ hw₁ ho₁ hr
  obtain ⟨n2, c2, _, _⟩ := C04_epochs_are_covering_images hi₂ hw₂ ho₂ hr'
  obtain ⟨l, hl, hge⟩ := coveringImages_append cfg images extra o.sky
  rw [← hsky, hl] at n2 c2
  rw [List.length_append] at n2
  refine ⟨by omega, ?_, ?_⟩
  · intro k hk
    obtain ⟨s, a, hs, ha, hf⟩ := c1 k hk
    obtain ⟨s', a', hs', ha', hf'⟩ := c2 k (by omega)
    rw [List.getElem?_append_left (by omega), ha] at ha'
    injection ha' with ha'
    subst ha'
    have hm := List.mem_of_getElem? ha
    unfold coveringImages at hm
    have hlt := List.mem_range.mp (List.mem_filter.mp hm).1
    obtain ⟨im, him⟩ : ∃ im, images[a]? = some im := ⟨_, List.getElem?_eq_getElem hlt⟩
    exact C94_same_epoch hi₁ hw₁ ho₁ hi₂ hw₂ ho₂ ⟨hr, hk, hs⟩ ⟨hr', by omega, hs'⟩ hsky hbox hpos him
      (by rw [List.getElem?_append_left hlt]; exact him) hf hf'
  · rintro k s ⟨_, hk, hs⟩ hge'
    obtain ⟨s', a, hs', ha, hf⟩ := c2 k hk
    rw [hs] at hs'; injection hs' with hs'; subst hs'
    rw [List.getElem?_append_right (by omega)] at ha
    have := hge a (List.mem_of_getElem? ha)
    omega

end

/-- Two of the example's images in another order behind the coadd, another image in front of them, and another object in front of the catalogue: the object's
third epoch is the second one of the other file. -/
def Ex.swapped (P : MEDS → MEDS → Bool) : Bool :=
  match Ex.run Ex.cfg Ex.objs Ex.images none, Ex.run Ex.cfg (Ex.obj 9 3 1 1 :: Ex.objs) [Ex.src 5 0 100 1, Ex.src 3 2 300 1, Ex.src 4 (1/3) 700 2, Ex.src 4 (1/2) 200 2] none with
  | .ok (_, f), .ok (_, f') =>
    match MEDS.openFile f, MEDS.openFile f' with
    | .ok m, .ok m' => P m m'
    | _, _ => false
  | _, _ => false

example : Ex.swapped (fun m m' =>
    decide (m.cat.rows.map (fun o => o.slots.map (·.fileId)) = [[0, 1, -9999], [0, 1, 2]]) &&
    decide (m'.cat.rows.map (fun o => o.slots.map (·.fileId)) = [[0, -9999, -9999], [0, 2, 3], [0, 1, 3]])) = true := by decide +kernel

example : Ex.swapped (fun m m' =>
    decide (m.getCutout 1 2 "image" = m'.getCutout 2 1 "image") && decide (m.getCutout 1 1 "image" = m'.getCutout 2 2 "image") &&
    decide (m.getCutout 1 1 "image" ≠ m'.getCutout 2 1 "image") && decide (m.getJacobian 1 1 = m'.getJacobian 2 2)) = true := by decide +kernel

end Meds
