import Verif.Model.Maker

/-! Specification of which images cover an object, and where; written out as inequalities, independent of the maker's loop. -/

namespace Meds.Spec

/-- Zero-offset row of the object in the image: the WCS row minus the image's `position_offset`. -/
def rowIn (im : SrcImage) (sky : SkyPos) : ℚ := (im.wcs.sky2image sky).2 - im.info.positionOffset

/-- Zero-offset column of the object in the image. -/
def colIn (im : SrcImage) (sky : SkyPos) : ℚ := (im.wcs.sky2image sky).1 - im.info.positionOffset

/-- The buffer around image number `i`: only the coadd (image 0 when so flagged) has one. -/
def border (cfg : MakerCfg) (i : Nat) : ℚ := if i = 0 ∧ cfg.firstImageIsCoadd = true then cfg.coaddBuffer else 0

/-- Image number `i` accepts an object: it passes the rough sky cut and its position lies in the closed rectangle from the first to the last pixel
(in zero-offset coordinates), enlarged by the border. -/
def Covers (cfg : MakerCfg) (i : Nat) (im : SrcImage) (sky : SkyPos) : Prop :=
  im.wcs.rough sky = true ∧
  1 - im.info.positionOffset - border cfg i ≤ rowIn im sky ∧
  rowIn im sky ≤ im.wcs.nrow - im.info.positionOffset + border cfg i ∧
  1 - im.info.positionOffset - border cfg i ≤ colIn im sky ∧
  colIn im sky ≤ im.wcs.ncol - im.info.positionOffset + border cfg i

instance (cfg : MakerCfg) (i : Nat) (im : SrcImage) (sky : SkyPos) : Decidable (Covers cfg i im sky) := by
  unfold Covers; infer_instance

/-- The numbers of the images that cover a sky position, in increasing order. -/
def coveringImages (cfg : MakerCfg) (images : List SrcImage) (sky : SkyPos) : List Nat :=
  (List.range images.length).filter
    (fun i => match images[i]? with | some im => decide (Covers cfg i im sky) | none => false)

/-- Valid (object, epoch) index pairs of a catalogue: epoch `k` of row `i` with its slot. -/
def Epoch (rows : List ObjRow) (i k : Nat) (o : ObjRow) (s : Slot) : Prop :=
  rows[i]? = some o ∧ (k : Int) < o.ncutout ∧ o.slots[k]? = some s

end Meds.Spec
