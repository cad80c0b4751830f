import Verif.Model.PixelNaN
import Verif.Spec.Layout

/-! Which pixel of an image a pixel of a cutout shows, and what belongs to it. -/

namespace Meds.Spec
open Compare

/-- Pixel `(a, b)` of the cutout shows pixel `(r, c)` of the image. -/
def ShowsPixel (s : Slot) (a b r c : Nat) : Prop := s.origStartRow + a = r ∧ s.origStartCol + b = c

/-- `u` is the background at pixel `(r, c)`: zero without a background; an axis of length one of the background counts for all rows or columns. -/
def Background (bkg : Option (Img Flt)) (r c : Nat) (u : Flt) : Prop :=
  match bkg with
  | none => u = .num 0
  | some b => b.get? (if b.nr = 1 then 0 else r) (if b.nc = 1 then 0 else c) = some u

/-- Pixel `(r, c)` has one of the bits that make it unusable in the mask of the image. -/
def MaskedOut (cfg : MakerCfg) (im : SrcImage) (r c : Nat) : Prop :=
  ∃ flags bm v, cfg.unusableBmask = some flags ∧ im.plane "bmask" = some (some bm) ∧ bm.get? r c = some v ∧ Int.land ⌊v⌋ flags ≠ 0

/-- The planes are arrays. -/
def PlanesWF (fl : Nat → FltPlanes) : Prop := ∀ j t x, fl j t = some (some x) → x.WF

/-- The planes are arrays of the same shapes and have the same pixels, except that those of image `j` may differ at `(r, c)`; the backgrounds are the same. -/
def SameBut (j r c : Nat) (fl fl' : Nat → FltPlanes) : Prop :=
  (∀ j', fl j' "bkg" = fl' j' "bkg") ∧
  ∀ j' t, match fl j' t, fl' j' t with
    | none, none => True
    | some none, some none => True
    | some (some x), some (some y) => x.nr = y.nr ∧ x.nc = y.nc ∧ ∀ r' c', ¬ (j' = j ∧ r' = r ∧ c' = c) → x.get? r' c' = y.get? r' c'
    | _, _ => False

end Meds.Spec
