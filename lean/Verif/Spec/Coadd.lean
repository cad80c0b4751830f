import Verif.Model.Coadd

/-!
# What the coadder should do, stated on its own
-/

namespace Meds.Spec

/-- Two arrays of one shape, with all their pixels. -/
def SameShape (a b : Img ℚ) : Prop := a.WF ∧ b.WF ∧ a.nr = b.nr ∧ a.nc = b.nc

/-- Bits of the mask value `v` among `flags`; no flags configured means none. -/
def HasFlag (flags : Option Int) (v : ℚ) : Prop := ∃ f, flags = some f ∧ Int.land ⌊v⌋ f ≠ 0

/-- A pixel that cannot be used: weight not positive, or a bad flag. -/
def BadAt (flags : Option Int) (bm wt : Img ℚ) (i j : Nat) : Prop :=
  ∃ b w, bm.get? i j = some b ∧ wt.get? i j = some w ∧ (w ≤ 0 ∨ HasFlag flags b)

/-- The zero pixels of an image. -/
def ZeroAt (im : Img ℚ) (i j : Nat) : Prop := im.get? i j = some 0

/-- The pixels of a mask that have one of the flags. -/
def FlagAt (flags : Option Int) (im : Img ℚ) (i j : Nat) : Prop := ∃ v, im.get? i j = some v ∧ HasFlag flags v

/-- A set of pixels of an `n` by `n` stamp is unchanged by a rotation of 90 degrees. -/
def RotInvariant (n : Nat) (S : Nat → Nat → Prop) : Prop := ∀ i j, i < n → j < n → (S i j ↔ S j (n - 1 - i))

end Meds.Spec

namespace Meds.Spec
open Coadd

/-- The outcome of coadding object `i` is a stamp. -/
def Coadded (coadder : Nat → Res (Option CoaddObs × Int)) (i : Nat) (obs : CoaddObs) : Prop := ∃ fl, coadder i = .ok (some obs, fl)

/-- The planes of a coadded stamp under the names of the cutout types. -/
def stampPlanes (obs : CoaddObs) : List (String × Img ℚ) :=
  [("image", obs.stamp.image), ("weight", obs.stamp.weight), ("seg", obs.seg), ("bmask", obs.bmask), ("ormask", obs.ormask), ("noise", obs.stamp.noise)]

/-- Pixels taken by object `i`: its stamp when there is a coadd, else nothing. -/
def stampPixels (coadder : Nat → Res (Option CoaddObs × Int)) (box : Nat → Int) (i : Nat) : Int :=
  match coadder i with
  | .ok (some _, _) => box i * box i
  | _ => 0

/-- The same for the PSF images. -/
def psfStampPixels (coadder : Nat → Res (Option CoaddObs × Int)) (i : Nat) : Int :=
  match coadder i with
  | .ok (some obs, _) => (obs.stamp.psf.nr : Int) * obs.stamp.psf.nr
  | _ => 0

/-- Pixels taken by the objects `lo, ..., i - 1`. -/
def before (size : Nat → Int) (lo i : Nat) : Int := ((List.range' lo (i - lo)).map size).sum

/-- A complete square stamp. -/
def Square (b : Nat) (im : Img ℚ) : Prop := im.nr = b ∧ im.nc = b ∧ im.WF

/-- All planes of a coadd have the object's box size, and the PSF image is square and not empty. -/
structure GoodStamp (b : Nat) (obs : CoaddObs) : Prop where
  image : Square b obs.stamp.image
  weight : Square b obs.stamp.weight
  noise : Square b obs.stamp.noise
  seg : Square b obs.seg
  bmask : Square b obs.bmask
  ormask : Square b obs.ormask
  psf : Square obs.stamp.psf.nr obs.stamp.psf
  psfPos : 0 < obs.stamp.psf.nr

end Meds.Spec
