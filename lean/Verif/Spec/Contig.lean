import Verif.Spec.Stored

/-! Specification of files in which the pixels of each single object lie together (in whatever order the objects come). -/

namespace Meds.Spec

/-- Number of PSF pixels of the first `k` epochs. -/
def psfSum (ss : List Slot) (k : Nat) : Int := ((ss.take k).map (fun s => s.psfRowSize * s.psfColSize)).sum

/-- The cutouts of every object lie one behind the other, inside every cutout extension that the number extractor reads. -/
structure CutoutsTogether (f : Fits) (rows : List ObjRow) : Prop where
  fit : EpochsFit rows
  contig : ∀ o ∈ rows, ObjContig o
  start_nonneg : ∀ i k o s, Epoch rows i k o s → 0 ≤ s.startRow
  inside : ∀ n ∈ ["image_cutouts", "weight_cutouts", "seg_cutouts", "bmask_cutouts"], ∀ pix, f.find n = some (.image pix) →
    ∀ i k o s, Epoch rows i k o s → s.startRow + o.boxSize ^ 2 ≤ pix.length

/-- The PSFs of every object lie one behind the other, inside the PSF extension, and their sizes are given per epoch as rows and columns. -/
structure PsfTogether (f : Fits) (t : ObjTable) : Prop where
  oneWay : t.dtype.psfBox = .absent
  contig : ∀ o ∈ t.rows, ∀ (k : Nat) (s s0 : Slot), (k : Int) < o.ncutout → o.slots[k]? = some s → o.slots[0]? = some s0 →
    s.psfStartRow = s0.psfStartRow + psfSum o.slots k
  start_nonneg : ∀ i k o s, Epoch t.rows i k o s → 0 ≤ s.psfStartRow
  size_nonneg : ∀ i k o s, Epoch t.rows i k o s → 0 ≤ s.psfRowSize * s.psfColSize
  inside : ∀ pix, f.find "psf" = some (.image pix) → ∀ i k o s, Epoch t.rows i k o s → s.psfStartRow + s.psfRowSize * s.psfColSize ≤ pix.length

end Meds.Spec
