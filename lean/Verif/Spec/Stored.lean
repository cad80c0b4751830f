import Verif.Spec.Layout
import Verif.Spec.Mosaic

/-! Specification of files whose pixels are stored in catalogue order (gaps allowed), for any file, however it was made. -/

namespace Meds.Spec

/-- Pieces `(start, number of pixels)` of the epochs follow the catalogue order: no piece starts before 0, and an epoch ends before any later epoch
(of the same or a later object) begins. -/
structure PiecesInOrder (start npix : ObjRow → Slot → Int) (rows : List ObjRow) : Prop where
  start_nonneg : ∀ i k o s, Epoch rows i k o s → 0 ≤ start o s
  npix_nonneg : ∀ i k o s, Epoch rows i k o s → 0 ≤ npix o s
  order : ∀ i k o s i' k' o' s', Epoch rows i k o s → Epoch rows i' k' o' s' → (i < i' ∨ (i = i' ∧ k < k')) →
    start o s + npix o s ≤ start o' s'

/-- Every row has at least as many slots as epochs. -/
def EpochsFit (rows : List ObjRow) : Prop := ∀ o ∈ rows, 0 ≤ o.ncutout ∧ o.ncutout ≤ o.slots.length

/-- The cutouts of the file are stored in catalogue order, and those of one object one behind the other. -/
structure CutoutsInOrder (rows : List ObjRow) : Prop where
  fit : EpochsFit rows
  pieces : PiecesInOrder (fun _ s => s.startRow) (fun o _ => o.boxSize ^ 2) rows
  contig : ∀ o ∈ rows, ObjContig o

/-- Number of pixels of a PSF image according to the catalogue: rows times columns, or the square of the box size. -/
def psfPixels (d : CatDtype) (o : ObjRow) (s : Slot) : Int :=
  match d.psfRowCol with
  | .perEpoch => s.psfRowSize * s.psfColSize
  | .perObj => o.psfRowSize1 * o.psfColSize1
  | .absent =>
    match d.psfBox with
    | .perEpoch => s.psfBoxSize ^ 2
    | .perObj => o.psfBoxSize1 ^ 2
    | .absent => 0

/-- The PSF images are stored in catalogue order, and the catalogue gives their sizes in only one way. -/
structure PsfInOrder (t : ObjTable) : Prop where
  pieces : PiecesInOrder (fun _ s => s.psfStartRow) (psfPixels t.dtype) t.rows
  oneWay : t.dtype.psfBox = .absent ∨ t.dtype.psfRowCol = .absent

/-- Two rows that agree in everything but the places where their pixels are stored. -/
def SameButStarts (o o' : ObjRow) : Prop :=
  ∃ ss', o' = { o with slots := ss' } ∧
    List.Forall₂ (fun s s' : Slot => s' = { s with startRow := s'.startRow, psfStartRow := s'.psfStartRow }) o.slots ss'

end Meds.Spec
