import Verif.Model.Fits

/-!
# The Python reader, class `MEDS` (/repo/meds/meds.py)
-/

namespace Meds

/-- An open MEDS file: the FITS file plus the three tables read in the constructor (/repo/meds/meds.py:179-186). -/
structure MEDS where
  fits : Fits
  cat : ObjTable
  info : List InfoRow
  metaData : String
  deriving DecidableEq, Repr

namespace MEDS

/-- `MEDS(filename)` (/repo/meds/meds.py:179-186): reads `object_data`, `image_info`, `metadata`; a missing extension is an IOError. -/
def openFile (f : Fits) : Res MEDS :=
  match f.find "object_data" with
  | some (.objects t) =>
    match f.find "image_info" with
    | some (.info i) =>
      match f.find "metadata" with
      | some (.metadata m) => .ok { fits := f, cat := t, info := i, metaData := m }
      | _ => .error .osError
    | _ => .error .osError
  | _ => .error .osError

/-- `m.size` (/repo/meds/meds.py:1066-1068). -/
def size (m : MEDS) : Nat := m.cat.rows.length

/-- `self._cat[...][iobj]`: numpy row lookup. -/
def row (m : MEDS) (iobj : Int) : Res ObjRow := pyGet m.cat.rows iobj

/-- `self._cat[...][iobj, icutout]`: numpy lookup in a per-epoch column. -/
def slot (m : MEDS) (iobj icutout : Int) : Res Slot := do
  let o ← m.row iobj
  pyGet o.slots icutout

/-- `_check_indices` (/repo/meds/meds.py:1039-1052).  Only upper limits are tested; `ncutout[iobj]` is a numpy lookup, so a negative `iobj`
wraps around or raises IndexError. -/
def checkIndices (m : MEDS) (iobj : Int) (icutout : Option Int) : Res Unit :=
  if (m.size : Int) ≤ iobj then .error .valueError
  else do
    let o ← m.row iobj
    if o.ncutout = 0 then .error .valueError
    else
      match icutout with
      | none => .ok ()
      | some k => if o.ncutout ≤ k then .error .valueError else .ok ()

/-- `_get_extension_name` (/repo/meds/meds.py:1033-1037). -/
def extensionName (m : MEDS) (type : String) : Res String :=
  let ext := type ++ "_cutouts"
  if m.fits.has ext then .ok ext else .error .valueError

/-- `has_psf` (/repo/meds/meds.py:284-288). -/
def hasPsf (m : MEDS) : Bool := m.fits.has "psf"

/-- `_get_psf_shape` (/repo/meds/meds.py:321-342). A missing `psf_box_size` column is numpy's ValueError for an unknown field. -/
def psfShape (m : MEDS) (iobj icutout : Int) : Res (Int × Int) :=
  match m.cat.dtype.psfRowCol with
  | .perEpoch => do
    let s ← m.slot iobj icutout
    .ok (s.psfRowSize, s.psfColSize)
  | .perObj => do
    let o ← m.row iobj
    .ok (o.psfRowSize1, o.psfColSize1)
  | .absent =>
    match m.cat.dtype.psfBox with
    | .perEpoch => do
      let s ← m.slot iobj icutout
      .ok (s.psfBoxSize, s.psfBoxSize)
    | .perObj => do
      let o ← m.row iobj
      .ok (o.psfBoxSize1, o.psfBoxSize1)
    | .absent => .error .valueError

/-- `get_psf` (/repo/meds/meds.py:290-319). -/
def getPsf (m : MEDS) (iobj icutout : Int) : Res (Img ℚ) :=
  if m.hasPsf then do
    m.checkIndices iobj (some icutout)
    let shape ← m.psfShape iobj icutout
    let npix := shape.1 * shape.2
    let s ← m.slot iobj icutout
    let imflat ← m.fits.imageSlice "psf" s.psfStartRow (s.psfStartRow + npix)
    reshape imflat shape.1 shape.2
  else .error .valueError

/-- `get_psf_list` (/repo/meds/meds.py:344-358); no index check of its own. -/
def getPsfList (m : MEDS) (iobj : Int) : Res (List (Img ℚ)) := do
  let o ← m.row iobj
  mapRes (fun k : Nat => m.getPsf iobj k) (List.range o.ncutout.toNat)

/-- `get_cutout` (/repo/meds/meds.py:191-223). -/
def getCutout (m : MEDS) (iobj icutout : Int) (type : String) : Res (Img ℚ) :=
  if type = "psf" then m.getPsf iobj icutout
  else do
    m.checkIndices iobj (some icutout)
    let o ← m.row iobj
    let s ← m.slot iobj icutout
    let extname ← m.extensionName type
    let imflat ← m.fits.imageSlice extname s.startRow (s.startRow + o.boxSize * o.boxSize)
    reshape imflat o.boxSize o.boxSize

/-- `get_mosaic` (/repo/meds/meds.py:225-255). -/
def getMosaic (m : MEDS) (iobj : Int) (type : String) : Res (Img ℚ) := do
  m.checkIndices iobj none
  let o ← m.row iobj
  let s ← m.slot iobj 0
  let extname ← m.extensionName type
  let mflat ← m.fits.imageSlice extname s.startRow (s.startRow + o.boxSize * o.boxSize * o.ncutout)
  reshape mflat (o.ncutout * o.boxSize) o.boxSize

end MEDS

/-- `mosaic[r1:r2, :]` for `r1 ≤ r2`: rows `r1 .. r2` (numpy clips the end to the array). -/
def Img.rowSlice {α : Type} (im : Img α) (r1 r2 : Nat) : Img α :=
  { nr := min r2 im.nr - r1, nc := im.nc,
    flat := (im.flat.take (min r2 im.nr * im.nc)).drop (r1 * im.nc) }

/-- `split_mosaic` (/repo/meds/meds.py:1071-1095).  A width of zero divides by zero in Python. Simplification: the views into the
mosaic are modelled as values; code that writes through the views is modelled by rebuilding the mosaic (Model/Memory.lean has the views, and C117 shows that this
makes no difference). -/
def splitMosaic {α : Type} (mosaic : Img α) : Res (List (Img α)) :=
  let box := mosaic.nc
  if box = 0 then .error .zeroDivision
  else
    let ncutout := mosaic.nr / box
    .ok ((List.range ncutout).map (fun i => mosaic.rowSlice (i * box) ((i + 1) * box)))

namespace MEDS

/-- `get_cutout_list` (/repo/meds/meds.py:257-282). -/
def getCutoutList (m : MEDS) (iobj : Int) (type : String) : Res (List (Img ℚ)) :=
  if type = "psf" then m.getPsfList iobj
  else do
    let mosaic ← m.getMosaic iobj type
    splitMosaic mosaic

/-- `get_source_info` (/repo/meds/meds.py:786-803). -/
def getSourceInfo (m : MEDS) (iobj icutout : Int) : Res InfoRow := do
  m.checkIndices iobj (some icutout)
  let s ← m.slot iobj icutout
  pyGet m.info s.fileId

/-- `get_source_path` (/repo/meds/meds.py:805-822). -/
def getSourcePath (m : MEDS) (iobj icutout : Int) : Res String := do
  let i ← m.getSourceInfo iobj icutout
  .ok i.imagePath

/-- `get_cutout_rowcol` (/repo/meds/meds.py:942-961). -/
def getCutoutRowcol (m : MEDS) (iobj icutout : Int) : Res (ℚ × ℚ) := do
  let s ← m.slot iobj icutout
  .ok (s.cutoutRow, s.cutoutCol)

/-- The dictionary returned by `get_jacobian`. -/
structure Jac where
  row0 : ℚ
  col0 : ℚ
  dudrow : ℚ
  dudcol : ℚ
  dvdrow : ℚ
  dvdcol : ℚ
  deriving DecidableEq, Repr

/-- `get_jacobian` (/repo/meds/meds.py:839-874). -/
def getJacobian (m : MEDS) (iobj icutout : Int) : Res Jac := do
  m.checkIndices iobj (some icutout)
  let rc ← m.getCutoutRowcol iobj icutout
  let s ← m.slot iobj icutout
  .ok { row0 := rc.1, col0 := rc.2, dudrow := s.dudrow, dudcol := s.dudcol,
        dvdrow := s.dvdrow, dvdcol := s.dvdcol }

/-- A 2x2 matrix `[[a, b], [c, d]]`. -/
structure Mat2 where
  a : ℚ
  b : ℚ
  c : ℚ
  d : ℚ
  deriving DecidableEq, Repr

/-- `get_jacobian_matrix` (/repo/meds/meds.py:876-900); no index check. -/
def getJacobianMatrix (m : MEDS) (iobj icutout : Int) : Res Mat2 := do
  let s ← m.slot iobj icutout
  .ok { a := s.dudrow, b := s.dudcol, c := s.dvdrow, d := s.dvdcol }

/-- `get_jacobian_list` (/repo/meds/meds.py:902-922). -/
def getJacobianList (m : MEDS) (iobj : Int) : Res (List Jac) := do
  m.checkIndices iobj none
  let o ← m.row iobj
  mapRes (fun k : Nat => m.getJacobian iobj k) (List.range o.ncutout.toNat)

/-- `get_number` (/repo/meds/meds.py:924-940). -/
def getNumber (m : MEDS) (iobj : Int) : Res Int :=
  if m.cat.dtype.hasNumber then do
    let o ← m.row iobj
    .ok o.number
  else .ok (iobj + 1)

end MEDS

end Meds
