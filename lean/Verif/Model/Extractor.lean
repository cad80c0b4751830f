import Verif.Model.Reader
import Mathlib.Data.List.Sort

/-!
# The extractors (/repo/meds/extractor.py, /repo/meds/number_extractor.py)

Input and output are whole FITS files here; what happens on disk (clobbering, clean-up, interruption) is in `Model/Disk.lean`.
-/

namespace Meds

/-- `infits["object_data"][:]`; a missing or different extension is fitsio's IOError. -/
def Fits.objects (f : Fits) : Res ObjTable :=
  match f.find "object_data" with
  | some (.objects t) => .ok t
  | _ => .error .osError

/-- `infits["image_info"][:]`. -/
def Fits.imageInfo (f : Fits) : Res (List InfoRow) :=
  match f.find "image_info" with
  | some (.info i) => .ok i
  | _ => .error .osError

/-- `infits["metadata"][:]`. -/
def Fits.metaTable (f : Fits) : Res String :=
  match f.find "metadata" with
  | some (.metadata m) => .ok m
  | _ => .error .osError

namespace Extract

/-- `infits["object_data"][a:b]` (/repo/meds/extractor.py:96): fitsio clips the end to the table.  A negative start, or one past the last row,
is left `unmodelled` (fitsio versions differ). -/
def sliceRows (rows : List ObjRow) (a b : Int) : Res (List ObjRow) :=
  if a < 0 ∨ (rows.length : Int) ≤ a then .error .unmodelled
  else .ok ((rows.take b.toNat).drop a.toNat)

/-- `numpy.where(data["ncutout"] > 0)`, as rows (/repo/meds/extractor.py:178, 262). -/
def withCutouts (rows : List ObjRow) : List ObjRow := rows.filter (fun o => 0 < o.ncutout)

/-- `_get_row_range` (/repo/meds/extractor.py:174-191). -/
def rowRange (rows : List ObjRow) : Res (Int × Int) :=
  match (withCutouts rows).head?, (withCutouts rows).getLast? with
  | some first, some last => do
    let s0 ← pyGet first.slots 0
    let s1 ← pyGet last.slots (last.ncutout - 1)
    .ok (s0.startRow, s1.startRow + last.boxSize ^ 2)
  | _, _ => .ok (-1, -1)

/-- Number of pixels of the last PSF of an object (/repo/meds/extractor.py:273-283).  A one-dimensional `psf_row_size` cannot be indexed with two
indices (IndexError); a missing column is numpy's ValueError. -/
def psfNpix (d : CatDtype) (o : ObjRow) (k : Int) : Res Int :=
  match d.psfBox with
  | .perEpoch => do
    let s ← pyGet o.slots k
    .ok (s.psfBoxSize ^ 2)
  | .perObj => .ok (o.psfBoxSize1 ^ 2)
  | .absent =>
    match d.psfRowCol with
    | .perEpoch => do
      let s ← pyGet o.slots k
      .ok (s.psfRowSize * s.psfColSize)
    | .perObj => .error .indexError
    | .absent => .error .valueError

/-- `get_psf_row_range` (/repo/meds/extractor.py:258-287). -/
def psfRowRange (d : CatDtype) (rows : List ObjRow) : Res (Int × Int) :=
  match (withCutouts rows).head?, (withCutouts rows).getLast? with
  | some first, some last => do
    let s0 ← pyGet first.slots 0
    let n ← psfNpix d last (last.ncutout - 1)
    let s1 ← pyGet last.slots (last.ncutout - 1)
    .ok (s0.psfStartRow, s1.psfStartRow + n)
  | _, _ => .ok (-1, -1)

/-- `obj_data["start_row"] -= cstart` (/repo/meds/extractor.py:98-101): all entries of the column, used or not. -/
def shiftRows (c : Int) (rows : List ObjRow) : List ObjRow :=
  if c ≠ -1 then rows.map (fun o => { o with slots := o.slots.map (fun s => { s with startRow := s.startRow - c }) })
  else rows

/-- `obj_data["psf_start_row"] -= psf_cstart` (/repo/meds/extractor.py:106-108). -/
def shiftPsfRows (c : Int) (rows : List ObjRow) : List ObjRow :=
  if c ≠ -1 then rows.map (fun o => { o with slots := o.slots.map (fun s => { s with psfStartRow := s.psfStartRow - c }) })
  else rows

/-- The cutout extensions that are sliced: three required ones and two optional ones (/repo/meds/extractor.py:127-147). -/
def rangeExts (f : Fits) : List String :=
  ["image_cutouts", "weight_cutouts", "seg_cutouts"] ++ ["bmask_cutouts", "noise_cutouts"].filter f.has

/-- `_write_dummy` (/repo/meds/extractor.py:163-172, /repo/meds/number_extractor.py:228-237). -/
def dummyHdus : List (String × Hdu) :=
  [("image_cutouts", .image [DEFVAL, DEFVAL]), ("weight_cutouts", .image [0, 0]),
   ("seg_cutouts", .image [DEFVAL, DEFVAL]), ("bmask_cutouts", .image [DEFVAL, DEFVAL])]

/-- `default_ext` (/repo/meds/extractor.py:58-68): note "noise", not "noise_cutouts". -/
def defaultExt : List String :=
  ["object_data", "image_info", "metadata", "image_cutouts", "weight_cutouts", "seg_cutouts", "bmask_cutouts", "psf", "noise"]

/-- The PSF range of the chosen rows, when there is a PSF extension (/repo/meds/extractor.py:103-108). -/
def psfRange (f : Fits) (d : CatDtype) (rows : List ObjRow) : Res (Option (Int × Int)) :=
  if f.has "psf" then do
    let r ← psfRowRange d rows
    .ok (some r)
  else .ok none

/-- Slice of the PSF extension (/repo/meds/extractor.py:149-152). -/
def psfHdu (f : Fits) : Option (Int × Int) → Res (List (String × Hdu))
  | none => .ok []
  | some r => do
    let p ← f.imageSlice "psf" r.1 r.2
    .ok [("psf", .image p)]

/-- Copy one cutout extension (/repo/meds/extractor.py:127-147). -/
def sliceExt (f : Fits) (r : Int × Int) (n : String) : Res (String × Hdu) := do
  let p ← f.imageSlice n r.1 r.2
  .ok (n, .image p)

/-- The cutout extensions of the new file (/repo/meds/extractor.py:121-152). -/
def rangeCutouts (f : Fits) (r : Int × Int) (psf : Option (Int × Int)) : Res (List (String × Hdu)) :=
  if r.1 = -1 then .ok dummyHdus
  else do
    let cuts ← mapRes (sliceExt f r) (rangeExts f)
    let p ← psfHdu f psf
    .ok (cuts ++ p)

/-- The extensions added by `copy_all` (/repo/meds/extractor.py:154-161): copied unchanged.  Simplification: every HDU of the model has data. -/
def extras (f : Fits) (copyAll : Bool) : List (String × Hdu) :=
  if copyAll then f.hdus.filter (fun h => decide (h.1 ∉ defaultExt)) else []

/-- The PSF shift, if any. -/
def shiftPsf (psf : Option (Int × Int)) (rows : List ObjRow) : List ObjRow :=
  match psf with
  | some r => shiftPsfRows r.1 rows
  | none => rows

/-- `MEDSExtractor._extract` (/repo/meds/extractor.py:87-161) for `start ≤ end`.  Reads that fail leave a partial file on disk, see `Model/Disk.lean`. -/
def range (f : Fits) (start stop : Int) (copyAll : Bool) : Res Fits := do
  let t ← f.objects
  let rows ← sliceRows t.rows start (stop + 1)
  let r ← rowRange rows
  let rows1 := shiftRows r.1 rows
  let psf ← psfRange f t.dtype rows1
  let rows2 := shiftPsf psf rows1
  let info ← f.imageInfo
  let m ← f.metaTable
  let cuts ← rangeCutouts f r psf
  .ok ⟨[("object_data", .objects { t with rows := rows2 }), ("image_info", .info info), ("metadata", .metadata m)]
    ++ cuts ++ extras f copyAll⟩

/-- `MEDSExtractor(f, start, end, g)` with the check of the range (/repo/meds/extractor.py:193-200). -/
def extractRange (f : Fits) (start stop : Int) (copyAll : Bool) : Res Fits :=
  if stop < start then .error .valueError else range f start stop copyAll

/-- `MEDSCatalogExtractor._extract` (/repo/meds/extractor.py:231-251). -/
def extractCatalog (f : Fits) : Res Fits := do
  let t ← f.objects
  let info ← f.imageInfo
  let m ← f.metaTable
  .ok ⟨[("object_data", .objects t), ("image_info", .info info), ("metadata", .metadata m)]⟩

/-! ## Number extractor -/

/-- Positions of the rows with a given number: `numpy.where(number == data["number"])` (/repo/meds/number_extractor.py:76). -/
def whereNumber (rows : List ObjRow) (n : Int) : List Nat :=
  (List.range rows.length).filter (fun i => match rows[i]? with | some o => decide (o.number = n) | none => false)

/-- The guess that object `n` is row `n - 1` (/repo/meds/number_extractor.py:69-74). -/
def guess (rows : List ObjRow) (n : Int) : Bool :=
  decide (n ≤ rows.length) && decide (1 ≤ n) && (match rows[(n - 1).toNat]? with | some o => decide (n = o.number) | none => false)

/-- One pass of the loop of `_get_inds` (/repo/meds/number_extractor.py:68-83). -/
def numberInd (rows : List ObjRow) (n : Int) : Res Nat :=
  if guess rows n then .ok (n - 1).toNat
  else
    match whereNumber rows n with
    | [i] => .ok i
    | _ => .error .assertionError

/-- `_get_inds` (/repo/meds/number_extractor.py:66-85); without a `number` column numpy raises ValueError. -/
def numberInds (t : ObjTable) (numbers : List Int) : Res (List Nat) :=
  if t.dtype.hasNumber then mapRes (numberInd t.rows) numbers else .error .valueError

/-- `infits["object_data"][inds]` (/repo/meds/number_extractor.py:153).  Some fitsio versions return the rows in file order, others in the order asked for;
`sorts` says which.  The indices are distinct. -/
def takeRows (sorts : Bool) (rows : List ObjRow) (inds : List Nat) : Res (List ObjRow) :=
  mapRes (fun i : Nat => pyGet rows i) (if sorts then inds.insertionSort (· ≤ ·) else inds)

/-- Pixels of all cutouts of an object, from the first one on: one entry of `_get_row_ranges` (/repo/meds/number_extractor.py:98-107). -/
def objRange (o : ObjRow) : Res (Int × Int) := do
  let s0 ← pyGet o.slots 0
  .ok (s0.startRow, s0.startRow + o.boxSize ^ 2 * o.ncutout)

/-- Append a range, or widen the last one if it ends where the new one begins (/repo/meds/number_extractor.py:96-123).
The ranges are kept last first. -/
def pushRange (acc : List (Int × Int)) (r : Int × Int) : List (Int × Int) :=
  match acc with
  | [] => [r]
  | l :: ls => if r.1 ≠ l.2 then r :: l :: ls else (l.1, r.2) :: ls

/-- `_get_row_ranges` (/repo/meds/number_extractor.py:87-130). -/
def rowRanges (rows : List ObjRow) : Res (List (Int × Int)) :=
  match withCutouts rows with
  | [] => .ok [(-1, -1)]
  | l => do
    let rs ← mapRes objRange l
    .ok (rs.foldl pushRange []).reverse

/-- `get_psf_row_ranges` (/repo/meds/number_extractor.py:247-266): one range per object with cutouts. -/
def psfRowRanges (d : CatDtype) (rows : List ObjRow) : Res (List (Int × Int)) :=
  match withCutouts rows with
  | [] => .ok [(-1, -1)]
  | l => mapRes (fun o => psfRowRange d [o]) l

/-- `_get_data_from_ranges` (/repo/meds/number_extractor.py:132-141). -/
def dataFromRanges (f : Fits) (n : String) (rs : List (Int × Int)) : Res (List ℚ) := do
  let parts ← mapRes (fun r : Int × Int => f.imageSlice n r.1 r.2) rs
  .ok parts.flatten

/-- First `n` slots get consecutive start rows (/repo/meds/number_extractor.py:159-163). -/
def relaySlots (npix : Int) : Nat → Int → List Slot → Res (List Slot × Int)
  | 0, loc, ss => .ok (ss, loc)
  | _ + 1, _, [] => .error .indexError
  | n + 1, loc, s :: ss => do
    let r ← relaySlots npix n (loc + npix) ss
    .ok ({ s with startRow := loc } :: r.1, r.2)

/-- The loop over objects (/repo/meds/number_extractor.py:159-163). -/
def relay : Int → List ObjRow → Res (List ObjRow)
  | _, [] => .ok []
  | loc, o :: os => do
    let r ← relaySlots (o.boxSize ^ 2) o.ncutout.toNat loc o.slots
    let rest ← relay r.2 os
    .ok ({ o with slots := r.1 } :: rest)

/-- First `n` slots get consecutive PSF start rows (/repo/meds/number_extractor.py:170-178). -/
def relayPsfSlots : Nat → Int → List Slot → Res (List Slot × Int)
  | 0, loc, ss => .ok (ss, loc)
  | _ + 1, _, [] => .error .indexError
  | n + 1, loc, s :: ss => do
    let r ← relayPsfSlots n (loc + s.psfRowSize * s.psfColSize) ss
    .ok ({ s with psfStartRow := loc } :: r.1, r.2)

/-- The loop over objects (/repo/meds/number_extractor.py:170-178). -/
def relayPsf : Int → List ObjRow → Res (List ObjRow)
  | _, [] => .ok []
  | loc, o :: os => do
    let r ← relayPsfSlots o.ncutout.toNat loc o.slots
    let rest ← relayPsf r.2 os
    .ok ({ o with slots := r.1 } :: rest)

/-- `ranges[0][0]`. -/
def firstStart (rs : List (Int × Int)) : Int :=
  match rs with
  | [] => -1
  | r :: _ => r.1

/-- New start rows, unless there are no cutouts (/repo/meds/number_extractor.py:155-163). -/
def newStarts (rs : List (Int × Int)) (rows : List ObjRow) : Res (List ObjRow) :=
  if firstStart rs ≠ -1 then relay 0 rows else .ok rows

/-- New PSF start rows (/repo/meds/number_extractor.py:167-178).  The loop reads `psf_row_size[iobj, icut]`, so these columns must exist per epoch. -/
def newPsfStarts (d : CatDtype) (rs : List (Int × Int)) (rows : List ObjRow) : Res (List ObjRow) :=
  if firstStart rs ≠ -1 then
    match d.psfRowCol with
    | .perEpoch => relayPsf 0 rows
    | .perObj => .error .indexError
    | .absent => .error .valueError
  else .ok rows

/-- PSF part of the number extractor's catalogue (/repo/meds/number_extractor.py:165-178). -/
def numberPsf (f : Fits) (d : CatDtype) (rows : List ObjRow) : Res (List ObjRow × Option (List (Int × Int))) :=
  if f.has "psf" then do
    let rs ← psfRowRanges d rows
    let rows' ← newPsfStarts d rs rows
    .ok (rows', some rs)
  else .ok (rows, none)

/-- Copy one extension from the ranges. -/
def gatherExt (f : Fits) (rs : List (Int × Int)) (n : String) : Res (String × Hdu) := do
  let p ← dataFromRanges f n rs
  .ok (n, .image p)

/-- PSF extension (/repo/meds/number_extractor.py:221-226). -/
def numberPsfHdu (f : Fits) : Option (List (Int × Int)) → Res (List (String × Hdu))
  | none => .ok []
  | some rs => do
    let h ← gatherExt f rs "psf"
    .ok [h]

/-- The cutout extensions written by the number extractor, all required (/repo/meds/number_extractor.py:194-226). -/
def numberCutouts (f : Fits) (rs : List (Int × Int)) (psf : Option (List (Int × Int))) : Res (List (String × Hdu)) :=
  if firstStart rs = -1 then .ok dummyHdus
  else do
    let cuts ← mapRes (gatherExt f rs) ["image_cutouts", "weight_cutouts", "seg_cutouts", "bmask_cutouts"]
    let p ← numberPsfHdu f psf
    .ok (cuts ++ p)

/-- `MEDSNumberExtractor._extract` (/repo/meds/number_extractor.py:143-226) for sorted numbers. -/
def byNumber (sorts : Bool) (f : Fits) (numbers : List Int) : Res Fits := do
  let t ← f.objects
  let inds ← numberInds t numbers
  let rows ← takeRows sorts t.rows inds
  let rs ← rowRanges rows
  let rows1 ← newStarts rs rows
  let p ← numberPsf f t.dtype rows1
  let info ← f.imageInfo
  let m ← f.metaTable
  let cuts ← numberCutouts f rs p.2
  .ok ⟨[("object_data", .objects { t with rows := p.1 }), ("image_info", .info info), ("metadata", .metadata m)] ++ cuts⟩

/-- `MEDSNumberExtractor(f, numbers, g)` (/repo/meds/number_extractor.py:33-49, 239-244): numbers must be distinct and not empty, and are sorted. -/
def extractNumbers (sorts : Bool) (f : Fits) (numbers : List Int) : Res Fits :=
  if numbers.Nodup then
    if numbers.length = 0 then .error .valueError
    else byNumber sorts f (numbers.insertionSort (· ≤ ·))
  else .error .assertionError

end Extract
end Meds
