import Verif.Model.Reader

/-!
# The C reader (/repo/src/meds.c, /repo/src/meds.h)

A `NULL` or zero return is `.error .nullResult`.  Access outside an allocated array is undefined behaviour in C and appears as `.error .unmodelled`, so that
theorems can say it does not happen.  `long`s are unbounded integers here: the index checks only compare them, and products of sizes are assumed not to
overflow.  Memory release and `meds_cutout_write_fits` are not modelled here; printing is in `Model/CPrint.lean`, the metadata are in `Model/CMeta.lean`.
-/

namespace Meds.C

/-- `a[i]` of a C array: undefined outside. -/
def index {α : Type} (l : List α) (i : Int) : Res α :=
  if 0 ≤ i then
    match l[i.toNat]? with
    | some x => .ok x
    | none => .error .unmodelled
  else .error .unmodelled

/-- `struct meds_obj` (/repo/src/meds.h:165-182), the parallel arrays as one list of `ncutout_max` entries. -/
structure Obj where
  ncutout : Int
  boxSize : Int
  arrays : List Slot
deriving DecidableEq

/-- `struct meds` (/repo/src/meds.h:234-240). -/
structure Handle where
  fits : Fits
  cat : List Obj
  info : List InfoRow
deriving DecidableEq

/-- `get_array_col_size(fits, "file_id")` (/repo/src/meds.c:210-231): the width of the per-epoch columns. -/
def ncutoutMax (t : ObjTable) : Nat :=
  match t.rows with
  | [] => 0
  | r :: _ => r.slots.length

/-- One row of `load_table` (/repo/src/meds.c:385-453) into arrays filled with `MEDS_DEFVAL` (`alloc_fields`, /repo/src/meds.c:294-309): reads `ncutout`
entries of each column.  More than the arrays hold would overrun them; a negative count is left open. -/
def loadRow (width : Nat) (r : ObjRow) : Res Obj :=
  if 0 ≤ r.ncutout ∧ r.ncutout ≤ width then
    .ok { ncutout := r.ncutout, boxSize := r.boxSize,
          arrays := r.slots.take r.ncutout.toNat ++ (List.replicate width Slot.dflt).drop r.ncutout.toNat }
  else .error .unmodelled

/-- `read_object_table` (/repo/src/meds.c:455-482). -/
def readObjects (f : Fits) : Res (List Obj) :=
  match f.find "object_data" with
  | some (.objects t) => if t.rows.length = 0 then .error .nullResult else mapRes (loadRow (ncutoutMax t)) t.rows
  | _ => .error .nullResult

/-- Columns of `image_info` that `load_image_info` reads (/repo/src/meds.c:553-627). -/
def infoColumns : List String := ["image_id", "image_flags", "image_path", "wcs_path", "sky_path", "seg_path", "magzp", "scale"]

/-- `read_image_info` (/repo/src/meds.c:650-673); `cols` are the names of the table's columns, which the model's rows do not carry.  A missing column is an error. -/
def readInfo (cols : List String) (f : Fits) : Res (List InfoRow) :=
  match f.find "image_info" with
  | some (.info rows) =>
    if rows.length = 0 then .error .nullResult
    else if infoColumns.all (fun c => decide (c ∈ cols)) then .ok rows
    else .error .nullResult
  | _ => .error .nullResult

/-- `meds_open` (/repo/src/meds.c:991-1043).  Only the presence of the metadata table matters (`read_meta` sets missing entries to defaults). -/
def medsOpen (cols : List String) (f : Fits) : Res Handle := do
  let cat ← readObjects f
  let info ← readInfo cols f
  match f.find "metadata" with
  | some (.metadata _) => .ok ⟨f, cat, info⟩
  | _ => .error .nullResult

/-- `check_iobj` (/repo/src/meds.c:1071-1080). -/
def checkIobj (h : Handle) (iobj : Int) : Bool := ! (decide (iobj < 0) || decide ((h.cat.length : Int) ≤ iobj))

/-- `meds_get_obj` (/repo/src/meds.c:1095-1102). -/
def getObj (h : Handle) (iobj : Int) : Res Obj :=
  if ! checkIobj h iobj then .error .nullResult else index h.cat iobj

/-- `meds_get_ncutout` (/repo/src/meds.c:1103-1110): zero for a bad index. -/
def getNcutout (h : Handle) (iobj : Int) : Res Int :=
  match getObj h iobj with
  | .ok o => .ok o.ncutout
  | .error .nullResult => .ok 0
  | .error e => .error e

/-- `check_iobj_icutout` (/repo/src/meds.c:1132-1150). -/
def checkIobjIcutout (h : Handle) (iobj icutout : Int) : Res Obj := do
  let o ← getObj h iobj
  if icutout < 0 ∨ o.ncutout ≤ icutout then .error .nullResult else .ok o

/-- `meds_get_cutout_cen` (/repo/src/meds.c:1152-1167); a zero return is an error here. -/
def getCutoutCen (h : Handle) (iobj icutout : Int) : Res (ℚ × ℚ) := do
  let o ← checkIobjIcutout h iobj icutout
  let s ← index o.arrays icutout
  .ok (s.cutoutRow, s.cutoutCol)

/-- `meds_get_source_file_id` (/repo/src/meds.c:1169-1178). -/
def getSourceFileId (h : Handle) (iobj icutout : Int) : Res Int :=
  match checkIobjIcutout h iobj icutout with
  | .ok o => do
    let s ← index o.arrays icutout
    .ok s.fileId
  | .error .nullResult => .ok DEFVAL
  | .error e => .error e

/-- `meds_get_source_info` (/repo/src/meds.c:1180-1189): negative ids are rejected, large ones are not. -/
def getSourceInfo (h : Handle) (iobj icutout : Int) : Res InfoRow := do
  let fileId ← getSourceFileId h iobj icutout
  if fileId < 0 then .error .nullResult else index h.info fileId

/-- `meds_get_source_path` (/repo/src/meds.c:1191-1200). -/
def getSourcePath (h : Handle) (iobj icutout : Int) : Res String := do
  let i ← getSourceInfo h iobj icutout
  .ok i.imagePath

/-- `struct meds_distort` (/repo/src/meds.h:156-161). -/
structure Distort where
  dudrow : ℚ
  dudcol : ℚ
  dvdrow : ℚ
  dvdcol : ℚ
deriving DecidableEq

/-- `meds_get_distortion` (/repo/src/meds.c:1202-1213): the pointer returned is the start of the object's array, `obj->distortion`, whatever `icutout` is. -/
def getDistortion (h : Handle) (iobj icutout : Int) : Res Distort := do
  let o ← checkIobjIcutout h iobj icutout
  let s ← index o.arrays 0
  .ok ⟨s.dudrow, s.dudcol, s.dvdrow, s.dvdcol⟩

/-- `get_cutout_data_dbl` / `get_cutout_data_int` (/repo/src/meds.c:1222-1256): `npix` pixels from `start_row` of an image extension.  What cfitsio does with a
range outside the image is left open. -/
def readPix (h : Handle) (ext : String) (start npix : Int) : Res (List ℚ) :=
  match h.fits.find ext with
  | some (.image pix) =>
    if 0 ≤ start ∧ 0 < npix ∧ start + npix ≤ pix.length then .ok ((pix.drop start.toNat).take npix.toNat)
    else .error .unmodelled
  | _ => .error .nullResult

/-- `struct meds_cutout` (/repo/src/meds.h:359-370); `rows` are offsets into `pix`. -/
structure Cutout where
  ncutout : Int
  mosaicNrow : Int
  mosaicNcol : Int
  cutoutNrow : Int
  cutoutNcol : Int
  rows : List Int
  pix : List ℚ
deriving DecidableEq

/-- `cutout_from_ptr` / `icutout_from_ptr` (/repo/src/meds.c:915-980); `rows[i] = rows[i-1] + ncol`. -/
def cutoutFromPtr (pix : List ℚ) (ncutout nrow ncol : Int) : Res Cutout :=
  if ncutout * nrow ≤ 0 then .error .unmodelled
  else .ok { ncutout := ncutout, mosaicNrow := ncutout * nrow, mosaicNcol := ncol, cutoutNrow := nrow, cutoutNcol := ncol,
             rows := (List.range (ncutout * nrow).toNat).map (fun i : Nat => (i : Int) * ncol), pix := pix }

/-- `CUTOUT_GET` (/repo/src/meds.h:389). -/
def Cutout.get (c : Cutout) (row col : Int) : Res ℚ := do
  let p ← index c.rows row
  index c.pix (p + col)

/-- `MOSAIC_GET` (/repo/src/meds.h:399-400). -/
def Cutout.mosaicGet (c : Cutout) (cutout row col : Int) : Res ℚ := do
  let p ← index c.rows (cutout * c.cutoutNrow + row)
  index c.pix (p + col)

/-- `get_cutoutp_dbl` / `get_cutoutp_int` (/repo/src/meds.c:1262-1319). -/
def cutoutp (h : Handle) (ext : String) (iobj icutout : Int) : Res (List ℚ × Int × Int) := do
  let o ← checkIobjIcutout h iobj icutout
  let s ← index o.arrays icutout
  let pix ← readPix h ext s.startRow (o.boxSize * o.boxSize)
  .ok (pix, o.boxSize, o.boxSize)

/-- `get_mosaicp_dbl` / `get_mosaicp_int` (/repo/src/meds.c:1324-1387). -/
def mosaicp (h : Handle) (ext : String) (iobj : Int) : Res (List ℚ × Int × Int × Int) := do
  let o ← checkIobjIcutout h iobj 0
  let s ← index o.arrays 0
  let pix ← readPix h ext s.startRow (o.boxSize * o.boxSize * o.ncutout)
  .ok (pix, o.ncutout, o.boxSize, o.boxSize)

/-- The common body of `meds_get_cutout`, `meds_get_weight_cutout`, `meds_get_seg_cutout` (/repo/src/meds.c:1454-1537). -/
def cutout (ext : String) (h : Handle) (iobj icutout : Int) : Res Cutout := do
  let p ← cutoutp h ext iobj icutout
  cutoutFromPtr p.1 1 p.2.1 p.2.2

/-- The common body of `meds_get_mosaic`, `meds_get_weight_mosaic`, `meds_get_seg_mosaic`. -/
def mosaic (ext : String) (h : Handle) (iobj : Int) : Res Cutout := do
  let p ← mosaicp h ext iobj
  cutoutFromPtr p.1 p.2.1 p.2.2.1 p.2.2.2

/-- Reading with `TINT` converts each pixel to an `int`. -/
def Cutout.toInt (c : Cutout) : Cutout := { c with pix := c.pix.map (fun v => (truncZ v : ℚ)) }

/-- `meds_get_cutout` (/repo/src/meds.c:1454-1467). -/
def getCutout : Handle → Int → Int → Res Cutout := cutout "image_cutouts"

/-- `meds_get_mosaic` (/repo/src/meds.c:1469-1480). -/
def getMosaic : Handle → Int → Res Cutout := mosaic "image_cutouts"

/-- `meds_get_weight_cutout` (/repo/src/meds.c:1482-1495). -/
def getWeightCutout : Handle → Int → Int → Res Cutout := cutout "weight_cutouts"

/-- `meds_get_weight_mosaic` (/repo/src/meds.c:1497-1508). -/
def getWeightMosaic : Handle → Int → Res Cutout := mosaic "weight_cutouts"

/-- `meds_get_seg_cutout` (/repo/src/meds.c:1510-1523). -/
def getSegCutout (h : Handle) (iobj icutout : Int) : Res Cutout := do
  let c ← cutout "seg_cutouts" h iobj icutout
  .ok c.toInt

/-- `meds_get_seg_mosaic` (/repo/src/meds.c:1525-1536). -/
def getSegMosaic (h : Handle) (iobj : Int) : Res Cutout := do
  let c ← mosaic "seg_cutouts" h iobj
  .ok c.toInt

/-- `get_namelen_max` (/repo/src/meds.c:629-649) of the widths of `image_path`, `wcs_path`, `sky_path`, `seg_path`. -/
def namelenMax (src wcs sky seg : Nat) : Nat :=
  let m := src
  let m := if m < wcs then sky else m
  let m := if m < sky then sky else m
  if m < seg then seg else m

end Meds.C

namespace Meds

/-- Column names of `get_image_info_dtype` (/repo/meds/util.py:243-299): what `get_image_info_struct` gives a user to fill in and hand to `MEDSMaker`. -/
def imageInfoNames (wcs : Bool) (extra : List String) : List String :=
  (["image", "weight", "seg", "bmask", "bkg"].flatMap (fun t => [t ++ "_path", t ++ "_ext"])) ++
    ["image_id", "image_flags", "magzp", "scale", "position_offset"] ++ (if wcs then ["wcs"] else []) ++ extra

end Meds
