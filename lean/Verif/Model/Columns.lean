import Verif.Model.Maker

/-!
# Structured arrays: which columns go where

The catalogue, metadata and `image_info` as numpy structured arrays, column by column.  The values are of any type `α`; conversions between numeric
dtypes are not modelled.  Fields are scalars or 1-d sub-arrays, and dtypes have no padding.
-/

namespace Meds
namespace Columns

/-- A field of a numpy dtype: its name and, for a sub-array field, its length (`("file_id", "i8", (n,))`, /repo/meds/util.py:167-202). -/
structure Field where
  name : String
  width : Option Nat
  deriving DecidableEq, Repr

/-- A column: its field and one list of values per row, of length one for a scalar field. -/
structure Col (α : Type) where
  field : Field
  vals : List (List α)
  deriving DecidableEq, Repr

/-- A structured array with `n` rows. -/
structure Arr (α : Type) where
  n : Nat
  cols : List (Col α)
  deriving DecidableEq, Repr

variable {α : Type}

namespace Arr

/-- `a.dtype.names`. -/
def names (a : Arr α) : List String := a.cols.map (·.field.name)

/-- `a.dtype.descr`. -/
def descr (a : Arr α) : List Field := a.cols.map (·.field)

/-- `a[name]`. -/
def col? (a : Arr α) (name : String) : Option (Col α) := a.cols.find? (fun c => c.field.name == name)

end Arr

/-- `numpy.zeros(n, dtype=dt)` followed by an assignment of one value to every column; `init` gives that value.  A name used twice is a ValueError. -/
def filled (n : Nat) (dt : List Field) (init : String → α) : Res (Arr α) :=
  if (dt.map (·.name)).Nodup then
    .ok { n := n, cols := dt.map (fun f => { field := f, vals := List.replicate n (List.replicate (f.width.getD 1) (init f.name)) }) }
  else .error .valueError

/-- numpy broadcasting in `dst[:] = src` for a column of `n` rows: widths, source values. -/
def broadcast (n : Nat) (dst src : Option Nat) (vals : List (List α)) : Res (List (List α)) :=
  match dst, src with
  | none, none => .ok vals
  | some w, some v =>
    if v = w then .ok vals
    else if v = 1 then .ok (vals.map (fun r => (List.replicate w r).flatten))
    else .error .valueError
  | some w, none =>
    if n = w then .ok (List.replicate n vals.flatten)
    else if n = 1 then .ok (vals.map (fun r => (List.replicate w r).flatten))
    else .error .valueError
  | none, some v => if n = 1 ∧ v = 1 then .ok vals else .error .valueError

/-- One column of `eu.numpy_util.copy_fields(arr1, arr2)`: the column of the second array, with the values of the first if it has that name. -/
def copyInto (a : Arr α) (c : Col α) : Res (Col α) :=
  match a.col? c.field.name with
  | none => .ok c
  | some s => do
    let v ← broadcast a.n c.field.width s.field.width s.vals
    .ok { c with vals := v }

/-- `eu.numpy_util.copy_fields(arr1, arr2)` (called in /repo/meds/maker.py:1211, 1353): sizes must agree, then every common field is assigned. -/
def copyFields (a b : Arr α) : Res (Arr α) :=
  if a.n ≠ b.n then .error .valueError
  else do
    let cs ← mapRes (copyInto a) b.cols
    .ok { b with cols := cs }

/-- The scalar fields of `get_meds_output_dtype` (/repo/meds/util.py:180-184). -/
def scalarNames : List String := ["id", "box_size", "ra", "dec", "ncutout"]

/-- The per-epoch fields of `get_meds_output_dtype` (/repo/meds/util.py:185-196). -/
def epochNames : List String :=
  ["file_id", "start_row", "orig_row", "orig_col", "orig_start_row", "orig_start_col", "cutout_row", "cutout_col",
   "dudrow", "dudcol", "dvdrow", "dvdcol"]

/-- `get_meds_output_dtype` (/repo/meds/util.py:167-202). -/
def outputDtype (nmax : Nat) (extra : List Field) : List Field :=
  scalarNames.map (fun s => ⟨s, none⟩) ++ epochNames.map (fun s => ⟨s, some nmax⟩) ++ extra

/-- `get_meds_output_struct` (/repo/meds/util.py:95-118): zero in `ncutout`, DEFVAL everywhere else. -/
def outputStruct (zero defval : α) (n nmax : Nat) (extra : List Field) : Res (Arr α) :=
  filled n (outputDtype nmax extra) (fun s => if s = "ncutout" then zero else defval)

/-- The names in `get_meds_input_dtype` (/repo/meds/util.py:145-164). -/
def inputNames : List String := ["id", "box_size", "ra", "dec"]

/-- `_get_psf_dtype` (/repo/meds/maker.py:1379-1391). -/
def psfDtype (nmax : Nat) : List Field :=
  ["psf_row_size", "psf_col_size", "psf_cutout_row", "psf_cutout_col", "psf_start_row"].map (fun s => ⟨s, some nmax⟩)

/-- `_check_required_obj_data_fields` (/repo/meds/maker.py:1311-1324). -/
def checkRequired (obj : Arr α) : Res Unit :=
  if (inputNames.filter (fun s => !(obj.names.contains s))).length > 0 then .error .valueError else .ok ()

/-- `_get_extra_fields` (/repo/meds/maker.py:1357-1377); `psf` tells whether there are PSF data. -/
def extraFields (psf : Bool) (obj : Arr α) (nmax : Nat) : List Field :=
  let full := (outputDtype nmax []).map (·.name)
  let skip := (psfDtype nmax).map (·.name)
  obj.descr.filter (fun f => !(full.contains f.name) && !(skip.contains f.name)) ++ (if psf then psfDtype nmax else [])

/-- `_get_full_obj_data` (/repo/meds/maker.py:1329-1355) for a given `nmax`. -/
def fullObjData (zero defval : α) (psf : Bool) (nmax : Nat) (obj : Arr α) : Res (Arr α) := do
  let new ← outputStruct zero defval obj.n nmax (extraFields psf obj nmax)
  copyFields obj new

/-- `_set_obj_data` (/repo/meds/maker.py:1223-1230). -/
def setObjData (zero defval : α) (psf : Bool) (nmax : Nat) (obj : Arr α) : Res (Arr α) := do
  checkRequired obj
  fullObjData zero defval psf nmax obj

/-- One column of the loop of `_make_resized_data` (/repo/meds/maker.py:974-982).  `and` binds tighter than `or`. -/
def resizeCol (old : Arr α) (nmax : Nat) (c : Col α) : Res (Col α) :=
  match old.col? c.field.name with
  | none => .ok c
  | some s =>
    if (c.field.width.isSome && ((outputDtype nmax []).map (·.name)).contains c.field.name) ||
        ((psfDtype nmax).map (·.name)).contains c.field.name then
      match s.field.width with
      | none => .error .indexError
      | some w => do
        let v ← broadcast old.n c.field.width (some (min w nmax)) (s.vals.map (·.take nmax))
        .ok { c with vals := v }
    else do
      let v ← broadcast old.n c.field.width s.field.width s.vals
      .ok { c with vals := v }

/-- `_make_resized_data` (/repo/meds/maker.py:949-986) for a given largest number of cutouts. -/
def resized (zero defval : α) (psf : Bool) (nmax : Nat) (old : Arr α) : Res (Arr α) := do
  let new ← outputStruct zero defval old.n nmax (extraFields psf old nmax)
  let cs ← mapRes (resizeCol old nmax) new.cols
  .ok { new with cols := cs }

/-- The fields added by `_set_meta_data` (/repo/meds/maker.py:1202-1208); the string lengths of the dtypes are not modelled. -/
def versionNames : List String := ["numpy_version", "esutil_version", "fitsio_version", "meds_version", "meds_fmt_version"]

/-- Assign a value to a scalar column. -/
def setScalar (v : String → α) (names : List String) (a : Arr α) : Arr α :=
  { a with cols := a.cols.map (fun c => if names.contains c.field.name then { c with vals := List.replicate a.n [v c.field.name] } else c) }

/-- `_set_meta_data` of the maker (/repo/meds/maker.py:1185-1221); `version` gives the version strings. -/
def setMetaData (zero : α) (version : String → α) (input : Option (Arr α)) : Res (Arr α) := do
  let mdt := (match input with | some a => a.descr | none => []) ++ versionNames.map (fun s => ⟨s, none⟩)
  let n := (match input with | some a => a.n | none => 1)
  let m ← filled n mdt (fun _ => zero)
  let m ← (match input with | some a => copyFields a m | none => .ok m)
  .ok (setScalar version versionNames m)

/-- `_set_meta` of the coadd maker (/repo/meds/coadd.py:286-323). -/
def coaddSetMeta (zero : α) (version : String → α) (ometa : Arr α) : Res (Arr α) := do
  let dt := versionNames.map (fun s => (⟨s, none⟩ : Field)) ++ ometa.descr.filter (fun f => !(versionNames.contains f.name))
  let m ← filled 1 dt (fun _ => zero)
  let m ← copyFields ometa m
  .ok (setScalar version versionNames m)

/-- The names required of `image_info` (/repo/meds/util.py:243-299 with no optional lengths). -/
def infoNames : List String :=
  ["image_path", "image_ext", "weight_path", "weight_ext", "seg_path", "seg_ext", "bmask_path", "bmask_ext", "bkg_path", "bkg_ext",
   "image_id", "image_flags", "magzp", "scale", "position_offset"]

/-- `_check_image_info` (/repo/meds/maker.py:1400-1418). -/
def checkImageInfo (info : Arr α) : Res Unit :=
  if (infoNames.filter (fun s => !(info.names.contains s))).length > 0 then .error .valueError else .ok ()

end Columns

/-! ### Files as tables, and `validate_meds` -/

namespace Validate

/-- What `validate_meds` can see of a file: the names of its extensions and, for tables, the column names. -/
structure Ext where
  name : String
  columns : List String
  deriving DecidableEq, Repr

/-- `fits[name]`: the first extension with that name. -/
def ext? (f : List Ext) (name : String) : Option Ext := f.find? (fun e => e.name == name)

/-- One of the printed messages: a required extension or column that was not found. -/
inductive Missing
  | ext (name : String)
  | objectColumn (name : String)
  | infoColumn (name : String)
  deriving DecidableEq, Repr

/-- `required_ext` (/repo/meds/util.py:36). -/
def requiredExt : List String := ["object_data", "image_info", "image_cutouts"]

/-- The required columns of `image_info` (/repo/meds/util.py:74-81). -/
def requiredInfo : List String := ["image_path", "image_ext", "image_id", "image_flags", "magzp", "scale"]

/-- `validate_meds` (/repo/meds/util.py:16-92): the printed complaints.  The constructor of `MEDS` (/repo/meds/meds.py:179-186) reads three
extensions first and raises when one is missing.  The function returns nothing. -/
def validate (f : List Ext) : Res (List Missing) :=
  match ext? f "object_data", ext? f "image_info", ext? f "metadata" with
  | some od, some ii, some _ =>
    let onames := od.columns.map String.toLower
    let inames := ii.columns.map String.toLower
    .ok ((requiredExt.filter (fun e => (ext? f e).isNone)).map .ext ++
      (((Columns.outputDtype 10 []).map (·.name)).filter (fun n => !(onames.contains n.toLower))).map .objectColumn ++
      (requiredInfo.filter (fun n => !(inames.contains n))).map .infoColumn)
  | _, _, _ => .error .osError

end Validate

namespace Maker

/-- `_get_full_obj_data` (/repo/meds/maker.py:1329-1355) for a row of a complete catalogue, as `MEDS.get_cat` returns it: all output columns are
common fields and are copied, so the widths must agree; the PSF columns are copied only if the new maker has PSF data.  Columns of width one, which no
catalogue of the maker has, would be repeated by broadcasting; they are `unmodelled`. -/
def fullRowFrom (d : CatDtype) (psf : Option (List PsfModel)) (nmax : Nat) (o : ObjRow) : Res ObjRow :=
  if o.slots.length ≠ nmax then (if o.slots.length = 1 then .error .unmodelled else .error .valueError)
  else match psf, d.psfRowCol with
    | some _, .perEpoch => .ok o
    | some _, .perObj => .error .unmodelled
    | _, _ => .ok { o with
        psfRowSize1 := DEFVAL, psfColSize1 := DEFVAL,
        slots := o.slots.map (fun s => { s with psfRowSize := DEFVAL, psfColSize := DEFVAL, psfCutoutRow := DEFVAL, psfCutoutCol := DEFVAL, psfStartRow := DEFVAL }) }

/-- `MEDSMaker.__init__` (/repo/meds/maker.py:63-83) with the catalogue of an existing file as `obj_data`.  As in `Maker.init`, but rows keep
every column that the new structure also has. -/
def initFrom (cfg : MakerCfg) (cat : ObjTable) (images : List SrcImage)
    (psf : Option (List PsfModel)) (psfInfo : Option String) (metaData : String) : Res Maker := do
  let types ← setCutoutTypes cfg.cutoutTypes
  if psfLengthBad psf images.length then .error .valueError
  else
    let rows ← mapRes (fullRowFrom cat.dtype psf (initialNmax cfg images.length)) cat.rows
    .ok { cfg := cfg, types := types, images := images, psf := psf, metaData := metaData,
          psfInfo := psfInfo,
          dtype := { hasNumber := cat.dtype.hasNumber, psfBox := cat.dtype.psfBox, psfRowCol := psfKind psf },
          objs := rows.map forceEven,
          totalPixels := 0, totalPsfPixels := 0 }

end Maker
end Meds
