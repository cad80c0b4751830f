import Verif.Model.Basic

/-!
# Catalogue rows and FITS files

The object catalogue (`object_data`), the `image_info` and `metadata` tables, and a FITS file as a list of named HDUs.
-/

namespace Meds

/-- One entry of the per-epoch columns of `object_data` (/repo/meds/util.py:167-202 `get_meds_output_dtype` and the PSF columns of
/repo/meds/maker.py:1379-1391 `_get_psf_dtype`; `psfBoxSize` is the alternative column read by /repo/meds/meds.py:335-340).
Simplification: numpy keeps one array of width NMAX per column; all widths are equal, so the model keeps a list of slots. -/
structure Slot where
  fileId : Int
  startRow : Int
  origRow : ℚ
  origCol : ℚ
  origStartRow : Int
  origStartCol : Int
  cutoutRow : ℚ
  cutoutCol : ℚ
  dudrow : ℚ
  dudcol : ℚ
  dvdrow : ℚ
  dvdcol : ℚ
  psfRowSize : Int
  psfColSize : Int
  psfCutoutRow : ℚ
  psfCutoutCol : ℚ
  psfStartRow : Int
  psfBoxSize : Int
  deriving DecidableEq, Repr

/-- An unused slot: every field holds DEFVAL (/repo/meds/util.py:112-116). -/
def Slot.dflt : Slot :=
  { fileId := DEFVAL, startRow := DEFVAL, origRow := DEFVAL, origCol := DEFVAL,
    origStartRow := DEFVAL, origStartCol := DEFVAL, cutoutRow := DEFVAL, cutoutCol := DEFVAL,
    dudrow := DEFVAL, dudcol := DEFVAL, dvdrow := DEFVAL, dvdcol := DEFVAL,
    psfRowSize := DEFVAL, psfColSize := DEFVAL, psfCutoutRow := DEFVAL, psfCutoutCol := DEFVAL,
    psfStartRow := DEFVAL, psfBoxSize := DEFVAL }

/-- What a WCS or PSF model may look at for an object: `ra`, `dec` and the optional colour columns (`color`/`wcs_color` and `psf_color`,
/repo/meds/maker.py:735-740, 802-807, 418-421). -/
structure SkyPos where
  ra : ℚ
  dec : ℚ
  color : Option ℚ
  psfColor : Option ℚ
  deriving DecidableEq, Repr

/-- One row of `object_data`.  `psfRowSize1`, `psfColSize1`, `psfBoxSize1` are the 1-d (per object) variants of the PSF size columns
(/repo/meds/meds.py:329-333, 338); `extra` stands for all remaining user columns, which the code only copies. -/
structure ObjRow where
  id : Int
  boxSize : Int
  sky : SkyPos
  ncutout : Int
  number : Int
  psfRowSize1 : Int
  psfColSize1 : Int
  psfBoxSize1 : Int
  extra : String
  slots : List Slot
  deriving DecidableEq, Repr

/-- Rank of an optional column: absent, one value per object (1-d) or one per epoch (2-d). -/
inductive ColKind
  | absent | perObj | perEpoch
  deriving DecidableEq, Repr

/-- The part of the table's dtype that the code inspects: is there a `number` column
(/repo/meds/meds.py:937), `psf_row_size`/`psf_col_size` (/repo/meds/meds.py:323-333), `psf_box_size`
(/repo/meds/meds.py:335, /repo/meds/extractor.py:273-274). -/
structure CatDtype where
  hasNumber : Bool
  psfRowCol : ColKind
  psfBox : ColKind
  deriving DecidableEq, Repr

/-- The `object_data` table. -/
structure ObjTable where
  dtype : CatDtype
  rows : List ObjRow
  deriving DecidableEq, Repr

/-- One row of `image_info` (/repo/meds/util.py:243-299), reduced to what is read back: the path, flags and an opaque rest. -/
structure InfoRow where
  imagePath : String
  imageFlags : Int
  scale : ℚ
  positionOffset : ℚ
  rest : String
  deriving DecidableEq, Repr

/-- An HDU of a MEDS file.  `extra` is any other extension (tables or images that only `copy_all` looks at). -/
inductive Hdu
  | objects (t : ObjTable)
  | info (t : List InfoRow)
  | metadata (m : String)
  | image (pix : List ℚ)
  | extra (payload : String)
  deriving DecidableEq, Repr

/-- A FITS file: named HDUs in file order. -/
structure Fits where
  hdus : List (String × Hdu)
  deriving DecidableEq, Repr

namespace Fits

/-- First HDU with a given name in a list of HDUs. -/
def lookup : List (String × Hdu) → String → Option Hdu
  | [], _ => none
  | (n, h) :: t, name => if n = name then some h else lookup t name

/-- `fits[name]`: the first HDU with that name (fitsio / cfitsio lookup by EXTNAME).  Simplification: names are compared exactly. -/
def find (f : Fits) (name : String) : Option Hdu := lookup f.hdus name

/-- `name in fits`. -/
def has (f : Fits) (name : String) : Bool := (f.find name).isSome

end Fits

/-- `fits[name][a:b]` on a 1-d image.  fitsio raises ValueError when the slice is empty and clips the end to the array;
a negative start is left `unmodelled`. -/
def readSlice {α : Type} (pix : List α) (a b : Int) : Res (List α) :=
  if a < 0 then .error .unmodelled
  else if b ≤ a then .error .valueError
  else .ok ((pix.take b.toNat).drop a.toNat)

/-- Reading a slice of a named image extension; a missing name is the IOError that fitsio raises. -/
def Fits.imageSlice (f : Fits) (name : String) (a b : Int) : Res (List ℚ) :=
  match f.find name with
  | some (.image pix) => readSlice pix a b
  | _ => .error .osError

/-- `hdu.write(data, start=s)` on a 1-d image: overwrite in place.  Writing outside the reserved range is `unmodelled`
(cfitsio would grow the array). -/
def overwrite {α : Type} (buf : List α) (s : Int) (xs : List α) : Res (List α) :=
  if 0 ≤ s ∧ s + xs.length ≤ buf.length then
    .ok (buf.take s.toNat ++ xs ++ buf.drop (s.toNat + xs.length))
  else .error .unmodelled

end Meds
