import Verif.Model.Maker

/-!
# The files the input images are read from (/repo/meds/maker.py:598-628)

`SrcImage` has the pixels of every plane.  Here they come from an `image_info` row with paths and extensions, and from the files on the disk.
-/

namespace Meds.Sources

/-- An element of a text column of `image_info`: of type `U` (Python `str`) or of type `S` (Python `bytes`, as in /repo/meds/util.py:261, 268-271). -/
inductive Cell
  | str (s : String)
  | bytes (s : String)
  deriving DecidableEq

/-- The characters of an element. -/
def Cell.text : Cell → String
  | .str s => s
  | .bytes s => s

/-- An element of an extension column: a number or text (/repo/meds/util.py:268-271). -/
inductive Ext
  | num (n : Int)
  | text (c : Cell)
  deriving DecidableEq

/-- The columns of one `image_info` row used to read images; `none` is a missing column. -/
structure PathRow where
  path : String → Option Cell
  ext : String → Option Ext
  scale : Option ℚ

/-- The files on the disk: per path the HDUs with their names and pixels.  Simplifications: every HDU is an image, and the files do not change during
the write. -/
abbrev FileSys := String → Option (List (String × Img ℚ))

/-- White space for `strip`.  Simplification: only ASCII. -/
def isBlank (c : Char) : Bool := c = ' ' || c = '\t' || c = '\n' || c = '\r' || c.toNat = 11 || c.toNat = 12

/-- `strip` (/repo/meds/maker.py:606, 613). -/
def strip (s : String) : String := String.ofList ((s.toList.dropWhile isBlank).reverse.dropWhile isBlank).reverse

/-- `lower` (/repo/meds/maker.py:609).  Simplification: only ASCII letters. -/
def lower (s : String) : String := String.ofList (s.toList.map Char.toLower)

/-- `impath.lower() == "none"` (/repo/meds/maker.py:609): `bytes` never equal a `str`. -/
def isNoneWord : Cell → Bool
  | .str s => lower s = "none"
  | .bytes _ => false

/-- `strip` of an element keeps its type (/repo/meds/maker.py:606). -/
def Cell.strip : Cell → Cell
  | .str s => .str (Sources.strip s)
  | .bytes s => .bytes (Sources.strip s)

/-- `if isinstance(ext, str): ext = ext.strip()` (/repo/meds/maker.py:612-613). -/
def stripExt : Ext → Ext
  | .text (.str s) => .text (.str (strip s))
  | e => e

/-- `fits[ext]` (/repo/meds/maker.py:616, `fitsio`): a number counts the HDUs from 0, or from the end when negative; a text is looked up among the names in any
letter case, the first HDU wins.  What is not there is an IOError.  Simplification: names of the form `name-version` are not modelled. -/
def hduOf (d : List (String × Img ℚ)) : Ext → Res (Img ℚ)
  | .num n =>
    let k := if n < 0 then n + d.length else n
    if k < 0 then .error .osError
    else match d[k.toNat]? with
      | some h => .ok h.2
      | none => .error .osError
  | .text c =>
    if c.text = "" then .error .osError
    else match d.find? (fun h => lower h.1 = lower c.text) with
      | some h => .ok h.2
      | none => .error .osError

/-- `_read_one_image` (/repo/meds/maker.py:598-618).  A missing column is a ValueError, a file that is not there an OSError. -/
def readOne (fs : FileSys) (row : PathRow) (t : String) : Res (Option (Img ℚ)) :=
  match row.path t with
  | none => .error .valueError
  | some c =>
    match row.ext t with
    | none => .error .valueError
    | some e =>
      let impath := c.strip
      if isNoneWord impath || impath.text = "" then .ok none
      else
        match fs impath.text with
        | none => .error .osError
        | some d =>
          match hduOf d (stripExt e) with
          | .error e => .error e
          | .ok im => .ok (some im)

/-- `_get_scale` (/repo/meds/maker.py:620-628). -/
def getScale (row : PathRow) : ℚ :=
  match row.scale with
  | some s => s
  | none => 1

/-- An input image on the disk. -/
structure DiskImage where
  wcs : Wcs
  info : InfoRow
  row : PathRow

/-- The image as the maker sees it.  Simplification: an image that cannot be read is an error like a missing column, its kind (OSError) is lost. -/
def DiskImage.load (fs : FileSys) (d : DiskImage) : SrcImage :=
  { wcs := d.wcs, info := { d.info with scale := getScale d.row },
    plane := fun t => match readOne fs d.row t with | .ok r => some r | .error _ => none }

end Meds.Sources
