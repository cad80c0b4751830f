import Verif.Model.Table
import Verif.Props.Columns
import Verif.Spec.Layout

/-! What the columns of the catalogue must hold, and when a structured array is the catalogue of a list of objects. -/

namespace Meds
namespace Table
open Columns

/-- The scalar columns of the maker and what they hold. -/
def scalarCols : List (String × (ObjRow → Val)) :=
  [("id", fun o => .num o.id), ("box_size", fun o => .num o.boxSize), ("ra", fun o => .num o.sky.ra), ("dec", fun o => .num o.sky.dec),
   ("ncutout", fun o => .num o.ncutout)]

/-- The per-epoch columns of the maker and what they hold. -/
def epochCols : List (String × (Slot → Val)) :=
  [("file_id", fun s => .num s.fileId), ("start_row", fun s => .num s.startRow), ("orig_row", fun s => .num s.origRow), ("orig_col", fun s => .num s.origCol),
   ("orig_start_row", fun s => .num s.origStartRow), ("orig_start_col", fun s => .num s.origStartCol),
   ("cutout_row", fun s => .num s.cutoutRow), ("cutout_col", fun s => .num s.cutoutCol),
   ("dudrow", fun s => .num s.dudrow), ("dudcol", fun s => .num s.dudcol), ("dvdrow", fun s => .num s.dvdrow), ("dvdcol", fun s => .num s.dvdcol)]

/-- The per-epoch columns for PSF images and what they hold. -/
def psfCols : List (String × (Slot → Val)) :=
  [("psf_row_size", fun s => .num s.psfRowSize), ("psf_col_size", fun s => .num s.psfColSize),
   ("psf_cutout_row", fun s => .num s.psfCutoutRow), ("psf_cutout_col", fun s => .num s.psfCutoutCol), ("psf_start_row", fun s => .num s.psfStartRow)]

/-- A scalar column of numbers. -/
def HasNumbers (a : Arr Val) (name : String) (v : List ℚ) : Prop := a.col? name = some ⟨⟨name, none⟩, v.map (fun q => [.num q])⟩

/-- Where the colours of the objects are in a structured array: those for positions in the column `color`, without it in `wcs_color`, and without both there
are none; those for PSFs in `psf_color`, and without it there are none. -/
structure ColoursOf (a : Arr Val) (l : List SkyPos) : Prop where
  wcs : (∃ v, HasNumbers a "color" v ∧ l.map (·.color) = v.map some) ∨
    ("color" ∉ a.names ∧ ∃ v, HasNumbers a "wcs_color" v ∧ l.map (·.color) = v.map some) ∨
    ("color" ∉ a.names ∧ "wcs_color" ∉ a.names ∧ ∀ s ∈ l, s.color = none)
  psf : (∃ v, HasNumbers a "psf_color" v ∧ l.map (·.psfColor) = v.map some) ∨ ("psf_color" ∉ a.names ∧ ∀ s ∈ l, s.psfColor = none)

/-- A structured array is the catalogue that a list of input objects describes: the required columns are there as scalars with the values of the objects, the
columns of colours hold theirs, and none of the names that the maker computes are used. -/
structure Represents (obj : Arr Val) (objs : List Maker.InputObj) : Prop where
  wf : obj.WF
  n : obj.n = objs.length
  id : obj.col? "id" = some ⟨⟨"id", none⟩, objs.map (fun o => [.num o.id])⟩
  box : obj.col? "box_size" = some ⟨⟨"box_size", none⟩, objs.map (fun o => [.num o.boxSize])⟩
  ra : obj.col? "ra" = some ⟨⟨"ra", none⟩, objs.map (fun o => [.num o.sky.ra])⟩
  dec : obj.col? "dec" = some ⟨⟨"dec", none⟩, objs.map (fun o => [.num o.sky.dec])⟩
  colours : ColoursOf obj (objs.map (·.sky))
  fresh : ∀ s ∈ obj.names, s ∉ computedNames

/-- The names of the PSF columns. -/
def psfNames : List String := ["psf_row_size", "psf_col_size", "psf_cutout_row", "psf_cutout_col", "psf_start_row"]

/-- A structured array holds a catalogue that is also given row by row: every column of the maker is there with the values of the rows. -/
structure Holds (psf : Bool) (t : Arr Val) (rows : List ObjRow) (w : Nat) : Prop where
  n : t.n = rows.length
  scalar : ∀ p ∈ scalarCols, t.col? p.1 = some ⟨⟨p.1, none⟩, rows.map (fun o => [p.2 o])⟩
  epoch : ∀ p ∈ epochCols, t.col? p.1 = some ⟨⟨p.1, some w⟩, rows.map (fun o => o.slots.map p.2)⟩
  psfs : psf = true → ∀ p ∈ psfCols, t.col? p.1 = some ⟨⟨p.1, some w⟩, rows.map (fun o => o.slots.map p.2)⟩

/-- The input rows that trimming to the coadd keeps, in order: all of them without trimming, else those whose object the first image covers. -/
structure Keeps (cfg : MakerCfg) (images : List SrcImage) (objs : List Maker.InputObj) (keep : List Nat) : Prop where
  increasing : keep.Pairwise (· < ·)
  mem : ∀ i, i ∈ keep ↔ ∃ x, objs[i]? = some x ∧
    (cfg.firstImageIsCoadd = true → cfg.trimToCoadd = true → ∃ im rest, images = im :: rest ∧ Spec.Covers cfg 0 im x.sky)

end Table
end Meds
