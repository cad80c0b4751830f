import Verif.Model.Columns
import Verif.Model.Vector

/-!
# The catalogue of the maker as one structured array

`Model/Maker.lean` keeps the catalogue as a list of rows, each with a list of epochs, and all user columns as one opaque string.  Here it is what it is in the
code: a structured array with named columns, one of them per quantity, and every assignment goes to a column by name.  `Props/Table.lean` shows that both
give the same catalogue, and what happens to the columns of the user.
-/

namespace Meds
namespace Table
open Columns Vec

/-- A number or a string in a cell of a structured array.  Simplification: the widths of integers, floats and strings are left out. -/
inductive Val
  | num (q : ℚ)
  | str (s : String)
  deriving DecidableEq, Repr

/-- A cell used as a number. -/
def Val.toNum : Val → Res ℚ
  | .num q => .ok q
  | .str _ => .error .typeError

/-- A cell used as an integer (an index or a count). -/
def Val.toInt : Val → Res Int
  | .num q => if q.den = 1 then .ok q.num else .error .indexError
  | .str _ => .error .typeError

/-- `a["name"]`: numpy raises ValueError for an unknown field. -/
def column (a : Arr Val) (name : String) : Res (List (List Val)) :=
  match a.col? name with
  | some c => .ok c.vals
  | none => .error .valueError

/-- The only entry of a cell of a scalar column. -/
def single : List Val → Res Val
  | [v] => .ok v
  | _ => .error .unmodelled

/-- A scalar column of numbers. -/
def numbers (a : Arr Val) (name : String) : Res (List ℚ) := do
  let c ← column a name
  mapRes (fun r => do let v ← single r; v.toNum) c

/-- A scalar column of integers. -/
def integers (a : Arr Val) (name : String) : Res (List Int) := do
  let c ← column a name
  mapRes (fun r => do let v ← single r; v.toInt) c

/-- Change the values of the column with a given name. -/
def modifyCol (name : String) (f : List (List Val) → Res (List (List Val))) : List (Col Val) → Res (List (Col Val))
  | [] => .error .valueError
  | c :: cs =>
    if c.field.name = name then do
      let v ← f c.vals
      .ok ({ c with vals := v } :: cs)
    else do
      let r ← modifyCol name f cs
      .ok (c :: r)

/-- `a["name"][...] = ...`; `f` does the assignment. -/
def assign (a : Arr Val) (name : String) (f : List (List Val) → Res (List (List Val))) : Res (Arr Val) := do
  let cs ← modifyCol name f a.cols
  .ok { a with cols := cs }

/-- `col[q] = v` for a scalar column. -/
def putRows : List (List Val) → List Nat → List Val → Res (List (List Val))
  | t, [], [] => .ok t
  | t, i :: q, x :: v =>
    match t[i]? with
    | some _ => putRows (t.set i [x]) q v
    | none => .error .indexError
  | _, _, _ => .error .valueError

/-- `col[q, icut] = v` for a per-epoch column. -/
def putCells : List (List Val) → List Nat → List Int → List Val → Res (List (List Val))
  | t, [], [], [] => .ok t
  | t, i :: q, k :: icut, x :: v =>
    match t[i]? with
    | some r => do
      let j ← pyIndex r.length k
      putCells (t.set i (r.set j x)) q icut v
    | none => .error .indexError
  | _, _, _, _ => .error .valueError

/-- `a["name"][q, icut] = v`. -/
def put (a : Arr Val) (name : String) (q : List Nat) (icut : List Int) (v : List ℚ) : Res (Arr Val) :=
  assign a name (fun t => putCells t q icut (v.map .num))

/-- `a[q]`: the rows of an index array. -/
def takeRows (a : Arr Val) (q : List Nat) : Res (Arr Val) := do
  let cs ← mapRes (fun c : Col Val => do let v ← take c.vals q; .ok { c with vals := v }) a.cols
  .ok { n := q.length, cols := cs }

/-- The column of colours used for positions: `color`, else `wcs_color`, else none (/repo/meds/maker.py:735-740, 802-807). -/
def wcsColors (a : Arr Val) : Res (List (Option ℚ)) :=
  if a.names.contains "color" then do
    let c ← numbers a "color"
    .ok (c.map some)
  else if a.names.contains "wcs_color" then do
    let c ← numbers a "wcs_color"
    .ok (c.map some)
  else .ok (List.replicate a.n none)

/-- The column of colours used for PSFs (/repo/meds/maker.py:1272-1275). -/
def psfColors (a : Arr Val) : Res (List (Option ℚ)) :=
  if a.names.contains "psf_color" then do
    let c ← numbers a "psf_color"
    .ok (c.map some)
  else .ok (List.replicate a.n none)

/-- All that WCS and PSF models are given of the objects (/repo/meds/maker.py:796, 802-816, 1272-1275).  Simplification: the code reads `ra`, `dec` and the
colours where it needs them; here they are read together. -/
def skies (a : Arr Val) : Res (List SkyPos) := do
  let ra ← numbers a "ra"
  let dec ← numbers a "dec"
  let c ← wcsColors a
  let p ← psfColors a
  .ok (List.zipWith (fun (x : ℚ × ℚ) (y : Option ℚ × Option ℚ) => { ra := x.1, dec := x.2, color := y.1, psfColor := y.2 }) (ra.zip dec) (c.zip p))

/-- `_force_box_sizes_even` (/repo/meds/maker.py:1149-1159). -/
def forceEvenT (a : Arr Val) : Res (Arr Val) := do
  let b ← integers a "box_size"
  let w := whereTrue (b.map (fun x => decide (x % 2 ≠ 0)))
  if w.length > 0 then do
    let x ← take b w
    assign a "box_size" (fun t => putRows t w (x.map (fun y => .num ((y + 1 : Int) : ℚ))))
  else .ok a

/-- `_get_pos_and_bounds` (/repo/meds/maker.py:773-829). -/
def posAndBoundsT (useJoblib : Bool) (nJobs : Nat) (cfg : MakerCfg) (a : Arr Val) (fileId : Nat) (im : SrcImage) : Res (List Pos × Bounds × List Nat) := do
  let s ← skies a
  let q := whereTrue (s.map im.wcs.rough)
  let sky ← take s q
  let colrow ← Maker.doSky2image useJoblib nJobs (List.map im.wcs.sky2image) sky
  let pos := colrow.map (fun cr => makeWcsPosition cr.2 cr.1 im.info.positionOffset false)
  .ok (pos, Maker.fileBounds cfg fileId im, q)

/-- The assignments of one pass of the per-file loop (/repo/meds/maker.py:709-754). -/
def fillT (fileId : Nat) (im : SrcImage) (half : List Int) (a : Arr Val) (q : List Nat) (z : List Pos) : Res (Arr Val) := do
  let qrow := z.map (·.zrow)
  let qcol := z.map (·.zcol)
  let nc ← integers a "ncutout"
  let icut ← take nc q
  let a1 ← put a "file_id" q icut (q.map (fun _ => (fileId : ℚ)))
  let a2 ← put a1 "orig_row" q icut qrow
  let a3 ← put a2 "orig_col" q icut qcol
  let h ← take half q
  let ostartRow := List.zipWith (fun (r : ℚ) (b : Int) => truncZ r - b + 1) qrow h
  let ostartCol := List.zipWith (fun (c : ℚ) (b : Int) => truncZ c - b + 1) qcol h
  let crow := List.zipWith (fun (r : ℚ) (s : Int) => r - s) qrow ostartRow
  let ccol := List.zipWith (fun (c : ℚ) (s : Int) => c - s) qcol ostartCol
  let a4 ← put a3 "orig_start_row" q icut (ostartRow.map (fun x : Int => (x : ℚ)))
  let a5 ← put a4 "orig_start_col" q icut (ostartCol.map (fun x : Int => (x : ℚ)))
  let a6 ← put a5 "cutout_row" q icut crow
  let a7 ← put a6 "cutout_col" q icut ccol
  let s ← skies a7
  let colors ← take s q
  let jacob := List.zipWith (fun (p : Pos) (c : SkyPos) => im.wcs.jacobian c p.wcsCol p.wcsRow) z colors
  let a8 ← put a7 "dudcol" q icut (jacob.map (·.1))
  let a9 ← put a8 "dudrow" q icut (jacob.map (·.2.1))
  let a10 ← put a9 "dvdcol" q icut (jacob.map (·.2.2.1))
  let a11 ← put a10 "dvdrow" q icut (jacob.map (·.2.2.2))
  let nc' ← integers a11 "ncutout"
  let n ← take nc' q
  assign a11 "ncutout" (fun t => putRows t q (n.map (fun y => .num ((y + 1 : Int) : ℚ))))

/-- One pass of the per-file loop of `_build_meds_layout` (/repo/meds/maker.py:669-754). -/
def layoutFileT (useJoblib : Bool) (nJobs : Nat) (cfg : MakerCfg) (half : List Int) (a : Arr Val) (fi : Nat × SrcImage) : Res (Arr Val) := do
  let fileId := fi.1
  let im := fi.2
  let pbq ← posAndBoundsT useJoblib nJobs cfg a fileId im
  let bnds := pbq.2.1
  let qrc := whereTrue (Maker.containsPoints bnds pbq.1)
  let pos ← (if cfg.firstImageIsCoadd && fileId == 0 && cfg.forceIntoCoaddBounds then Maker.forceIntoV qrc pbq.1 bnds else .ok pbq.1)
  if cfg.firstImageIsCoadd && cfg.checkInCoadd && fileId == 0 && a.n != qrc.length then .error .creationError
  else do
    let q ← take pbq.2.2 qrc
    let z ← take pos qrc
    fillT fileId im half a q z

/-- The optional trimming (/repo/meds/maker.py:649-664). -/
def trimT (useJoblib : Bool) (nJobs : Nat) (cfg : MakerCfg) (images : List SrcImage) (a : Arr Val) : Res (Arr Val) :=
  if cfg.firstImageIsCoadd && cfg.trimToCoadd then do
    let im ← pyGet images 0
    let pbq ← posAndBoundsT useJoblib nJobs cfg a 0 im
    let w := whereTrue (Maker.containsPoints pbq.2.1 pbq.1)
    if w.length = 0 then .error .assertionError
    else do
      let w' ← take pbq.2.2 w
      takeRows a w'
  else .ok a

/-- `ncutout.max()`; ValueError for an empty catalogue. -/
def maxInt : List Int → Res Int
  | [] => .error .valueError
  | x :: xs => .ok (xs.foldl max x)

/-- `_make_resized_data` (/repo/meds/maker.py:949-986). -/
def resizeT (psf : Bool) (a : Arr Val) : Res (Arr Val) := do
  let nc ← integers a "ncutout"
  let m ← maxInt nc
  resized (.num 0) (.num DEFVAL) psf (if m < 2 then 2 else m.toNat) a

/-- `_set_start_rows_and_pixel_count` (/repo/meds/maker.py:877-907): the array and `total_pixels`. -/
def setStartRowsT (a : Arr Val) : Res (Arr Val × Int) := do
  let nc ← integers a "ncutout"
  let bs ← integers a "box_size"
  let total := (List.zipWith (fun (n b : Int) => n * (b * b)) nc bs).sum
  let r ← foldRes (fun (s : Arr Val × Int) iobj => do
      let ncs ← integers s.1 "ncutout"
      let ncut ← pyGet ncs (iobj : Nat)
      if ncut > 0 then do
        let bss ← integers s.1 "box_size"
        let bsize ← pyGet bss (iobj : Nat)
        foldRes (fun (s : Arr Val × Int) (icut : Nat) => do
            let a ← put s.1 "start_row" [iobj] [icut] [(s.2 : ℚ)]
            .ok (a, s.2 + bsize * bsize)) s (List.range ncut.toNat)
      else .ok s) (a, (0 : Int)) (List.range a.n)
  if total ≠ r.2 then .error .valueError else .ok r

/-- `obj_data["name"][iobj, icut]` as a number. -/
def cell (a : Arr Val) (name : String) (i k : Nat) : Res ℚ := do
  let c ← column a name
  let r ← pyGet c i
  let v ← pyGet r k
  v.toNum

/-- `obj_data["name"][iobj, icut]` as an integer. -/
def cellInt (a : Arr Val) (name : String) (i k : Nat) : Res Int := do
  let c ← column a name
  let r ← pyGet c i
  let v ← pyGet r k
  v.toInt

/-- The body of the inner loop of `_set_psf_layout` (/repo/meds/maker.py:1277-1307). -/
def psfCellT (psf : List PsfModel) (iobj : Nat) (sky : SkyPos) (s : Arr Val × Int) (icut : Nat) : Res (Arr Val × Int) := do
  let row ← cell s.1 "orig_row" iobj icut
  let col ← cell s.1 "orig_col" iobj icut
  let fileId ← cellInt s.1 "file_id" iobj icut
  let p ← pyGet psf fileId
  let shape := Maker.psfShapeOf p sky row col
  let cen := p.center row col
  let a1 ← put s.1 "psf_row_size" [iobj] [icut] [(shape.1 : ℚ)]
  let a2 ← put a1 "psf_col_size" [iobj] [icut] [(shape.2 : ℚ)]
  let a3 ← put a2 "psf_cutout_row" [iobj] [icut] [cen.1]
  let a4 ← put a3 "psf_cutout_col" [iobj] [icut] [cen.2]
  let a5 ← put a4 "psf_start_row" [iobj] [icut] [(s.2 : ℚ)]
  .ok (a5, s.2 + (shape.1 : Int) * shape.2)

/-- `_set_psf_layout` (/repo/meds/maker.py:1253-1309): the array and `total_psf_pixels`. -/
def setPsfLayoutT (psf : List PsfModel) (a : Arr Val) : Res (Arr Val × Int) :=
  foldRes (fun (s : Arr Val × Int) iobj => do
      let sk ← skies s.1
      let sky ← pyGet sk (iobj : Nat)
      let ncs ← integers s.1 "ncutout"
      let ncut ← pyGet ncs (iobj : Nat)
      foldRes (psfCellT psf iobj sky) s (List.range ncut.toNat)) (a, (0 : Int)) (List.range a.n)

/-- `_build_meds_layout` (/repo/meds/maker.py:636-771): the finished catalogue, `total_pixels` and `total_psf_pixels`. -/
def buildLayoutT (useJoblib : Bool) (nJobs : Nat) (cfg : MakerCfg) (images : List SrcImage) (psf : Option (List PsfModel)) (a : Arr Val) :
    Res (Arr Val × Int × Int) := do
  let a0 ← trimT useJoblib nJobs cfg images a
  let bs ← integers a0 "box_size"
  let half := bs.map (· / 2)
  let a1 ← foldRes (layoutFileT useJoblib nJobs cfg half) a0 (Maker.numbered images)
  let a2 ← resizeT psf.isSome a1
  let r ← setStartRowsT a2
  match psf with
  | none => .ok (r.1, r.2, 0)
  | some p => do
    let s ← setPsfLayoutT p r.1
    .ok (s.1, r.2, s.2)

/-- The catalogue made by the constructor (/repo/meds/maker.py:63-83, 1223-1230). -/
def initT (cfg : MakerCfg) (nimage : Nat) (psf : Bool) (obj : Arr Val) : Res (Arr Val) := do
  let full ← setObjData (.num 0) (.num DEFVAL) psf (Maker.initialNmax cfg nimage) obj
  forceEvenT full

end Table
end Meds
