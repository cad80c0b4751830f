import Verif.Model.Vector
import Verif.Model.CompareReport

/-!
# Positions that are not numbers (/repo/meds/maker.py:636-875)

A WCS need not have an answer for every point of the sky: the rough cut is rough, and `sky2image` may return NaN or infinite values far away from the image.
`Model/Vector.lean` follows the layout with positions that are numbers; this file follows the same lines with positions that may be anything a float can be.
-/

namespace Meds
open Compare

namespace Compare.Flt

/-- `x - offset` for a number `offset`. -/
def subNum : Flt → ℚ → Flt
  | .num a, b => .num (a - b)
  | .nan, _ => .nan
  | .inf s, _ => .inf s

/-- `x <= b` for a number `b`: false for NaN. -/
def leNum : Flt → ℚ → Bool
  | .num a, b => decide (a ≤ b)
  | .nan, _ => false
  | .inf s, _ => s

/-- `x >= b` for a number `b`: false for NaN. -/
def geNum : Flt → ℚ → Bool
  | .num a, b => decide (b ≤ a)
  | .nan, _ => false
  | .inf s, _ => !s

/-- `numpy.clip(x, lo, hi)`, that is `minimum(maximum(x, lo), hi)`: NaN stays NaN. -/
def clip : Flt → ℚ → ℚ → Flt
  | .num a, lo, hi => .num (clipQ a lo hi)
  | .nan, _, _ => .nan
  | .inf true, lo, hi => .num (min lo hi)
  | .inf false, _, hi => .num hi

end Compare.Flt

/-- One input image whose WCS may fail: `sky2image` (column, row) has values of any kind; everything else is as in `SrcImage`, whose own
`sky2image` is not used. -/
structure SrcImageN where
  im : SrcImage
  sky2image : SkyPos → Flt × Flt

/-- A record of `make_wcs_positions` (/repo/meds/util.py:321). -/
structure PosN where
  wcsRow : Flt
  wcsCol : Flt
  zrow : Flt
  zcol : Flt
  deriving DecidableEq, Repr

namespace PosN

/-- `make_wcs_positions` (/repo/meds/util.py:302-338) without `inverse`, per element. -/
def make (row col : Flt) (offset : ℚ) : PosN :=
  { wcsRow := row, wcsCol := col, zrow := row.subNum offset, zcol := col.subNum offset }

/-- The position as numbers; there is no conversion of NaN or infinity that the rest of the model could go on with (`astype("i4")` of such a value is
undefined, /repo/meds/maker.py:721-722).  `Props/NotANumber.lean` shows that this never happens. -/
def toPos (p : PosN) : Res Pos :=
  match p.wcsRow, p.wcsCol, p.zrow, p.zcol with
  | .num a, .num b, .num c, .num d => .ok { wcsRow := a, wcsCol := b, zrow := c, zcol := d }
  | _, _, _, _ => .error .unmodelled

end PosN

namespace Maker
open Vec

/-- `_get_pos_and_bounds` (/repo/meds/maker.py:782-829).  Simplification: `sky2image` in one call (the parallel one gives the same list, C13). -/
def posAndBoundsN (cfg : MakerCfg) (objs : List ObjRow) (fileId : Nat) (im : SrcImageN) : Res (List PosN × Bounds × List Nat) := do
  let q := whereTrue (objs.map (fun o => im.im.wcs.rough o.sky))
  let sky ← take (objs.map (·.sky)) q
  let pos := sky.map (fun s => PosN.make (im.sky2image s).2 (im.sky2image s).1 im.im.info.positionOffset)
  .ok (pos, fileBounds cfg fileId im.im, q)

/-- `bnds.contains_points(pos["zrow"], pos["zcol"])` (/repo/meds/bounds.py:27-39). -/
def containsPointsN (b : Bounds) (pos : List PosN) : List Bool :=
  pos.map (fun p => p.zrow.leNum b.rowmax && p.zrow.geNum b.rowmin && p.zcol.leNum b.colmax && p.zcol.geNum b.colmin)

/-- `_force_into_coadd_bounds` (/repo/meds/maker.py:831-875).  The printed `min` of an empty array raises. -/
def forceIntoN (qrc : List Nat) (pos : List PosN) (b : Bounds) : Res (List PosN) := do
  let z ← take pos qrc
  if z.length = 0 then .error .valueError
  else do
    let rn := z.map (fun p => p.zrow.clip b.rowmin b.rowmax)
    let cn := z.map (fun p => p.zcol.clip b.colmin b.colmax)
    let pos1 ← putField (fun p x => { p with zrow := x }) pos qrc rn
    let pos2 ← putField (fun p x => { p with zcol := x }) pos1 qrc cn
    let z' ← take pos2 qrc
    if (containsPointsN b z').all id then .ok pos2 else .error .creationError

/-- One pass of the per-file loop of `_build_meds_layout` (/repo/meds/maker.py:669-754). -/
def layoutFileN (cfg : MakerCfg) (half : List Int) (objs : List ObjRow) (fi : Nat × SrcImageN) : Res (List ObjRow) := do
  let fileId := fi.1
  let im := fi.2
  let pbq ← posAndBoundsN cfg objs fileId im
  let bnds := pbq.2.1
  let qrc := whereTrue (containsPointsN bnds pbq.1)
  let pos ← (if cfg.firstImageIsCoadd && fileId == 0 && cfg.forceIntoCoaddBounds then forceIntoN qrc pbq.1 bnds else .ok pbq.1)
  if cfg.firstImageIsCoadd && cfg.checkInCoadd && fileId == 0 && objs.length != qrc.length then .error .creationError
  else do
    let q ← take pbq.2.2 qrc
    let z ← take pos qrc
    let z' ← mapRes PosN.toPos z
    fillV fileId im.im half objs q z'

/-- The optional trimming (/repo/meds/maker.py:649-664). -/
def trimN (cfg : MakerCfg) (images : List SrcImageN) (objs : List ObjRow) : Res (List ObjRow) :=
  if cfg.firstImageIsCoadd && cfg.trimToCoadd then do
    let im ← pyGet images 0
    let pbq ← posAndBoundsN cfg objs 0 im
    let w := whereTrue (containsPointsN pbq.2.1 pbq.1)
    if w.length = 0 then .error .assertionError
    else do
      let w' ← take pbq.2.2 w
      take objs w'
  else .ok objs

/-- `_build_meds_layout` (/repo/meds/maker.py:636-771); `images` are the images of the maker. -/
def buildLayoutN (images : List SrcImageN) (mk : Maker) : Res Maker := do
  let objs0 ← trimN mk.cfg images mk.objs
  let half := objs0.map (fun o => o.boxSize / 2)
  let objs1 ← foldRes (layoutFileN mk.cfg half) objs0 (numbered images)
  let objs2 ← resize objs1
  let r ← setStartRows 0 objs2
  if pixelSum objs2 ≠ r.2 then .error .valueError
  else
    match mk.psf with
    | none => .ok { mk with objs := r.1, totalPixels := r.2 }
    | some psf => do
      let q ← setPsfLayout psf 0 r.1
      .ok { mk with objs := q.1, totalPixels := r.2, totalPsfPixels := q.2 }

/-- `MEDSMaker(...)` and `write` (/repo/meds/maker.py:63-90): the file written for a catalogue and images whose WCS may fail. -/
def makeN (cfg : MakerCfg) (hasNumber : Bool) (objs : List InputObj) (images : List SrcImageN)
    (psf : Option (List PsfModel)) (psfInfo : Option String) (metaData : String) : Res Fits := do
  let mk ← init cfg hasNumber objs (images.map (·.im)) psf psfInfo metaData
  let mk' ← buildLayoutN images mk
  mk'.writeData

end Maker
end Meds
