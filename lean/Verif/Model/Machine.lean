import Verif.Model.Maker
import Verif.Model.Uberseg

/-!
# The layout in machine arithmetic (/repo/meds/maker.py:636-902)

`Model/Maker.lean` computes with exact numbers.  Here the same steps with the types of the arrays: positions, limits and centres are doubles (`f8`), corners
and counts 64-bit integers (`i8`, /repo/meds/util.py:178-202), the integer part of a position a 32-bit one (`i4`, /repo/meds/maker.py:721-722).  Left out:
overflow and underflow of doubles.
-/

namespace Meds

/-- Round to a double, nearest, halves to even. -/
def rndD (q : ℚ) : ℚ := if 0 ≤ q then Uberseg.rnd 53 q else -Uberseg.rnd 53 (-q)

/-- The 64-bit integer that is left of an integer (two's complement). -/
def wrap64 (k : Int) : Int := (k + 2 ^ 63) % 2 ^ 64 - 2 ^ 63

/-- `astype("i4")` of a double; what does not fit becomes the least integer. -/
def toI4 (q : ℚ) : Int := if -2 ^ 31 ≤ truncZ q ∧ truncZ q < 2 ^ 31 then truncZ q else -2 ^ 31

namespace Maker

/-- `_get_image_bounds` (/repo/meds/maker.py:1130-1147) and `make_wcs_positions` (/repo/meds/util.py:335-336) in doubles. -/
def imageBoundsM (im : SrcImage) : Bounds :=
  { rowmin := rndD (1 - im.info.positionOffset), rowmax := rndD (im.wcs.nrow - im.info.positionOffset),
    colmin := rndD (1 - im.info.positionOffset), colmax := rndD (im.wcs.ncol - im.info.positionOffset) }

/-- The bounds of `_get_pos_and_bounds` (/repo/meds/maker.py:818-827) in doubles. -/
def fileBoundsM (cfg : MakerCfg) (fileId : Nat) (im : SrcImage) : Bounds :=
  let b := imageBoundsM im
  if fileId = 0 ∧ cfg.firstImageIsCoadd = true then
    { rowmin := rndD (b.rowmin - cfg.coaddBuffer), rowmax := rndD (b.rowmax + cfg.coaddBuffer),
      colmin := rndD (b.colmin - cfg.coaddBuffer), colmax := rndD (b.colmax + cfg.coaddBuffer) }
  else b

/-- The position of an object (/repo/meds/maker.py:809-816, 1051-1055, /repo/meds/util.py:332-336) in doubles. -/
def objPosM (im : SrcImage) (o : ObjRow) : Pos :=
  let cr := im.wcs.sky2image o.sky
  { wcsRow := cr.2, wcsCol := cr.1, zrow := rndD (cr.2 - im.info.positionOffset), zcol := rndD (cr.1 - im.info.positionOffset) }

/-- The rough cut and `contains_points` (/repo/meds/maker.py:671-677). -/
def acceptedM (cfg : MakerCfg) (fileId : Nat) (im : SrcImage) (o : ObjRow) : Bool :=
  im.wcs.rough o.sky && (fileBoundsM cfg fileId im).containsPoint (objPosM im o).zrow (objPosM im o).zcol

/-- The position recorded (/repo/meds/maker.py:684-690, 846-853). -/
def finalPosM (cfg : MakerCfg) (fileId : Nat) (im : SrcImage) (o : ObjRow) : Pos :=
  if forces cfg fileId then clipPos (fileBoundsM cfg fileId im) (objPosM im o) else objPosM im o

/-- The slot of a new epoch (/repo/meds/maker.py:714-751): the corner in 64-bit integers, the centre a difference of doubles. -/
def newSlotM (fileId : Nat) (im : SrcImage) (p : Pos) (o : ObjRow) (old : Slot) : Slot :=
  let half := o.boxSize / 2
  let ostartRow := wrap64 (wrap64 (toI4 p.zrow - half) + 1)
  let ostartCol := wrap64 (wrap64 (toI4 p.zcol - half) + 1)
  let jac := im.wcs.jacobian o.sky p.wcsCol p.wcsRow
  { old with
    fileId := fileId, origRow := p.zrow, origCol := p.zcol,
    origStartRow := ostartRow, origStartCol := ostartCol,
    cutoutRow := rndD (p.zrow - rndD ostartRow), cutoutCol := rndD (p.zcol - rndD ostartCol),
    dudcol := jac.1, dudrow := jac.2.1, dvdcol := jac.2.2.1, dvdrow := jac.2.2.2 }

/-- One more epoch for an accepted object (/repo/meds/maker.py:714-754). -/
def addEpochM (cfg : MakerCfg) (fileId : Nat) (im : SrcImage) (o : ObjRow) : Res ObjRow := do
  let k ← pyIndex o.slots.length o.ncutout
  let old ← pyGet o.slots o.ncutout
  let p := finalPosM cfg fileId im o
  .ok { o with slots := o.slots.set k (newSlotM fileId im p o old), ncutout := o.ncutout + 1 }

/-- The checks of `_force_into_coadd_bounds` (/repo/meds/maker.py:831-875). -/
def forceCheckM (cfg : MakerCfg) (fileId : Nat) (im : SrcImage) (objs : List ObjRow) : Res Unit :=
  if forces cfg fileId then
    let q := objs.filter (acceptedM cfg fileId im)
    if q.length = 0 then .error .valueError
    else
      let b := fileBoundsM cfg fileId im
      if q.all (fun o => b.containsPoint (clipPos b (objPosM im o)).zrow (clipPos b (objPosM im o)).zcol)
      then .ok () else .error .creationError
  else .ok ()

/-- One pass of the loop over the images (/repo/meds/maker.py:669-754). -/
def layoutFileM (cfg : MakerCfg) (objs : List ObjRow) (fi : Nat × SrcImage) : Res (List ObjRow) := do
  let fileId := fi.1
  let im := fi.2
  forceCheckM cfg fileId im objs
  if cfg.firstImageIsCoadd && cfg.checkInCoadd && fileId == 0
      && objs.length != (objs.filter (acceptedM cfg fileId im)).length then .error .creationError
  else
    mapRes (fun o => if acceptedM cfg fileId im o then addEpochM cfg fileId im o else .ok o) objs

/-- The trimming (/repo/meds/maker.py:649-664). -/
def trimM (cfg : MakerCfg) (images : List SrcImage) (objs : List ObjRow) : Res (List ObjRow) :=
  if cfg.firstImageIsCoadd && cfg.trimToCoadd then
    match images with
    | [] => .error .indexError
    | im :: _ =>
      let kept := objs.filter (acceptedM cfg 0 im)
      if kept.length = 0 then .error .assertionError else .ok kept
  else .ok objs

/-- The start rows of an object (/repo/meds/maker.py:899-902) in 64-bit integers. -/
def setStartsM (np : Int) : Nat → Int → List Slot → Res (List Slot × Int)
  | 0, cur, ss => .ok (ss, cur)
  | _ + 1, _, [] => .error .indexError
  | n + 1, cur, s :: ss => do
    let r ← setStartsM np n (wrap64 (cur + np)) ss
    .ok ({ s with startRow := cur } :: r.1, r.2)

/-- The start rows of all objects (/repo/meds/maker.py:891-902); `npix` goes along with `current_row`. -/
def setStartRowsM : Int → List ObjRow → Res (List ObjRow × Int)
  | cur, [] => .ok ([], cur)
  | cur, o :: os => do
    let r ← setStartsM (wrap64 (o.boxSize * o.boxSize)) o.ncutout.toNat cur o.slots
    let rest ← setStartRowsM r.2 os
    .ok ({ o with slots := r.1 } :: rest.1, rest.2)

/-- `(data["ncutout"] * data["box_size"]**2).sum()` (/repo/meds/maker.py:888) in 64-bit integers. -/
def pixelSumM (objs : List ObjRow) : Int :=
  objs.foldl (fun acc o => wrap64 (acc + wrap64 (o.ncutout * wrap64 (o.boxSize * o.boxSize)))) 0

/-- `_build_meds_layout` (/repo/meds/maker.py:636-771).  The PSF layout counts with Python integers. -/
def buildLayoutM (mk : Maker) : Res Maker := do
  let objs0 ← trimM mk.cfg mk.images mk.objs
  let objs1 ← foldRes (layoutFileM mk.cfg) objs0 (numbered mk.images)
  let objs2 ← resize objs1
  let r ← setStartRowsM 0 objs2
  if pixelSumM objs2 ≠ r.2 then .error .valueError
  else
    match mk.psf with
    | none => .ok { mk with objs := r.1, totalPixels := r.2 }
    | some psf => do
      let q ← setPsfLayout psf 0 r.1
      .ok { mk with objs := q.1, totalPixels := r.2, totalPsfPixels := q.2 }

/-- `write` (/repo/meds/maker.py:85-90). -/
def writeM (mk : Maker) : Res (Maker × Fits) := do
  let mk' ← mk.buildLayoutM
  let f ← mk'.writeData
  .ok (mk', f)

end Maker
end Meds
