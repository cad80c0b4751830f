import Verif.Model.Joblib

/-!
# The layout as the code computes it: whole columns at a time (/repo/meds/maker.py:636-829)

`Model/Maker.lean` goes object by object.  The code works with numpy arrays: index arrays from `numpy.where`, positions of the objects that pass the first cut
only, composed index arrays, and assignments through index arrays.  This file follows the code; `Props/Vector.lean` shows that both give the same catalogue.
-/

namespace Meds
namespace Vec

/-- `(q,) = numpy.where(mask)`: the indices of the true entries, in order. -/
def whereTrue (mask : List Bool) : List Nat := (List.range mask.length).filter (fun i => mask[i]? == some true)

/-- `a[q]` for an index array. -/
def take {α : Type} (a : List α) (q : List Nat) : Res (List α) := mapRes (fun i : Nat => pyGet a (i : Int)) q

/-- `a["field"][q] = v` for an array of records; `f` sets the field. -/
def putField {α β : Type} (f : α → β → α) : List α → List Nat → List β → Res (List α)
  | a, [], [] => .ok a
  | a, i :: q, x :: v =>
    match a[i]? with
    | some r => putField f (a.set i (f r x)) q v
    | none => .error .indexError
  | _, _, _ => .error .valueError

/-- `obj_data["field"][q, icut] = v` for a per-epoch column; `f` sets the field of the entry. -/
def put2 {β : Type} (f : Slot → β → Slot) : List ObjRow → List Nat → List Int → List β → Res (List ObjRow)
  | objs, [], [], [] => .ok objs
  | objs, i :: q, k :: icut, x :: v =>
    match objs[i]? with
    | some o => do
      let j ← pyIndex o.slots.length k
      let old ← pyGet o.slots k
      put2 f (objs.set i { o with slots := o.slots.set j (f old x) }) q icut v
    | none => .error .indexError
  | _, _, _, _ => .error .valueError

end Vec

namespace Maker
open Vec

/-- `_get_pos_and_bounds` (/repo/meds/maker.py:782-829): positions of the objects that pass the rough cut, bounds, and the indices of those objects. -/
def posAndBoundsV (useJoblib : Bool) (nJobs : Nat) (cfg : MakerCfg) (objs : List ObjRow) (fileId : Nat) (im : SrcImage) :
    Res (List Pos × Bounds × List Nat) := do
  let q := whereTrue (objs.map (fun o => im.wcs.rough o.sky))
  let sky ← take (objs.map (·.sky)) q
  let colrow ← doSky2image useJoblib nJobs (List.map im.wcs.sky2image) sky
  let pos := colrow.map (fun cr => makeWcsPosition cr.2 cr.1 im.info.positionOffset false)
  .ok (pos, fileBounds cfg fileId im, q)

/-- `bnds.contains_points(pos["zrow"], pos["zcol"])` (/repo/meds/bounds.py:27-39). -/
def containsPoints (b : Bounds) (pos : List Pos) : List Bool := pos.map (fun p => b.containsPoint p.zrow p.zcol)

/-- `_force_into_coadd_bounds` (/repo/meds/maker.py:831-875): the positions after clipping those at `q_rc`.  The printed `min` of an empty array raises. -/
def forceIntoV (qrc : List Nat) (pos : List Pos) (b : Bounds) : Res (List Pos) := do
  let z ← take pos qrc
  if z.length = 0 then .error .valueError
  else do
    let rn := z.map (fun p => clipQ p.zrow b.rowmin b.rowmax)
    let cn := z.map (fun p => clipQ p.zcol b.colmin b.colmax)
    let pos1 ← putField (fun p x => { p with zrow := x }) pos qrc rn
    let pos2 ← putField (fun p x => { p with zcol := x }) pos1 qrc cn
    let z' ← take pos2 qrc
    if (containsPoints b z').all id then .ok pos2 else .error .creationError

/-- The assignments of one pass of the per-file loop (/repo/meds/maker.py:709-754): `q` are the accepted objects, `z` their positions, `half` is `half_box_size`. -/
def fillV (fileId : Nat) (im : SrcImage) (half : List Int) (objs : List ObjRow) (q : List Nat) (z : List Pos) : Res (List ObjRow) := do
  let qrow := z.map (·.zrow)
  let qcol := z.map (·.zcol)
  let icut ← take (objs.map (·.ncutout)) q
  let o1 ← put2 (fun s x => { s with fileId := x }) objs q icut (q.map (fun _ => (fileId : Int)))
  let o2 ← put2 (fun s x => { s with origRow := x }) o1 q icut qrow
  let o3 ← put2 (fun s x => { s with origCol := x }) o2 q icut qcol
  let h ← take half q
  let ostartRow := List.zipWith (fun (r : ℚ) (b : Int) => truncZ r - b + 1) qrow h
  let ostartCol := List.zipWith (fun (c : ℚ) (b : Int) => truncZ c - b + 1) qcol h
  let crow := List.zipWith (fun (r : ℚ) (s : Int) => r - s) qrow ostartRow
  let ccol := List.zipWith (fun (c : ℚ) (s : Int) => c - s) qcol ostartCol
  let o4 ← put2 (fun s x => { s with origStartRow := x }) o3 q icut ostartRow
  let o5 ← put2 (fun s x => { s with origStartCol := x }) o4 q icut ostartCol
  let o6 ← put2 (fun s x => { s with cutoutRow := x }) o5 q icut crow
  let o7 ← put2 (fun s x => { s with cutoutCol := x }) o6 q icut ccol
  let colors ← take (o7.map (·.sky)) q
  let jacob := List.zipWith (fun (p : Pos) (c : SkyPos) => im.wcs.jacobian c p.wcsCol p.wcsRow) z colors
  let o8 ← put2 (fun s x => { s with dudcol := x }) o7 q icut (jacob.map (·.1))
  let o9 ← put2 (fun s x => { s with dudrow := x }) o8 q icut (jacob.map (·.2.1))
  let o10 ← put2 (fun s x => { s with dvdcol := x }) o9 q icut (jacob.map (·.2.2.1))
  let o11 ← put2 (fun s x => { s with dvdrow := x }) o10 q icut (jacob.map (·.2.2.2))
  let n ← take (o11.map (·.ncutout)) q
  putField (fun o x => { o with ncutout := x }) o11 q (n.map (· + 1))

/-- One pass of the per-file loop of `_build_meds_layout` (/repo/meds/maker.py:669-754), array by array. -/
def layoutFileV (useJoblib : Bool) (nJobs : Nat) (cfg : MakerCfg) (half : List Int) (objs : List ObjRow) (fi : Nat × SrcImage) : Res (List ObjRow) := do
  let fileId := fi.1
  let im := fi.2
  let pbq ← posAndBoundsV useJoblib nJobs cfg objs fileId im
  let bnds := pbq.2.1
  let qrc := whereTrue (containsPoints bnds pbq.1)
  let pos ← (if cfg.firstImageIsCoadd && fileId == 0 && cfg.forceIntoCoaddBounds then forceIntoV qrc pbq.1 bnds else .ok pbq.1)
  if cfg.firstImageIsCoadd && cfg.checkInCoadd && fileId == 0 && objs.length != qrc.length then .error .creationError
  else do
    let q ← take pbq.2.2 qrc
    let z ← take pos qrc
    fillV fileId im half objs q z

/-- The optional trimming (/repo/meds/maker.py:649-664). -/
def trimV (useJoblib : Bool) (nJobs : Nat) (cfg : MakerCfg) (images : List SrcImage) (objs : List ObjRow) : Res (List ObjRow) :=
  if cfg.firstImageIsCoadd && cfg.trimToCoadd then do
    let im ← pyGet images 0
    let pbq ← posAndBoundsV useJoblib nJobs cfg objs 0 im
    let w := whereTrue (containsPoints pbq.2.1 pbq.1)
    if w.length = 0 then .error .assertionError
    else do
      let w' ← take pbq.2.2 w
      take objs w'
  else .ok objs

/-- `_build_meds_layout` (/repo/meds/maker.py:636-771).  `half_box_size` is computed once, before the loop (667). -/
def buildLayoutV (useJoblib : Bool) (nJobs : Nat) (mk : Maker) : Res Maker := do
  let objs0 ← trimV useJoblib nJobs mk.cfg mk.images mk.objs
  let half := objs0.map (fun o => o.boxSize / 2)
  let objs1 ← foldRes (layoutFileV useJoblib nJobs mk.cfg half) objs0 (numbered mk.images)
  let objs2 ← resize objs1
  let r ← setStartRows 0 objs2
  if pixelSum objs2 ≠ r.2 then .error .valueError
  else
    match mk.psf with
    | none => .ok { mk with objs := r.1, totalPixels := r.2 }
    | some psf => do
      let q ← setPsfLayout psf 0 r.1
      .ok { mk with objs := q.1, totalPixels := r.2, totalPsfPixels := q.2 }

/-- `_write_data` (/repo/meds/maker.py:92-132) with either PSF writer (449-459). -/
def writeDataV (useJoblib : Bool) (mk : Maker) : Res Fits := do
  let h0 := mk.tableHdus ++ mk.reservedHdus
  let h1 ← foldRes (fun h t => modifyImage (t ++ "_cutouts") (mk.writeCutouts t) h) h0 mk.types
  let h2 ← (match mk.psf with
            | some psf => modifyImage "psf" (if useJoblib then writePsfJoblib 2000 mk psf else mk.writePsfSerial psf) h1
            | none => .ok h1)
  .ok ⟨h2 ++ mk.psfInfoHdus⟩

/-- `write` (/repo/meds/maker.py:85-90) as the code does it, with or without joblib. -/
def writeV (useJoblib : Bool) (nJobs : Nat) (mk : Maker) : Res (Maker × Fits) := do
  let mk' ← mk.buildLayoutV useJoblib nJobs
  let f ← mk'.writeDataV useJoblib
  .ok (mk', f)

end Maker
end Meds
