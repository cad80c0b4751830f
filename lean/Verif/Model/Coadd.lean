import Verif.Model.Maker
import Verif.Model.Composite
import Verif.Model.Reject

/-!
# Postage stamp coadds (/repo/meds/coadd.py)

`MEDSCoadder` picks the epochs of an object and coadds them, `MEDSCoaddMaker` writes the coadds to a new MEDS file.  The combination of the stamps (package
`psc`), ngmix observations, the PSF code that a subclass has to provide and the cubic interpolation are parameters; the noise images are in `Model/Noise.lean`.  Plots are not modelled.
-/

namespace Meds.Coadd

/-- The configuration of a `MEDSCoadder` that is read below. -/
structure Cfg where
  rejectOutliers : Bool
  symmetrizeMask : Bool
  maxMaskedFrac : ℚ
  centralCheck : Bool
  centralSize : ℚ
  edgeCheck : Bool
  badFlags : Option Int
  edgeFlags : Option Int

/-- `_set_bad_flags`, `_set_edge_flags` (/repo/meds/coadd.py:413-427): the configured list is added up. -/
def sumFlags (l : Option (List Int)) : Option Int := l.map List.sum

/-- `(bmask & self.bad_flags) != 0` for one pixel, when there are flags. -/
def flagged (flags : Option Int) (v : ℚ) : Bool :=
  match flags with
  | none => false
  | some f => Maker.badBit f v

/-- `numpy.rot90(im)`: element `(i, j)` of the result is `im[j, ncol - 1 - i]`. -/
def rot90 (im : Img ℚ) : Img ℚ := Img.ofFn im.nc im.nr (fun i j => (im.get? j (im.nc - 1 - i)).getD 0)

/-- `_symmetrize_weight` (/repo/meds/coadd.py:633-643); the array is changed in place. -/
def symmetrizeWeight (wt : Img ℚ) : Res (Img ℚ) :=
  if wt.nr ≠ wt.nc then .error .assertionError
  else .ok (Img.zipWith (fun w r => if r = 0 then 0 else w) wt (rot90 wt))

/-- `_symmetrize_bmask` (/repo/meds/coadd.py:645-658): the rotated value replaces the pixel's own. -/
def symmetrizeBmask (flags : Option Int) (bm : Img ℚ) : Res (Img ℚ) :=
  match flags with
  | none => .ok bm
  | some f =>
    if bm.nr ≠ bm.nc then .error .assertionError
    else .ok (Img.zipWith (fun b r => if Maker.badBit f r then r else b) bm (rot90 bm))

/-- `_hits_the_edge` (/repo/meds/coadd.py:604-611). -/
def hitsTheEdge (flags : Option Int) (bm : Img ℚ) : Bool := bm.flat.any (flagged flags)

/-- `wt <= 0.0`, or a bad flag (/repo/meds/coadd.py:614-616, 738-741), pixel by pixel. -/
def badPixels (flags : Option Int) (bm wt : Img ℚ) : Img Bool := Img.zipWith (fun b w => decide (w ≤ 0) || flagged flags b) bm wt

/-- `_get_mask_frac` (/repo/meds/coadd.py:613-631). -/
def maskFrac (flags : Option Int) (bm wt : Img ℚ) : Res ℚ :=
  if bm.flat.length = 0 then .error .zeroDivision
  else .ok (((badPixels flags bm wt).flat.count true : ℚ) / bm.flat.length)

/-- Start or stop of a Python slice of an axis of length `n`: negative values count from the end, and both are clipped. -/
def sliceEnd (n : Nat) (x : Int) : Nat := if x < 0 then (x + n).toNat else min x.toNat n

/-- The rows (and columns) looked at by `_central_region_is_masked` (/repo/meds/coadd.py:663-667), before slicing. -/
def centralRange (nr : Nat) (size : ℚ) : Int × Int :=
  let rad := size / 2
  let cen := ((nr : ℚ) - 1) / 2
  (roundHE (cen - rad), roundHE (cen + rad + 1))

/-- `_central_region_is_masked` (/repo/meds/coadd.py:660-679); `numpy.all` of an empty slice is true. -/
def centralMasked (cfg : Cfg) (bm wt : Img ℚ) : Bool :=
  if cfg.centralCheck then
    let r := centralRange wt.nr cfg.centralSize
    let rows := (List.range wt.nr).filter (fun i => decide (sliceEnd wt.nr r.1 ≤ i ∧ i < sliceEnd wt.nr r.2))
    let cols := (List.range wt.nc).filter (fun i => decide (sliceEnd wt.nc r.1 ≤ i ∧ i < sliceEnd wt.nc r.2))
    ! rows.all (fun i => cols.all (fun j => (badPixels cfg.badFlags bm wt).get? i j == some false))
  else false

/-- `numpy.all(f(im[i, :]))`. -/
def allRow (f : ℚ → Bool) (im : Img ℚ) (i : Nat) : Bool := (List.range im.nc).all (fun j => ((im.get? i j).map f).getD false)

/-- `numpy.all(f(im[:, j]))`. -/
def allCol (f : ℚ → Bool) (im : Img ℚ) (j : Nat) : Bool := (List.range im.nr).all (fun i => ((im.get? i j).map f).getD false)

/-- One of the four sides satisfies `f` throughout (/repo/meds/coadd.py:690-695). -/
def someSide (f : ℚ → Bool) (im : Img ℚ) : Bool :=
  allRow f im 0 || allRow f im (im.nr - 1) || allCol f im 0 || allCol f im (im.nc - 1)

/-- `_ps_edge_pixels_are_masked` (/repo/meds/coadd.py:681-706): without the check `sides_bad` is never assigned.  Stamps without rows raise on `wt[0, :]`; rows without pixels are all zero. -/
def psEdgeMasked (cfg : Cfg) (bm wt : Img ℚ) : Res Bool :=
  if cfg.edgeCheck then
    if wt.nr = 0 then .error .indexError
    else if someSide (fun w => decide (w = 0)) wt then .ok true
    else
      match cfg.badFlags with
      | none => .ok false
      | some f => .ok (someSide (Maker.badBit f) bm)
  else .error .unboundLocal

/-- The tests of one epoch in `_get_obslist` (/repo/meds/coadd.py:511-540): the flag set, zero when the epoch is used. -/
def epochFlag (cfg : Cfg) (bm wt : Img ℚ) : Res Int :=
  if hitsTheEdge cfg.edgeFlags bm then .ok 2
  else do
    let frac ← maskFrac cfg.badFlags bm wt
    if frac > cfg.maxMaskedFrac then .ok 4
    else if centralMasked cfg bm wt then .ok 8
    else do
      let e ← psEdgeMasked cfg bm wt
      if e then .ok 16
      else if wt.flat.all (fun w => decide (w ≤ 0)) then .ok 32
      else .ok 0

/-- An observation handed to the coadding code (/repo/meds/coadd.py:542-600). -/
structure Obs where
  icut : Nat
  image : Img ℚ
  weight : Img ℚ
  bmask : Img ℚ
  seg : Img ℚ
  jac : MEDS.Jac
  rowOffset : ℚ
  colOffset : ℚ
  psf : Img ℚ
  ninterp : Nat

/-- A `CloughTocher2DInterpolator` built on a list of points with values: its value at a point. -/
abbrev Interp := List ((Nat × Nat) × ℚ) → Nat × Nat → ℚ

/-- The value of the interpolator at pixel `k` (/repo/meds/coadd.py:748-755, 792-807).  It is built on the positions and values of the pixels `good` only. -/
def interpAt (interp : Interp) (good : List Nat) (im : Img ℚ) (k : Nat) : ℚ :=
  interp (good.filterMap (fun g => (im.flat[g]?).map (fun v => ((g / im.nc, g % im.nc), v)))) (k / im.nc, k % im.nc)

/-- `_interp_bad_pixels` and `_do_interp` (/repo/meds/coadd.py:717-779, 792-809): new image, new weight, number of bad pixels.  Without any good pixel scipy raises.
The noise image is left out. -/
def interpBadPixels (interp : Interp) (flags : Option Int) (im bm wt : Img ℚ) : Res (Img ℚ × Img ℚ × Nat) :=
  let bad := (badPixels flags bm wt).flat
  if bad.count true = 0 then .ok (im, wt, 0)
  else
    let good := (List.range bad.length).filter (fun k => bad[k]? == some false)
    if good.length = 0 then .error .valueError
    else
      let medwt := Reject.median (good.filterMap (fun k => wt.flat[k]?))
      .ok ({ im with flat := im.flat.mapIdx (fun k v => if bad[k]? = some true then interpAt interp good im k else v) },
           { wt with flat := wt.flat.mapIdx (fun k v => if bad[k]? = some true then medwt else v) }, bad.count true)

/-- External parts of a coadder: the outlier rejection's square root, the PSF code of the subclass (`_get_psf_obs`), the interpolator. -/
structure Ext where
  sqrt : ℚ → ℚ
  nsigma : ℚ
  amp : ℚ
  psfObs : Int → ℚ → ℚ → Res (Img ℚ)
  interp : Interp

/-- The lists of one object after outlier rejection. -/
structure Lists where
  ims : List (Img ℚ)
  wts : List (Img ℚ)
  bms : List (Img ℚ)
  segs : List (Img ℚ)

/-- The loop's variables: observations so far and `imflags`. -/
structure EpochState where
  obs : List Obs
  flags : List Int

/-- Symmetrize weight and mask when configured (/repo/meds/coadd.py:504-506). -/
def symmetrized (cfg : Cfg) (bm wt : Img ℚ) : Res (Img ℚ × Img ℚ) :=
  if cfg.symmetrizeMask then do
    let w ← symmetrizeWeight wt
    let b ← symmetrizeBmask cfg.badFlags bm
    .ok (b, w)
  else .ok (bm, wt)

/-- The observation of an epoch that passed all tests (/repo/meds/coadd.py:542-600). -/
def makeObs (ext : Ext) (cfg : Cfg) (m : MEDS) (iobj : Int) (i : Nat) (s : Slot) (im bm wt seg : Img ℚ) : Res Obs := do
  let jac ← m.getJacobian iobj ((i + 1 : Nat) : Int)
  let psf ← ext.psfObs s.fileId s.origRow s.origCol
  let r ← interpBadPixels ext.interp cfg.badFlags im bm wt
  .ok { icut := i + 1, image := r.1, weight := r.2.1, bmask := bm, seg := seg, jac := jac,
        rowOffset := jac.row0 - ((im.nr : ℚ) - 1) / 2, colOffset := jac.col0 - ((im.nc : ℚ) - 1) / 2, psf := psf, ninterp := r.2.2 }

/-- One turn of the loop of `_get_obslist` (/repo/meds/coadd.py:491-600). -/
def epochStep (ext : Ext) (cfg : Cfg) (m : MEDS) (iobj : Int) (ls : Lists) (st : EpochState) (i : Nat) : Res EpochState := do
  let im ← pyGet ls.ims i
  let wt ← pyGet ls.wts i
  let seg ← pyGet ls.segs i
  let bm ← pyGet ls.bms i
  let s ← m.slot iobj ((i + 1 : Nat) : Int)
  let bw ← symmetrized cfg bm wt
  let flag ← epochFlag cfg bw.1 bw.2
  if flag ≠ 0 then .ok { st with flags := st.flags.set i flag }
  else do
    let o ← makeObs ext cfg m iobj i s im bw.1 bw.2 seg
    .ok { st with obs := st.obs ++ [o] }

/-- `reject_outliers` on the epochs when configured (/repo/meds/coadd.py:472-481). -/
def rejected (ext : Ext) (cfg : Cfg) (ims wts : List (Img ℚ)) : Res (List (Img ℚ)) :=
  if cfg.rejectOutliers then do
    let r ← Reject.rejectOutliers ext.sqrt ext.nsigma ext.amp ims wts
    .ok r.wts
  else .ok wts

/-- `_get_obslist` (/repo/meds/coadd.py:449-602): the observations and `imflags`, which is `None` for an object with only the coadd cutout. -/
def getObslist (ext : Ext) (cfg : Cfg) (m : MEDS) (iobj : Int) : Res (List Obs × Option (List Int)) := do
  let ims ← m.getCutoutList iobj "image"
  if ims.length = 1 then .ok ([], none)
  else do
    let wts ← m.getCutoutList iobj "weight"
    let bms ← m.getCutoutList iobj "bmask"
    let wts' ← rejected ext cfg (ims.drop 1) (wts.drop 1)
    let n := (ims.drop 1).length
    let segs ← mapRes (fun k : Nat => m.interpolateCoaddSeg iobj ((k + 1 : Nat) : Int)) (List.range n)
    let st ← foldRes (epochStep ext cfg m iobj ⟨ims.drop 1, wts', bms.drop 1, segs⟩) ⟨[], List.replicate n 0⟩ (List.range n)
    .ok (st.obs, some st.flags)

/-- What `psc.Coadder(...).get_coadd()` returns. -/
structure Stamp where
  image : Img ℚ
  weight : Img ℚ
  noise : Img ℚ
  psf : Img ℚ
  jac : MEDS.Jac
  psfRow : ℚ
  psfCol : ℚ

/-- A coadd observation with its meta data. -/
structure CoaddObs where
  stamp : Stamp
  bmask : Img ℚ
  ormask : Img ℚ
  seg : Img ℚ
  ncoadd : Int
  imflags : List Int

/-- `ormask |= obs.bmask`, pixel by pixel. -/
def orPixels (a b : Img ℚ) : Img ℚ := Img.zipWith (fun x y => ((Int.lor ⌊x⌋ ⌊y⌋ : Int) : ℚ)) a b

/-- `NO_GOOD_CUTOUTS` (/repo/meds/coadd.py:28). -/
def NO_GOOD_CUTOUTS : Int := 1

/-- `get_coadd_obs` (/repo/meds/coadd.py:350-391); `combine` is `psc`, `jmatrix` the target jacobian. -/
def getCoaddObs (ext : Ext) (cfg : Cfg) (combine : List Obs → Stamp) (jmatrix : MEDS.Mat2) (m : MEDS) (iobj : Int) : Res (Option CoaddObs × Int) := do
  let r ← getObslist ext cfg m iobj
  match r.1 with
  | [] => .ok (none, NO_GOOD_CUTOUTS)
  | o :: os => do
    let zero := o.bmask.map (fun _ => 0)
    let seg ← m.interpolateImage iobj jmatrix none
    .ok (some { stamp := combine (o :: os), bmask := zero, ormask := (o :: os).foldl (fun a x => orPixels a x.bmask) zero, seg := seg,
                ncoadd := (o :: os).length, imflags := r.2.getD [] }, 0)

/-- `_set_target_jacobian` and `_get_jacobian_matrix` (/repo/meds/coadd.py:397-404, 429-447): the medians over all objects with more than one cutout of the
jacobians at epoch 1.  The median of nothing is NaN, which is not modelled. -/
def targetJacobian (m : MEDS) : Res MEDS.Mat2 := do
  let ss ← mapRes (fun o : ObjRow => pyGet o.slots 1) (m.cat.rows.filter (fun o => decide (o.ncutout > 1)))
  if ss.length = 0 then .error .unmodelled
  else .ok ⟨Reject.median (ss.map (·.dudrow)), Reject.median (ss.map (·.dudcol)), Reject.median (ss.map (·.dvdrow)), Reject.median (ss.map (·.dvdcol))⟩

/-- A new coadder (/repo/meds/coadd.py:331-342) asked for one object; `psc.Coadder` gets the target jacobian. -/
def coaddObject (ext : Ext) (cfg : Cfg) (psc : MEDS.Mat2 → List Obs → Stamp) (m : MEDS) (iobj : Int) : Res (Option CoaddObs × Int) := do
  let j ← targetJacobian m
  getCoaddObs ext cfg (psc j) j m iobj

/-! ### The configuration (C48) -/

/-- A Python dictionary with string keys, as far as `get` and `pop` see it. -/
abbrev Dict := List (String × String)

/-- The value of a key. -/
def Dict.find (d : Dict) (k : String) : Option String := (List.find? (fun p => p.1 == k) d).map Prod.snd

/-- `d.pop(k, default)`: the value and the dictionary afterwards. -/
def Dict.pop (d : Dict) (k dflt : String) : String × Dict := ((d.find k).getD dflt, List.filter (fun p => p.1 != k) d)

/-- The caller's configuration: its `coadd` entry, a dictionary of its own. -/
structure Config where
  coadd : Option Dict
deriving DecidableEq

/-- `_set_config` (/repo/meds/coadd.py:406-411).  `update` copies the reference to the caller's `coadd` dictionary, so the `pop` changes the caller's.
Returns the caller's configuration afterwards, and `dither_psfs` and `coadd` as the new object has them. -/
def setConfig (c : Config) : Config × String × Dict :=
  match c.coadd with
  | none => (c, "True", [])
  | some d =>
    let r := d.pop "dither_psfs" "True"
    (⟨some r.2⟩, r.1, r.2)

/-! ### The file maker -/

/-- A catalogue row of the output: the standard columns, and the extra ones (/repo/meds/coadd.py:219-229). -/
structure CRow where
  row : ObjRow
  origNcutout : Int
  origFlags : List Int
  ncoadd : Int
  coaddFlags : Int
deriving DecidableEq

/-- One row of `_set_obj_data` (/repo/meds/coadd.py:230-260), before anything is coadded. -/
def newRow (nmaxOrig : Nat) (o : ObjRow) : Res CRow := do
  let s ← pyGet o.slots 0
  let empty := { Slot.dflt with fileId := 0 }
  .ok { row := { id := o.id, boxSize := o.boxSize, sky := { o.sky with color := none, psfColor := none }, ncutout := 0, number := o.number,
                 psfRowSize1 := DEFVAL, psfColSize1 := DEFVAL, psfBoxSize1 := DEFVAL, extra := "",
                 slots := [{ empty with origRow := s.origRow, origCol := s.origCol, origStartRow := s.origStartRow, origStartCol := s.origStartCol }, empty] }
        origNcutout := o.ncutout - 1, origFlags := List.replicate nmaxOrig DEFVAL, ncoadd := 0, coaddFlags := 0 }

/-- `_set_obj_data` (/repo/meds/coadd.py:214-260). -/
def setObjData (m : MEDS) : Res (List CRow) := do
  let mx ← Maker.maxNcutout m.cat.rows
  if m.cat.dtype.hasNumber then mapRes (newRow (max (mx - 1) 2).toNat) m.cat.rows else .error .valueError

/-- `_load_config` (/repo/meds/coadd.py:91-96): `ormask` and `noise` are always written. -/
def loadTypes (requested : List String) : Res (List String) := do
  let ts ← Maker.setCutoutTypes requested
  .ok (["ormask", "noise"].foldl (fun l t => if t ∈ l then l else l ++ [t]) ts)

/-- `_get_cutout_hdu` (/repo/meds/maker.py:514-523). -/
def hduName (t : String) : String := if t = "psf" then "psf" else t ++ "_cutouts"

/-- The data of `_write_cutout` (/repo/meds/coadd.py:189-209). -/
def plane (o : CoaddObs) (t : String) : Res (Img ℚ) :=
  if t = "psf" then .ok o.stamp.psf
  else if t = "image" then .ok o.stamp.image
  else if t = "weight" then .ok o.stamp.weight
  else if t = "seg" then .ok o.seg
  else if t = "bmask" then .ok o.bmask
  else if t = "ormask" then .ok o.ormask
  else if t = "noise" then .ok o.stamp.noise
  else .error .valueError

/-- The loop's variables and the file. -/
structure WState where
  rows : List CRow
  hdus : List (String × Hdu)
  lastRowStart : Int
  lastSize : Int
  lastPsfRowStart : Int
  lastPsfSize : Int

/-- `_write_cutout` (/repo/meds/coadd.py:186-212); `cast` is the conversion to the stored type. -/
def writeCutout (cast : String → ℚ → ℚ) (obs : CoaddObs) (start psfStart : Int) (h : List (String × Hdu)) (t : String) : Res (List (String × Hdu)) := do
  let p ← plane obs t
  modifyImage (hduName t) (fun buf => overwrite buf (if t = "psf" then psfStart else start) (p.flat.map (cast t))) h

/-- The catalogue entries of a coadded object (/repo/meds/coadd.py:144-168, 184). -/
def fillRow (c : CRow) (obs : CoaddObs) (flags start psfStart : Int) : CRow :=
  { c with
    row := { c.row with
      ncutout := 1, psfBoxSize1 := obs.stamp.psf.nr,
      slots := c.row.slots.modify 0 (fun s =>
        { s with startRow := start, psfStartRow := psfStart, cutoutRow := obs.stamp.jac.row0, cutoutCol := obs.stamp.jac.col0,
                 dudrow := obs.stamp.jac.dudrow, dudcol := obs.stamp.jac.dudcol, dvdrow := obs.stamp.jac.dvdrow, dvdcol := obs.stamp.jac.dvdcol,
                 psfCutoutRow := obs.stamp.psfRow, psfCutoutCol := obs.stamp.psfCol }) }
    origFlags := obs.imflags ++ c.origFlags.drop obs.imflags.length, ncoadd := obs.ncoadd, coaddFlags := flags }

/-- `_write_object_cutouts` (/repo/meds/coadd.py:137-184). -/
def writeObject (types : List String) (cast : String → ℚ → ℚ) (coadder : Nat → Res (Option CoaddObs × Int)) (st : WState) (iobj : Nat) : Res WState := do
  let r ← coadder iobj
  let c ← pyGet st.rows iobj
  match r.1 with
  | none => .ok { st with rows := st.rows.set iobj { c with coaddFlags := r.2 } }
  | some obs =>
    if c.row.boxSize ≠ obs.stamp.image.nr then .error .assertionError
    else if c.origFlags.length < obs.imflags.length then .error .valueError
    else do
      let start := st.lastRowStart + st.lastSize
      let psfStart := st.lastPsfRowStart + st.lastPsfSize
      let h ← foldRes (writeCutout cast obs start psfStart) st.hdus (types ++ ["psf"])
      .ok { rows := st.rows.set iobj (fillRow c obs r.2 start psfStart), hdus := h, lastRowStart := start, lastSize := c.row.boxSize * c.row.boxSize,
            lastPsfRowStart := psfStart, lastPsfSize := (obs.stamp.psf.nr : Int) * obs.stamp.psf.nr }

/-- A `MEDSCoaddMaker` of a subclass that reserves `psfPixels` for the PSFs (the base class' `_set_psf_layout` only raises, /repo/meds/coadd.py:262-277). -/
structure CMaker where
  types : List String
  cast : String → ℚ → ℚ
  coadder : Nat → Res (Option CoaddObs × Int)
  rows : List CRow
  totalPixels : Int
  psfPixels : Int
  info : List InfoRow
  metaData : String

/-- `__init__` (/repo/meds/coadd.py:69-89).  `_set_meta` is left to the caller. -/
def CMaker.init (requested : List String) (cast : String → ℚ → ℚ) (coadder : Nat → Res (Option CoaddObs × Int)) (psfPixels : Int) (metaData : String)
    (m : MEDS) : Res CMaker := do
  let types ← loadTypes requested
  let rows ← setObjData m
  .ok { types := types, cast := cast, coadder := coadder, rows := rows, totalPixels := (m.cat.rows.map (fun o => o.boxSize * o.boxSize)).sum,
        psfPixels := psfPixels, info := m.info.take 1, metaData := metaData }

/-- The extensions before the cutouts are written (/repo/meds/coadd.py:104-109, /repo/meds/maker.py:159-209). -/
def CMaker.reserved (k : CMaker) : List (String × Hdu) :=
  [("image_info", .info k.info), ("metadata", .metadata k.metaData)] ++
    (k.types.map (fun t => (t ++ "_cutouts", Hdu.image (List.replicate k.totalPixels.toNat 0))) ++ [("psf", Hdu.image (List.replicate k.psfPixels.toNat 0))])

/-- `_write_cutouts` (/repo/meds/coadd.py:119-135) for `obj_range = [lo, hi]`. -/
def CMaker.writeCutouts (k : CMaker) (lo hi : Nat) : Res WState :=
  foldRes (writeObject k.types k.cast k.coadder) ⟨k.rows, k.reserved, 0, 0, 0, 0⟩ (List.range' lo (hi - lo))

/-- The dtype of the output catalogue: `number`, and `psf_box_size` per object. -/
def outDtype : CatDtype := ⟨true, .absent, .perObj⟩

/-- `write` (/repo/meds/coadd.py:98-117, `fits.write` of the catalogue last): the maker afterwards, whose catalogue has been filled in, and the file. -/
def CMaker.write (k : CMaker) (lo hi : Nat) : Res (CMaker × Fits) := do
  let st ← k.writeCutouts lo hi
  .ok ({ k with rows := st.rows }, ⟨st.hdus ++ [("object_data", .objects ⟨outDtype, st.rows.map (·.row)⟩)]⟩)

end Meds.Coadd
