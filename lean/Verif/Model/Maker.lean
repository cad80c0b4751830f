import Verif.Model.Reader
import Verif.Model.Bounds
import Mathlib.Data.Int.Bitwise

/-!
# The file maker, class `MEDSMaker` (/repo/meds/maker.py)

External objects are parameters: the WCS, the PSF models, the numpy cast to the stored dtype.
-/

namespace Meds

/-- The WCS of an image (esutil WCS or PSF-provided).  `sky2image` returns `(col, row)` in the WCS convention; `jacobian x y` returns
`(dudcol, dudrow, dvdcol, dvdrow)` (/repo/meds/maker.py:748-751).  Both may use the object's colour (`_wcs_uses_color`,
/repo/meds/maker.py:630-634), which is part of `SkyPos`.  `rough` is the outcome of the rough sky cut (/repo/meds/maker.py:1058-1069)
for an object; its geometry is modelled separately. -/
structure Wcs where
  ncol : Nat
  nrow : Nat
  sky2image : SkyPos → ℚ × ℚ
  jacobian : SkyPos → ℚ → ℚ → ℚ × ℚ × ℚ × ℚ
  rough : SkyPos → Bool

/-- One input image: WCS, `image_info` entry and the pixel data of every plane.  `plane t` is `none` when `image_info` has no `<t>_path` column,
`some none` when the path is empty or "none" and `some (some im)` when there is an image (/repo/meds/maker.py:598-618). -/
structure SrcImage where
  wcs : Wcs
  info : InfoRow
  plane : String → Option (Option (Img ℚ))

/-- A PSF model object: `get_rec`, optionally `get_rec_shape`, `get_center` (/repo/meds/maker.py:1283-1298, 436-439). -/
structure PsfModel where
  getRec : SkyPos → ℚ → ℚ → Img ℚ
  recShape : Option (SkyPos → ℚ → ℚ → Nat × Nat)
  center : ℚ → ℚ → ℚ × ℚ

/-- Configuration (/repo/meds/defaults.py:15-50 and the optional keys read in maker.py).  `cast t` is the conversion of a pixel to the stored
dtype of plane `t` (`<t>_dtype`); it is an arbitrary function. -/
structure MakerCfg where
  firstImageIsCoadd : Bool
  checkInCoadd : Bool
  forceIntoCoaddBounds : Bool
  trimToCoadd : Bool
  coaddBuffer : ℚ
  ncutoutMax : Option Int
  cutoutTypes : List String
  unusableBmask : Option Int
  minWeightKey : Bool
  cast : String → ℚ → ℚ

/-- `SUPPORTED_CUTOUT_TYPES` (/repo/meds/maker.py:29-36). -/
def supportedTypes : List String := ["image", "weight", "seg", "bmask", "ormask", "noise"]

/-- `default_values` (/repo/meds/defaults.py:3-13); a missing key is a KeyError. -/
def defaultValue (t : String) : Res ℚ :=
  if t = "image" then .ok 0
  else if t = "weight" then .ok 0
  else if t = "seg" then .ok 0
  else if t = "bmask" then .ok (2 ^ 30)
  else .error .keyError

/-- The state of a `MEDSMaker` object. -/
structure Maker where
  cfg : MakerCfg
  types : List String
  images : List SrcImage
  psf : Option (List PsfModel)
  metaData : String
  psfInfo : Option String
  dtype : CatDtype
  objs : List ObjRow
  totalPixels : Int
  totalPsfPixels : Int

namespace Maker

/-- `_set_cutout_types` (/repo/meds/maker.py:1161-1179). `list.remove` deletes the first occurrence only. -/
def setCutoutTypes (requested : List String) : Res (List String) :=
  let rest := if "image" ∈ requested then requested.erase "image" else requested
  let types := "image" :: rest
  let bad := types.filter (fun t => !(supportedTypes.contains t))
  if bad.length ≠ 0 then .error .valueError else .ok types

/-- `_force_box_sizes_even` (/repo/meds/maker.py:1149-1159), per object. -/
def forceEven (o : ObjRow) : ObjRow :=
  if o.boxSize % 2 ≠ 0 then { o with boxSize := o.boxSize + 1 } else o

/-- An input catalogue entry (/repo/meds/util.py:145-164): the required columns plus optional `number`, colours and user columns.
Simplification: the input has none of the output-only columns (`ncutout`, `file_id`, ...), which `copy_fields` would otherwise copy. -/
structure InputObj where
  id : Int
  boxSize : Int
  sky : SkyPos
  number : Int
  extra : String
  deriving DecidableEq, Repr

/-- `nmax` of `_get_full_obj_data` (/repo/meds/maker.py:1336-1343). -/
def initialNmax (cfg : MakerCfg) (nimage : Nat) : Nat :=
  let n : Int := match cfg.ncutoutMax with
    | some n => n
    | none => nimage
  if n < 2 then 2 else n.toNat

/-- `_get_full_obj_data` (/repo/meds/maker.py:1329-1355), per object: default values everywhere, then the common fields copied. -/
def fullRow (nmax : Nat) (o : InputObj) : ObjRow :=
  { id := o.id, boxSize := o.boxSize, sky := o.sky, ncutout := 0, number := o.number,
    psfRowSize1 := DEFVAL, psfColSize1 := DEFVAL, psfBoxSize1 := DEFVAL, extra := o.extra,
    slots := List.replicate nmax Slot.dflt }

/-- The length test of `_set_psf_data` (/repo/meds/maker.py:1238): true when it raises. -/
def psfLengthBad (psf : Option (List PsfModel)) (nimage : Nat) : Bool :=
  match psf with
  | some p => p.length != nimage
  | none => false

/-- The rank of the PSF size columns: present per epoch exactly when PSF data are given (/repo/meds/maker.py:1374-1391). -/
def psfKind (psf : Option (List PsfModel)) : ColKind :=
  match psf with
  | some _ => .perEpoch
  | none => .absent

/-- `MEDSMaker.__init__` (/repo/meds/maker.py:63-83): config, PSF length check (1232-1246), full catalogue, even boxes.
Simplification: required columns are assumed present and `psf` configured when PSF data are given. -/
def init (cfg : MakerCfg) (hasNumber : Bool) (objs : List InputObj) (images : List SrcImage)
    (psf : Option (List PsfModel)) (psfInfo : Option String) (metaData : String) : Res Maker := do
  let types ← setCutoutTypes cfg.cutoutTypes
  if psfLengthBad psf images.length then .error .valueError
  else
    let nmax := initialNmax cfg images.length
    .ok { cfg := cfg, types := types, images := images, psf := psf, metaData := metaData,
          psfInfo := psfInfo,
          dtype := { hasNumber := hasNumber, psfBox := .absent, psfRowCol := psfKind psf },
          objs := (objs.map (fullRow nmax)).map forceEven,
          totalPixels := 0, totalPsfPixels := 0 }

/-- `_get_image_bounds` (/repo/meds/maker.py:1130-1147). -/
def imageBounds (im : SrcImage) : Bounds :=
  let p0 := makeWcsPosition 1 1 im.info.positionOffset false
  let p1 := makeWcsPosition im.wcs.nrow im.wcs.ncol im.info.positionOffset false
  { rowmin := p0.zrow, rowmax := p1.zrow, colmin := p0.zcol, colmax := p1.zcol }

/-- The bounds part of `_get_pos_and_bounds` (/repo/meds/maker.py:818-827): the buffer is added for the coadd. -/
def fileBounds (cfg : MakerCfg) (fileId : Nat) (im : SrcImage) : Bounds :=
  let b := imageBounds im
  if fileId = 0 ∧ cfg.firstImageIsCoadd = true then
    { rowmin := b.rowmin - cfg.coaddBuffer, rowmax := b.rowmax + cfg.coaddBuffer,
      colmin := b.colmin - cfg.coaddBuffer, colmax := b.colmax + cfg.coaddBuffer }
  else b

/-- The position part of `_get_pos_and_bounds` / `_do_sky2image` (/repo/meds/maker.py:809-816, 1051-1055), per object. -/
def objPos (im : SrcImage) (o : ObjRow) : Pos :=
  let cr := im.wcs.sky2image o.sky
  makeWcsPosition cr.2 cr.1 im.info.positionOffset false

/-- Does the object survive the rough cut and `contains_points` (/repo/meds/maker.py:671-677)? -/
def accepted (cfg : MakerCfg) (fileId : Nat) (im : SrcImage) (o : ObjRow) : Bool :=
  im.wcs.rough o.sky &&
    (fileBounds cfg fileId im).containsPoint (objPos im o).zrow (objPos im o).zcol

/-- The clipping of `_force_into_coadd_bounds` (/repo/meds/maker.py:846-853), per object. -/
def clipPos (b : Bounds) (p : Pos) : Pos :=
  { p with zrow := clipQ p.zrow b.rowmin b.rowmax, zcol := clipQ p.zcol b.colmin b.colmax }

/-- Is the forcing step applied for this file (/repo/meds/maker.py:684-690)? -/
def forces (cfg : MakerCfg) (fileId : Nat) : Bool :=
  cfg.firstImageIsCoadd && fileId == 0 && cfg.forceIntoCoaddBounds

/-- The position finally recorded for an accepted object. -/
def finalPos (cfg : MakerCfg) (fileId : Nat) (im : SrcImage) (o : ObjRow) : Pos :=
  if forces cfg fileId then clipPos (fileBounds cfg fileId im) (objPos im o) else objPos im o

/-- The new slot written for an object in an image (/repo/meds/maker.py:714-751).  `half_box_size` is `box_size // 2` (667). -/
def newSlot (fileId : Nat) (im : SrcImage) (p : Pos) (o : ObjRow) (old : Slot) : Slot :=
  let half := o.boxSize / 2
  let ostartRow := truncZ p.zrow - half + 1
  let ostartCol := truncZ p.zcol - half + 1
  let jac := im.wcs.jacobian o.sky p.wcsCol p.wcsRow
  { old with
    fileId := fileId, origRow := p.zrow, origCol := p.zcol,
    origStartRow := ostartRow, origStartCol := ostartCol,
    cutoutRow := p.zrow - ostartRow, cutoutCol := p.zcol - ostartCol,
    dudcol := jac.1, dudrow := jac.2.1, dvdcol := jac.2.2.1, dvdrow := jac.2.2.2 }

/-- Add one epoch to an accepted object: fancy-index assignment at `[q, icut]` and `ncutout[q] += 1` (/repo/meds/maker.py:714-754).
The index `icut = ncutout` raises IndexError when the columns are too narrow.  The vectorised assignment over the distinct
indices `q` is done object by object here; `Model/Vector.lean` follows the arrays and is proved to give the same. -/
def addEpoch (cfg : MakerCfg) (fileId : Nat) (im : SrcImage) (o : ObjRow) : Res ObjRow := do
  let k ← pyIndex o.slots.length o.ncutout
  let old ← pyGet o.slots o.ncutout
  let p := finalPos cfg fileId im o
  .ok { o with slots := o.slots.set k (newSlot fileId im p o old), ncutout := o.ncutout + 1 }

/-- `_force_into_coadd_bounds` as a check (/repo/meds/maker.py:831-875): the printed `min(...)` raises ValueError when no object is accepted,
and all clipped positions must be inside. -/
def forceCheck (cfg : MakerCfg) (fileId : Nat) (im : SrcImage) (objs : List ObjRow) : Res Unit :=
  if forces cfg fileId then
    let q := objs.filter (accepted cfg fileId im)
    if q.length = 0 then .error .valueError
    else
      let b := fileBounds cfg fileId im
      if q.all (fun o => b.containsPoint (clipPos b (objPos im o)).zrow (clipPos b (objPos im o)).zcol)
      then .ok () else .error .creationError
  else .ok ()

/-- One pass of the per-file loop of `_build_meds_layout` (/repo/meds/maker.py:669-754). -/
def layoutFile (cfg : MakerCfg) (objs : List ObjRow) (fi : Nat × SrcImage) : Res (List ObjRow) := do
  let fileId := fi.1
  let im := fi.2
  forceCheck cfg fileId im objs
  if cfg.firstImageIsCoadd && cfg.checkInCoadd && fileId == 0
      && objs.length != (objs.filter (accepted cfg fileId im)).length then .error .creationError
  else
    mapRes (fun o => if accepted cfg fileId im o then addEpoch cfg fileId im o else .ok o) objs

/-- Images numbered from 0 (`for file_id in range(nim)`). -/
def numbered {α : Type} (l : List α) : List (Nat × α) := (List.range l.length).zip l

/-- The optional trimming (/repo/meds/maker.py:649-664). -/
def trim (cfg : MakerCfg) (images : List SrcImage) (objs : List ObjRow) : Res (List ObjRow) :=
  if cfg.firstImageIsCoadd && cfg.trimToCoadd then
    match images with
    | [] => .error .indexError
    | im :: _ =>
      let kept := objs.filter (accepted cfg 0 im)
      if kept.length = 0 then .error .assertionError else .ok kept
  else .ok objs

/-- `odata["ncutout"].max()`; ValueError for an empty catalogue. -/
def maxNcutout : List ObjRow → Res Int
  | [] => .error .valueError
  | o :: os => .ok ((os.map (·.ncutout)).foldl max o.ncutout)

/-- `_make_resized_data` (/repo/meds/maker.py:949-986): per-epoch columns cut to the first `max(2, max ncutout)` entries. -/
def resize (objs : List ObjRow) : Res (List ObjRow) := do
  let m ← maxNcutout objs
  let nmax : Nat := if m < 2 then 2 else m.toNat
  mapRes (fun o => if o.slots.length < nmax then .error .valueError
                   else .ok { o with slots := o.slots.take nmax }) objs

/-- The inner loop of `_set_start_rows_and_pixel_count` over the first `n` epochs (/repo/meds/maker.py:899-902):
start rows `cur, cur+np, ...`; returns the new slots and the next free row. -/
def setStarts (np : Int) : Nat → Int → List Slot → Res (List Slot × Int)
  | 0, cur, ss => .ok (ss, cur)
  | _ + 1, _, [] => .error .indexError
  | n + 1, cur, s :: ss => do
    let r ← setStarts np n (cur + np) ss
    .ok ({ s with startRow := cur } :: r.1, r.2)

/-- The outer loop of `_set_start_rows_and_pixel_count` (/repo/meds/maker.py:891-902). -/
def setStartRows : Int → List ObjRow → Res (List ObjRow × Int)
  | cur, [] => .ok ([], cur)
  | cur, o :: os => do
    let r ← setStarts (o.boxSize * o.boxSize) o.ncutout.toNat cur o.slots
    let rest ← setStartRows r.2 os
    .ok ({ o with slots := r.1 } :: rest.1, rest.2)

/-- `(data["ncutout"] * data["box_size"]**2).sum()` (/repo/meds/maker.py:888). -/
def pixelSum (objs : List ObjRow) : Int := (objs.map (fun o => o.ncutout * (o.boxSize * o.boxSize))).sum

/-- The shape the PSF model announces (/repo/meds/maker.py:1285-1294). -/
def psfShapeOf (p : PsfModel) (sky : SkyPos) (row col : ℚ) : Nat × Nat :=
  match p.recShape with
  | some f => f sky row col
  | none => ((p.getRec sky row col).nr, (p.getRec sky row col).nc)

/-- Inner loop of `_set_psf_layout` (/repo/meds/maker.py:1277-1307) over the first `n` epochs. -/
def setPsfSlots (psf : List PsfModel) (sky : SkyPos) : Nat → Int → List Slot → Res (List Slot × Int)
  | 0, cur, ss => .ok (ss, cur)
  | _ + 1, _, [] => .error .indexError
  | n + 1, cur, s :: ss => do
    let p ← pyGet psf s.fileId
    let shape := psfShapeOf p sky s.origRow s.origCol
    let npix : Int := (shape.1 : Int) * shape.2
    let cen := p.center s.origRow s.origCol
    let s' := { s with psfRowSize := shape.1, psfColSize := shape.2, psfCutoutRow := cen.1,
                       psfCutoutCol := cen.2, psfStartRow := cur }
    let r ← setPsfSlots psf sky n (cur + npix) ss
    .ok (s' :: r.1, r.2)

/-- `_set_psf_layout` (/repo/meds/maker.py:1253-1309). -/
def setPsfLayout (psf : List PsfModel) : Int → List ObjRow → Res (List ObjRow × Int)
  | cur, [] => .ok ([], cur)
  | cur, o :: os => do
    let r ← setPsfSlots psf o.sky o.ncutout.toNat cur o.slots
    let rest ← setPsfLayout psf r.2 os
    .ok ({ o with slots := r.1 } :: rest.1, rest.2)

/-- `_build_meds_layout` (/repo/meds/maker.py:636-771). -/
def buildLayout (mk : Maker) : Res Maker := do
  let objs0 ← trim mk.cfg mk.images mk.objs
  let objs1 ← foldRes (layoutFile mk.cfg) objs0 (numbered mk.images)
  let objs2 ← resize objs1
  let r ← setStartRows 0 objs2
  if pixelSum objs2 ≠ r.2 then .error .valueError
  else
    match mk.psf with
    | none => .ok { mk with objs := r.1, totalPixels := r.2 }
    | some psf => do
      let q ← setPsfLayout psf 0 r.1
      .ok { mk with objs := q.1, totalPixels := r.2, totalPsfPixels := q.2 }

/-- `_get_clipped_boxes` (/repo/meds/maker.py:470-512): `(obox, box)`. -/
def clippedBoxes (dim start bsize : Int) : (Int × Int) × (Int × Int) :=
  let o0 := start
  let o1 := start + bsize
  let b0 := 0
  let b1 := bsize
  let (o0, b0) := if o0 < 0 then (0, 0 - start) else (o0, b0)
  let diff := dim - o1
  let (o1, b1) := if diff < 0 then (dim, b1 + diff) else (o1, b1)
  ((o0, o1), (b0, b1))

/-- Assign `src[o0:o1, p0:p1]` to `dst[r0:r1, c0:c1]` where `dst` is a `b x b` array filled with `fill`
(/repo/meds/maker.py:271-272, 281-286).  Slices outside the arrays are `unmodelled`; unequal slice shapes raise ValueError. -/
def pasteBox (cast : ℚ → ℚ) (fill : ℚ) (b : Nat) (src : Img ℚ) (orow row ocol col : Int × Int) : Res (Img ℚ) :=
  if 0 ≤ orow.1 ∧ orow.1 ≤ orow.2 ∧ orow.2 ≤ src.nr ∧ 0 ≤ ocol.1 ∧ ocol.1 ≤ ocol.2 ∧ ocol.2 ≤ src.nc ∧
     0 ≤ row.1 ∧ row.1 ≤ row.2 ∧ row.2 ≤ b ∧ 0 ≤ col.1 ∧ col.1 ≤ col.2 ∧ col.2 ≤ b then
    if orow.2 - orow.1 = row.2 - row.1 ∧ ocol.2 - ocol.1 = col.2 - col.1 then
      .ok (Img.ofFn b b (fun r c =>
        if row.1 ≤ r ∧ (r : Int) < row.2 ∧ col.1 ≤ c ∧ (c : Int) < col.2 then
          match src.get? (orow.1 + (r - row.1)).toNat (ocol.1 + (c - col.1)).toNat with
          | some v => cast v
          | none => cast fill
        else cast fill))
    else .error .valueError
  else .error .unmodelled

/-- The sub-image of `_write_cutout` (/repo/meds/maker.py:256-291). -/
def subImage (cfg : MakerCfg) (t : String) (src : Img ℚ) (o : ObjRow) (s : Slot) : Res (Img ℚ) :=
  let rb := clippedBoxes src.nr s.origStartRow o.boxSize
  let cb := clippedBoxes src.nc s.origStartCol o.boxSize
  if o.boxSize < 0 then .error .valueError
  else do
    let fill ← defaultValue t
    let ok := 0 ≤ rb.1.1 ∧ 0 ≤ rb.1.2 ∧ rb.1.1 < rb.1.2 ∧ 0 ≤ cb.1.1 ∧ 0 ≤ cb.1.2 ∧ cb.1.1 < cb.1.2
    if ok then pasteBox (cfg.cast t) fill o.boxSize.toNat src rb.1 rb.2 cb.1 cb.2
    else .ok (Img.ofFn o.boxSize.toNat o.boxSize.toNat (fun _ _ => cfg.cast t fill))

/-- `_read_one_image` (/repo/meds/maker.py:598-618); a missing `image_info` column is a ValueError. -/
def readOneImage (im : SrcImage) (t : String) : Res (Option (Img ℚ)) :=
  match im.plane t with
  | none => .error .valueError
  | some r => .ok r

/-- `(bmask & badflags) != 0` (/repo/meds/maker.py:590) for an integer-valued mask pixel. -/
def badBit (flags : Int) (v : ℚ) : Bool := Int.land ⌊v⌋ flags ≠ 0

/-- Does `where` (/repo/meds/maker.py:590) find a bad pixel of the mask that is not on an `nr` by `nc` image? -/
def badOutside (flags : Int) (bmask : Img ℚ) (nr nc : Nat) : Bool :=
  (List.range bmask.nr).any (fun r => (List.range bmask.nc).any (fun c =>
    match bmask.get? r c with
    | some b => badBit flags b && (decide (nr ≤ r) || decide (nc ≤ c))
    | none => false))

/-- `im[w] = 0.0` where the mask is bad (/repo/meds/maker.py:574-578).  `w` are index arrays, so the shapes need not agree: IndexError only for a bad
pixel that is not on the image. -/
def zeroWhereBad (flags : Int) (im bmask : Img ℚ) : Res (Img ℚ) :=
  if badOutside flags bmask im.nr im.nc then .error .indexError
  else .ok (Img.ofFn im.nr im.nc (fun r c =>
    match bmask.get? r c with
    | some b => if badBit flags b then 0 else (im.get? r c).getD 0
    | none => (im.get? r c).getD 0))

/-- `im -= bkg` (/repo/meds/maker.py:550) with numpy broadcasting: an axis of length 1 of the background is repeated; otherwise the shapes must agree. -/
def subBkg (im bkg : Img ℚ) : Res (Img ℚ) :=
  if (bkg.nr = im.nr ∨ bkg.nr = 1) ∧ (bkg.nc = im.nc ∨ bkg.nc = 1) then
    .ok (Img.ofFn im.nr im.nc (fun r c =>
      (im.get? r c).getD 0 - (bkg.get? (if bkg.nr = 1 then 0 else r) (if bkg.nc = 1 then 0 else c)).getD 0))
  else .error .valueError

/-- `_read_image` (/repo/meds/maker.py:525-583).  Arithmetic on a missing image (`None`) is a TypeError.  Simplification: with a scale of zero the weight is
infinite in numpy and zero here. -/
def readImage (cfg : MakerCfg) (im : SrcImage) (t : String) : Res (Option (Img ℚ)) := do
  let raw ← readOneImage im t
  if t = "image" then do
    let bkg ← readOneImage im "bkg"
    match raw with
    | none => .error .typeError
    | some x => do
      let y ← (match bkg with | some b => subBkg x b | none => .ok x)
      .ok (some (y.map (fun v => v * im.info.scale)))
  else if t = "weight" then
    if cfg.minWeightKey then .error .runtimeError
    else
      match cfg.unusableBmask with
      | none =>
        match raw with
        | none => .error .typeError
        | some x => .ok (some (x.map (fun v => v * (1 / im.info.scale ^ 2))))
      | some flags => do
        let bm ← readOneImage im "bmask"
        match raw with
        | none => .error .typeError
        | some x => do
          let y ← (match bm with | some b => zeroWhereBad flags x b | none => .ok x)
          .ok (some (y.map (fun v => v * (1 / im.info.scale ^ 2))))
  else .ok raw

/-- Inner loop of `_write_cutouts` over the first `n` epochs of one object (/repo/meds/maker.py:245-254). -/
def writeObjCutouts (cfg : MakerCfg) (t : String) (fileId : Nat) (src : Img ℚ) (o : ObjRow) :
    Nat → List Slot → List ℚ → Res (List ℚ)
  | 0, _, buf => .ok buf
  | _ + 1, [], _ => .error .indexError
  | n + 1, s :: ss, buf => do
    let buf' ← (if s.fileId = (fileId : Int) then do
        let sub ← subImage cfg t src o s
        overwrite buf s.startRow sub.flat
      else .ok buf)
    writeObjCutouts cfg t fileId src o n ss buf'

/-- Body of the per-file loop of `_write_cutouts` (/repo/meds/maker.py:225-254). -/
def writeFileCutouts (cfg : MakerCfg) (t : String) (objs : List ObjRow) (buf : List ℚ) (fi : Nat × SrcImage) :
    Res (List ℚ) := do
  let r ← readImage cfg fi.2 t
  match r with
  | none => .ok buf
  | some src =>
    foldRes (fun b o => writeObjCutouts cfg t fi.1 src o o.ncutout.toNat o.slots b) buf objs

/-- `_write_cutouts` (/repo/meds/maker.py:211-254) on the pixels of the reserved extension. -/
def writeCutouts (mk : Maker) (t : String) (buf : List ℚ) : Res (List ℚ) :=
  foldRes (writeFileCutouts mk.cfg t mk.objs) buf (numbered mk.images)

/-- The shape check and write of one PSF image (/repo/meds/maker.py:441-447 and 391-402). -/
def writePsfImage (cfg : MakerCfg) (s : Slot) (psfim : Img ℚ) (buf : List ℚ) : Res (List ℚ) :=
  if (psfim.nr : Int) ≠ s.psfRowSize ∨ (psfim.nc : Int) ≠ s.psfColSize then .error .valueError
  else overwrite buf s.psfStartRow (psfim.flat.map (cfg.cast "psf"))

/-- Inner loop of `_write_psf_cutouts_serial` (/repo/meds/maker.py:423-447). -/
def writeObjPsf (cfg : MakerCfg) (psf : List PsfModel) (sky : SkyPos) : Nat → List Slot → List ℚ → Res (List ℚ)
  | 0, _, buf => .ok buf
  | _ + 1, [], _ => .error .indexError
  | n + 1, s :: ss, buf => do
    let p ← pyGet psf s.fileId
    let buf' ← writePsfImage cfg s (p.getRec sky s.origRow s.origCol) buf
    writeObjPsf cfg psf sky n ss buf'

/-- `_write_psf_cutouts_serial` (/repo/meds/maker.py:409-447). -/
def writePsfSerial (mk : Maker) (psf : List PsfModel) (buf : List ℚ) : Res (List ℚ) :=
  foldRes (fun b o => writeObjPsf mk.cfg psf o.sky o.ncutout.toNat o.slots b) buf mk.objs

end Maker

/-- Modify the first image HDU with a name in place. -/
def modifyImage (name : String) (g : List ℚ → Res (List ℚ)) : List (String × Hdu) → Res (List (String × Hdu))
  | [] => .error .osError
  | (n, h) :: t =>
    if n = name then
      match h with
      | .image pix => do
        let pix' ← g pix
        .ok ((n, .image pix') :: t)
      | _ => .error .osError
    else do
      let t' ← modifyImage name g t
      .ok ((n, h) :: t')

namespace Maker

/-- The tables written first: `_write_object_data`, `_write_image_info`, `_write_metadata` (/repo/meds/maker.py:114-116, 134-157);
`_set_meta_data` always makes a metadata table (1185-1221). -/
def tableHdus (mk : Maker) : List (String × Hdu) :=
  [("object_data", .objects { dtype := mk.dtype, rows := mk.objs }),
   ("image_info", .info (mk.images.map (·.info))),
   ("metadata", .metadata mk.metaData)]

/-- `_reserve_mosaic_images` (/repo/meds/maker.py:159-209): zero-filled images of the total size. -/
def reservedHdus (mk : Maker) : List (String × Hdu) :=
  mk.types.map (fun t => (t ++ "_cutouts", Hdu.image (List.replicate mk.totalPixels.toNat 0)))
  ++ (match mk.psf with
      | some _ => [("psf", Hdu.image (List.replicate mk.totalPsfPixels.toNat 0))]
      | none => [])

/-- `_write_psf_info` (/repo/meds/maker.py:126-127, 461-468). -/
def psfInfoHdus (mk : Maker) : List (String × Hdu) :=
  match mk.psfInfo with
  | some p => [("psf_info", .extra p)]
  | none => []

/-- `_write_data` (/repo/meds/maker.py:92-132) with the serial PSF writer. -/
def writeData (mk : Maker) : Res Fits := do
  let h0 := mk.tableHdus ++ mk.reservedHdus
  let h1 ← foldRes (fun h t => modifyImage (t ++ "_cutouts") (mk.writeCutouts t) h) h0 mk.types
  let h2 ← (match mk.psf with
            | some psf => modifyImage "psf" (mk.writePsfSerial psf) h1
            | none => .ok h1)
  .ok ⟨h2 ++ mk.psfInfoHdus⟩

/-- `write` (/repo/meds/maker.py:85-90): the mutated maker and the file. -/
def write (mk : Maker) : Res (Maker × Fits) := do
  let mk' ← mk.buildLayout
  let f ← mk'.writeData
  .ok (mk', f)

end Maker

end Meds
