import Verif.Model.Maker

/-!
# WCS objects have state (/repo/meds/maker.py:782-829, 914-947)

`_get_wcs` takes the WCS from the PSF object when that has `get_wcs`, and calls `set_naxis` on it; `_get_pos_and_bounds` then sets its attribute
`position_offset`.  Both change the object itself, which belongs to the caller and may be the same for several images.  The size and the offset are read back from
the object wherever they are used.  Here WCS objects live in a store; the layout is that of `Model/Maker.lean` with what is read from the store.
-/

namespace Meds

/-- A WCS object: its state (`naxis`: columns, rows; `position_offset`, absent at first) and its methods, which may depend on `naxis`. -/
structure WcsObj where
  naxis : Nat × Nat
  offset : Option ℚ
  sky2image : Nat × Nat → SkyPos → ℚ × ℚ
  jacobian : Nat × Nat → SkyPos → ℚ → ℚ → ℚ × ℚ × ℚ × ℚ
  rough : Nat × Nat → ℚ → SkyPos → Bool

/-- One input image: its `image_info` entry and planes, the size in the header of its file, and where its WCS comes from: the object that `get_wcs` of the PSF
returns (by its place in the store), or a new object made from `image_info` or the header. -/
structure SrcImageS where
  info : InfoRow
  plane : String → Option (Option (Img ℚ))
  headerNaxis : Nat × Nat
  psfWcs : Option Nat
  fresh : WcsObj

namespace Maker

/-- `_get_wcs` (/repo/meds/maker.py:914-947): the store afterwards and the place of the object.  Simplification: files and headers can be read, and
`WCS(...)` succeeds (these cases are in `Model/Config.lean`). -/
def getWcsS (store : List WcsObj) (src : SrcImageS) : Res (List WcsObj × Nat) :=
  match src.psfWcs with
  | some r =>
    match store[r]? with
    | some w => .ok (store.set r { w with naxis := src.headerNaxis }, r)
    | none => .error .unmodelled
  | none => .ok (store ++ [src.fresh], store.length)

/-- `wcs.position_offset = position_offset` (/repo/meds/maker.py:793-794). -/
def setOffset (store : List WcsObj) (r : Nat) (offset : ℚ) : List WcsObj :=
  match store[r]? with
  | some w => store.set r { w with offset := some offset }
  | none => store

/-- What the layout reads from the object: `get_naxis()` (/repo/meds/maker.py:1081, 1136), `position_offset` (1055, 1102, 1109, 1141; AttributeError when it
was never set), the conversions and the rough cut. -/
def viewS (store : List WcsObj) (r : Nat) (src : SrcImageS) : Res SrcImage :=
  match store[r]? with
  | none => .error .unmodelled
  | some w =>
    match w.offset with
    | none => .error .attributeError
    | some off => .ok
      { wcs := { ncol := w.naxis.1, nrow := w.naxis.2, sky2image := w.sky2image w.naxis, jacobian := w.jacobian w.naxis, rough := w.rough w.naxis off }
        info := { src.info with positionOffset := off }
        plane := src.plane }

/-- The beginning of `_get_pos_and_bounds` (/repo/meds/maker.py:782-794): the store, and the image as the rest of the function finds it. -/
def acquireS (store : List WcsObj) (src : SrcImageS) : Res (List WcsObj × SrcImage) := do
  let sr ← getWcsS store src
  let store' := setOffset sr.1 sr.2 src.info.positionOffset
  let im ← viewS store' sr.2 src
  .ok (store', im)

/-- One pass of the per-file loop of `_build_meds_layout` (/repo/meds/maker.py:669-754). -/
def layoutFileS (cfg : MakerCfg) (st : List WcsObj × List ObjRow) (fi : Nat × SrcImageS) : Res (List WcsObj × List ObjRow) := do
  let si ← acquireS st.1 fi.2
  let objs ← layoutFile cfg st.2 (fi.1, si.2)
  .ok (si.1, objs)

/-- The optional trimming (/repo/meds/maker.py:649-664). -/
def trimS (cfg : MakerCfg) (store : List WcsObj) (srcs : List SrcImageS) (objs : List ObjRow) : Res (List WcsObj × List ObjRow) :=
  if cfg.firstImageIsCoadd && cfg.trimToCoadd then
    match srcs with
    | [] => .error .indexError
    | src :: _ => do
      let si ← acquireS store src
      let objs' ← trim cfg [si.2] objs
      .ok (si.1, objs')
  else .ok (store, objs)

/-- `_build_meds_layout` (/repo/meds/maker.py:636-771). -/
def buildLayoutS (store : List WcsObj) (srcs : List SrcImageS) (mk : Maker) : Res (List WcsObj × Maker) := do
  let st0 ← trimS mk.cfg store srcs mk.objs
  let st1 ← foldRes (layoutFileS mk.cfg) st0 (numbered srcs)
  let objs2 ← resize st1.2
  let r ← setStartRows 0 objs2
  if pixelSum objs2 ≠ r.2 then .error .valueError
  else
    match mk.psf with
    | none => .ok (st1.1, { mk with objs := r.1, totalPixels := r.2 })
    | some psf => do
      let q ← setPsfLayout psf 0 r.1
      .ok (st1.1, { mk with objs := q.1, totalPixels := r.2, totalPsfPixels := q.2 })

/-- The planes and `image_info` of an image, which is all that is used of it once the layout is done (the WCS is not). -/
def planesOf (src : SrcImageS) : SrcImage :=
  { wcs := { ncol := 0, nrow := 0, sky2image := fun _ => (0, 0), jacobian := fun _ _ _ => (0, 0, 0, 0), rough := fun _ => false },
    info := src.info, plane := src.plane }

/-- `MEDSMaker(...)` and `write` (/repo/meds/maker.py:63-90): the WCS objects afterwards and the file. -/
def makeS (cfg : MakerCfg) (hasNumber : Bool) (objs : List InputObj) (store : List WcsObj) (srcs : List SrcImageS)
    (psf : Option (List PsfModel)) (psfInfo : Option String) (metaData : String) : Res (List WcsObj × Fits) := do
  let mk ← init cfg hasNumber objs (srcs.map planesOf) psf psfInfo metaData
  let sm ← buildLayoutS store srcs mk
  let f ← sm.2.writeData
  .ok (sm.1, f)

end Maker
end Meds
