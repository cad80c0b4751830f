import Verif.Model.Maker

/-!
# `_write_data` as a sequence of file operations

The same code as `Maker.writeData`, but listing each operation on the output file separately, so that an interrupted write can be described:
an interruption after `k` operations has executed the first `k` entries of the list.
-/

namespace Meds

/-- One operation on the output file: append an HDU (`fits.write` / `create_image_hdu`), or write pixels into an existing image HDU. -/
inductive WriteOp
  | append (name : String) (h : Hdu)
  | put (ext : String) (start : Int) (data : List ℚ)
  deriving DecidableEq, Repr

namespace Maker

/-- The writes of `_write_cutouts` for one object and one image (/repo/meds/maker.py:245-254); a step may raise instead of writing. -/
def cutoutSteps (cfg : MakerCfg) (t : String) (fileId : Nat) (src : Img ℚ) (o : ObjRow) : Nat → List Slot → List (Res WriteOp)
  | 0, _ => []
  | _ + 1, [] => [.error .indexError]
  | n + 1, s :: ss =>
    (if s.fileId = (fileId : Int) then
      [do
        let sub ← subImage cfg t src o s
        .ok (.put (t ++ "_cutouts") s.startRow sub.flat)]
     else []) ++ cutoutSteps cfg t fileId src o n ss

/-- The writes of `_write_cutouts` for one image (/repo/meds/maker.py:225-254). -/
def fileSteps (cfg : MakerCfg) (t : String) (objs : List ObjRow) (fi : Nat × SrcImage) : List (Res WriteOp) :=
  match readImage cfg fi.2 t with
  | .error e => [.error e]
  | .ok none => []
  | .ok (some src) => objs.flatMap (fun o => cutoutSteps cfg t fi.1 src o o.ncutout.toNat o.slots)

/-- The writes of `_write_cutouts` (/repo/meds/maker.py:211-254). -/
def typeSteps (mk : Maker) (t : String) : List (Res WriteOp) := (numbered mk.images).flatMap (fileSteps mk.cfg t mk.objs)

/-- The write of one PSF image (/repo/meds/maker.py:436-447). -/
def psfWrite (cfg : MakerCfg) (psf : List PsfModel) (sky : SkyPos) (s : Slot) : Res WriteOp := do
  let p ← pyGet psf s.fileId
  let im := p.getRec sky s.origRow s.origCol
  if (im.nr : Int) ≠ s.psfRowSize ∨ (im.nc : Int) ≠ s.psfColSize then .error .valueError
  else .ok (.put "psf" s.psfStartRow (im.flat.map (cfg.cast "psf")))

/-- The writes of `_write_psf_cutouts_serial` for one object (/repo/meds/maker.py:423-447). -/
def psfObjSteps (cfg : MakerCfg) (psf : List PsfModel) (sky : SkyPos) : Nat → List Slot → List (Res WriteOp)
  | 0, _ => []
  | _ + 1, [] => [.error .indexError]
  | n + 1, s :: ss => psfWrite cfg psf sky s :: psfObjSteps cfg psf sky n ss

/-- The writes of `_write_psf_cutouts_serial` (/repo/meds/maker.py:409-447). -/
def psfSteps (mk : Maker) : List (Res WriteOp) :=
  match mk.psf with
  | some psf => mk.objs.flatMap (fun o => psfObjSteps mk.cfg psf o.sky o.ncutout.toNat o.slots)
  | none => []

/-- Append operations for a list of HDUs. -/
def appends (l : List (String × Hdu)) : List (Res WriteOp) := l.map (fun x => .ok (.append x.1 x.2))

/-- All operations of `_write_data` in order (/repo/meds/maker.py:92-132). -/
def steps (mk : Maker) : List (Res WriteOp) :=
  appends (mk.tableHdus ++ mk.reservedHdus) ++ (mk.types.flatMap mk.typeSteps ++ mk.psfSteps) ++ appends mk.psfInfoHdus

end Maker

/-- Execute one step on the HDUs written so far; a step that raises stops the run. -/
def execStep (hs : List (String × Hdu)) (r : Res WriteOp) : Res (List (String × Hdu)) := do
  let op ← r
  match op with
  | .append n h => .ok (hs ++ [(n, h)])
  | .put ext s d => modifyImage ext (fun buf => overwrite buf s d) hs

/-- Execute steps from the beginning: `clobber=True` starts from an empty file (/repo/meds/maker.py:110). -/
def runSteps (hs : List (String × Hdu)) (l : List (Res WriteOp)) : Res (List (String × Hdu)) := foldRes execStep hs l

end Meds
