import Verif.Model.IntTypes

/-!
# Configured types of the stamps, types of the masks

`Model/Maker.lean` writes every default value and compares every mask with the flags.  NumPy does so for some types only; which ones depends on its version.
-/

namespace Meds

/-- Types of the arrays that matter here: integers of some width, or floats. -/
inductive StampType
  | int (ty : IntType)
  | float
  deriving DecidableEq, Repr

/-- The version of NumPy (2 or newer?), the configured types `image_dtype`, `weight_dtype`, `seg_dtype`, `bmask_dtype` (/repo/meds/defaults.py:44-47), and the type of the mask of each
image as it is read from its file. -/
structure StampEnv where
  numpy2 : Bool
  out : String → StampType
  mask : Nat → StampType

/-- The integers of a type. -/
def IntType.has (ty : IntType) (k : Int) : Bool :=
  if ty.signed then decide (0 < ty.bits ∧ -2 ^ (ty.bits - 1) ≤ k ∧ k < 2 ^ (ty.bits - 1)) else decide (0 ≤ k ∧ k < 2 ^ ty.bits)

namespace Maker

/-- `subim += default_values[cutout_type]` (/repo/meds/maker.py:272; values /repo/meds/defaults.py:8-13).  The values for images and weights are Python floats: the sum is a float, which
cannot be put into an array of integers in place (UFuncTypeError, a TypeError).  Those for seg maps and masks are Python ints: NumPy 2 raises an OverflowError for numbers that the type does
not have; NumPy 1 computes with a wider type and wraps.  Simplification: floats of half precision, which FITS does not have, are left out. -/
def addDefault (np2 : Bool) (ty : StampType) (t : String) : Res Unit :=
  match ty with
  | .float => .ok ()
  | .int ty =>
    if t = "image" ∨ t = "weight" then .error .typeError
    else if np2 && t = "bmask" && !(ty.has (2 ^ 30)) then .error .overflowError
    else .ok ()

/-- `bmask & badflags` (/repo/meds/maker.py:590) for a Python int `badflags`: not defined for floats (TypeError); NumPy 2 raises an OverflowError for numbers that the type of the mask does not
have.  NumPy 1 takes both to a type that has all numbers of the two; for masks of `u8` and a negative number there is none of integers (TypeError).  Not modelled: NumPy 1 with numbers of more
than 64 bits. -/
def maskAnd (np2 : Bool) (ty : StampType) (flags : Int) : Res Unit :=
  match ty with
  | .float => .error .typeError
  | .int ty =>
    if np2 then (if ty.has flags then .ok () else .error .overflowError)
    else if !(IntType.has ⟨64, true⟩ flags) then .error .unmodelled
    else if ty = ⟨64, false⟩ ∧ flags < 0 then .error .typeError
    else .ok ()

/-- `_read_image` (/repo/meds/maker.py:525-583), with the check of the mask as NumPy does it (/repo/meds/maker.py:571-578, 585-596). -/
def readImageT (cfg : MakerCfg) (env : StampEnv) (j : Nat) (im : SrcImage) (t : String) : Res (Option (Img ℚ)) := do
  let raw ← readOneImage im t
  if t = "image" then do
    let bkg ← readOneImage im "bkg"
    match raw with
    | none => .error .typeError
    | some x => do
      let y ← (match bkg with | some b => subBkg x b | none => .ok x)
      .ok (some (y.map (fun v => v * im.info.scale)))
  else if t = "weight" then
    if cfg.minWeightKey then .error .runtimeError
    else
      match cfg.unusableBmask with
      | none =>
        match raw with
        | none => .error .typeError
        | some x => .ok (some (x.map (fun v => v * (1 / im.info.scale ^ 2))))
      | some flags => do
        let bm ← readOneImage im "bmask"
        match bm with
        | none => .ok ()
        | some _ => maskAnd env.numpy2 (env.mask j) flags
        match raw with
        | none => .error .typeError
        | some x => do
          let y ← (match bm with | some b => zeroWhereBad flags x b | none => .ok x)
          .ok (some (y.map (fun v => v * (1 / im.info.scale ^ 2))))
  else .ok raw

/-- Inner loop of `_write_cutouts` over the first `n` epochs of one object (/repo/meds/maker.py:245-254) with the beginning of `_write_cutout` (271-272). -/
def writeObjCutoutsT (cfg : MakerCfg) (env : StampEnv) (t : String) (fileId : Nat) (src : Img ℚ) (o : ObjRow) : Nat → List Slot → List ℚ → Res (List ℚ)
  | 0, _, buf => .ok buf
  | _ + 1, [], _ => .error .indexError
  | n + 1, s :: ss, buf => do
    let buf' ← (if s.fileId = (fileId : Int) then do
        addDefault env.numpy2 (env.out t) t
        let sub ← subImage cfg t src o s
        overwrite buf s.startRow sub.flat
      else .ok buf)
    writeObjCutoutsT cfg env t fileId src o n ss buf'

/-- Body of the per-file loop of `_write_cutouts` (/repo/meds/maker.py:225-254). -/
def writeFileCutoutsT (cfg : MakerCfg) (env : StampEnv) (t : String) (objs : List ObjRow) (buf : List ℚ) (fi : Nat × SrcImage) : Res (List ℚ) := do
  let r ← readImageT cfg env fi.1 fi.2 t
  match r with
  | none => .ok buf
  | some src => foldRes (fun b o => writeObjCutoutsT cfg env t fi.1 src o o.ncutout.toNat o.slots b) buf objs

/-- `_write_cutouts` (/repo/meds/maker.py:211-254). -/
def writeCutoutsT (mk : Maker) (env : StampEnv) (t : String) (buf : List ℚ) : Res (List ℚ) :=
  foldRes (writeFileCutoutsT mk.cfg env t mk.objs) buf (numbered mk.images)

/-- `_write_data` (/repo/meds/maker.py:92-132). -/
def writeDataT (mk : Maker) (env : StampEnv) : Res Fits := do
  let h0 := mk.tableHdus ++ mk.reservedHdus
  let h1 ← foldRes (fun h t => modifyImage (t ++ "_cutouts") (mk.writeCutoutsT env t) h) h0 mk.types
  let h2 ← (match mk.psf with
            | some psf => modifyImage "psf" (mk.writePsfSerial psf) h1
            | none => .ok h1)
  .ok ⟨h2 ++ mk.psfInfoHdus⟩

/-- `write` (/repo/meds/maker.py:85-90) with the types of `env`. -/
def writeT (mk : Maker) (env : StampEnv) : Res (Maker × Fits) := do
  let mk' ← mk.buildLayout
  let f ← mk'.writeDataT env
  .ok (mk', f)

end Maker
end Meds
