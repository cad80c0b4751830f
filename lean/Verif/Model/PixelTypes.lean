import Verif.Model.Machine

/-!
# Pixel arithmetic in the type of the image (/repo/meds/maker.py:525-583)

`readImage` subtracts the background and applies the scale in exact numbers.  Here the same in the type that the pixels have in the file they were read from.
The scale is a number of type `f4` (/repo/meds/util.py:287).  Left out: overflow and underflow, infinities and NaN, 64-bit integers.
-/

namespace Meds

/-- The types of pixels: integers of up to 16 bits, integers of 32 bits, single and double precision. -/
inductive PixType
  | i2
  | i4
  | f4
  | f8
  deriving DecidableEq, Repr

/-- Is it a type of integers? -/
def PixType.isInt : PixType → Bool
  | .i2 => true
  | .i4 => true
  | _ => false

/-- The significant bits of a number of this type. -/
def PixType.bits : PixType → Nat
  | .f8 => 53
  | _ => 24

/-- Significant bits with which NumPy computes when the left operand is a float: 32-bit integers and doubles take it to double precision. -/
def workBits (a b : PixType) : Nat := if a = .f8 ∨ b = .f8 ∨ b = .i4 then 53 else 24

/-- Round to `p` significant bits. -/
def rndP (p : Nat) (q : ℚ) : ℚ := if 0 ≤ q then Uberseg.rnd p q else -Uberseg.rnd p (-q)

/-- The types of the planes of an image, and the bits with which NumPy computes numbers out of a scalar of type `f4` and Python numbers: 24 from version 2 on,
53 before. -/
structure PixEnv where
  kind : String → PixType
  factorBits : Nat

namespace Maker

/-- `im -= bkg` (/repo/meds/maker.py:550): computed with the bits of `workBits`, then put back into the type of the image.  A background of floats cannot be
taken from an image of integers (UFuncTypeError, a TypeError). -/
def subBkgF (k kb : PixType) (im bkg : Img ℚ) : Res (Img ℚ) :=
  if k.isInt then
    if kb.isInt then subBkg im bkg else .error .typeError
  else do
    let y ← subBkg im bkg
    .ok (y.map (fun v => rndP k.bits (rndP (workBits k kb) v)))

/-- `im *= x` for a number of type `f4` (/repo/meds/maker.py:564, 581): not possible in place for an image of integers (UFuncTypeError). -/
def scaleF (k : PixType) (x : ℚ) (im : Img ℚ) : Res (Option (Img ℚ)) :=
  if k.isInt then .error .typeError else .ok (some (im.map (fun v => rndP k.bits (v * x))))

/-- `1.0 / scale ** 2` (/repo/meds/maker.py:581), taken to the type of the weight image when multiplied with it.  Simplification: zero for a scale of zero, which
is infinity in NumPy. -/
def weightFactor (kind : PixEnv) (scale : ℚ) : ℚ := rndP (kind.kind "weight").bits (rndP kind.factorBits (1 / rndP kind.factorBits (scale ^ 2)))

/-- `_read_image` (/repo/meds/maker.py:525-583); `kind` gives the types of its planes. -/
def readImageF (cfg : MakerCfg) (kind : PixEnv) (im : SrcImage) (t : String) : Res (Option (Img ℚ)) := do
  let raw ← readOneImage im t
  if t = "image" then do
    let bkg ← readOneImage im "bkg"
    match raw with
    | none => .error .typeError
    | some x => do
      let y ← (match bkg with | some b => subBkgF (kind.kind "image") (kind.kind "bkg") x b | none => .ok x)
      scaleF (kind.kind "image") im.info.scale y
  else if t = "weight" then
    if cfg.minWeightKey then .error .runtimeError
    else
      match cfg.unusableBmask with
      | none =>
        match raw with
        | none => .error .typeError
        | some x => scaleF (kind.kind "weight") (weightFactor kind im.info.scale) x
      | some flags => do
        let bm ← readOneImage im "bmask"
        match raw with
        | none => .error .typeError
        | some x => do
          let y ← (match bm with | some b => zeroWhereBad flags x b | none => .ok x)
          scaleF (kind.kind "weight") (weightFactor kind im.info.scale) y
  else .ok raw

/-- Body of the per-file loop of `_write_cutouts` (/repo/meds/maker.py:225-254). -/
def writeFileCutoutsF (cfg : MakerCfg) (kinds : Nat → PixEnv) (t : String) (objs : List ObjRow) (buf : List ℚ) (fi : Nat × SrcImage) :
    Res (List ℚ) := do
  let r ← readImageF cfg (kinds fi.1) fi.2 t
  match r with
  | none => .ok buf
  | some src =>
    foldRes (fun b o => writeObjCutouts cfg t fi.1 src o o.ncutout.toNat o.slots b) buf objs

/-- `_write_cutouts` (/repo/meds/maker.py:211-254). -/
def writeCutoutsF (mk : Maker) (kinds : Nat → PixEnv) (t : String) (buf : List ℚ) : Res (List ℚ) :=
  foldRes (writeFileCutoutsF mk.cfg kinds t mk.objs) buf (numbered mk.images)

/-- `_write_data` (/repo/meds/maker.py:92-132). -/
def writeDataF (mk : Maker) (kinds : Nat → PixEnv) : Res Fits := do
  let h0 := mk.tableHdus ++ mk.reservedHdus
  let h1 ← foldRes (fun h t => modifyImage (t ++ "_cutouts") (mk.writeCutoutsF kinds t) h) h0 mk.types
  let h2 ← (match mk.psf with
            | some psf => modifyImage "psf" (mk.writePsfSerial psf) h1
            | none => .ok h1)
  .ok ⟨h2 ++ mk.psfInfoHdus⟩

/-- `write` (/repo/meds/maker.py:85-90); `kinds` gives the types of the planes of every image. -/
def writeF (mk : Maker) (kinds : Nat → PixEnv) : Res (Maker × Fits) := do
  let mk' ← mk.buildLayout
  let f ← mk'.writeDataF kinds
  .ok (mk', f)

end Maker
end Meds
