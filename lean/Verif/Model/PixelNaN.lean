import Verif.Model.Maker
import Verif.Model.Reader
import Verif.Model.CompareReport

/-!
# Pixels that are not numbers (/repo/meds/maker.py:211-292, 525-618)

Images, backgrounds and weight maps are arrays of floating point numbers, in which NaN and infinities occur (saturated pixels, pixels without data).
`Model/Maker.lean` follows the writing of the cutouts with pixels that are numbers; this file follows the same lines with pixels that may be anything a float can be.
The arithmetic of numbers is exact, as there; left out is overflow, in which two numbers give an infinity.
-/

namespace Meds
open Compare

namespace Compare.Flt

/-- `a * b`: zero times an infinity is NaN. -/
def mul : Flt → Flt → Flt
  | .num a, .num b => .num (a * b)
  | .nan, _ => .nan
  | _, .nan => .nan
  | .inf s, .inf t => .inf (s != t)
  | .inf s, .num b => if b = 0 then .nan else .inf (s != decide (b < 0))
  | .num a, .inf t => if a = 0 then .nan else .inf (decide (a < 0) != t)

/-- Taking a float to another type: what happens to numbers is given, NaN and infinities stay. -/
def convert (f : ℚ → ℚ) : Flt → Flt
  | .num q => .num (f q)
  | x => x

/-- `1.0 / scale ** 2` (/repo/meds/maker.py:581) for a scale that is a NumPy number: infinite for a scale of zero. -/
def invSquare (scale : ℚ) : Flt := if scale = 0 then .inf false else .num (1 / scale ^ 2)

end Compare.Flt

/-- The float pixels of one image of `image_info`: `none` without a column for this kind of plane, `some none` for an empty path (/repo/meds/maker.py:598-618). -/
abbrev FltPlanes := String → Option (Option (Img Flt))

namespace Maker

/-- As `pasteBox`, for pixels of any type (/repo/meds/maker.py:271-272, 281-286). -/
def pasteBoxG {α : Type} (cast : α → α) (fill : α) (b : Nat) (src : Img α) (orow row ocol col : Int × Int) : Res (Img α) :=
  if 0 ≤ orow.1 ∧ orow.1 ≤ orow.2 ∧ orow.2 ≤ src.nr ∧ 0 ≤ ocol.1 ∧ ocol.1 ≤ ocol.2 ∧ ocol.2 ≤ src.nc ∧
     0 ≤ row.1 ∧ row.1 ≤ row.2 ∧ row.2 ≤ b ∧ 0 ≤ col.1 ∧ col.1 ≤ col.2 ∧ col.2 ≤ b then
    if orow.2 - orow.1 = row.2 - row.1 ∧ ocol.2 - ocol.1 = col.2 - col.1 then
      .ok (Img.ofFn b b (fun r c =>
        if row.1 ≤ r ∧ (r : Int) < row.2 ∧ col.1 ≤ c ∧ (c : Int) < col.2 then
          match src.get? (orow.1 + (r - row.1)).toNat (ocol.1 + (c - col.1)).toNat with
          | some v => cast v
          | none => cast fill
        else cast fill))
    else .error .valueError
  else .error .unmodelled

/-- The sub-image of `_write_cutout` (/repo/meds/maker.py:256-291) for pixels of any type; `fill` is what `default_values` gives. -/
def subImageG {α : Type} (cast : α → α) (fill : Res α) (src : Img α) (o : ObjRow) (s : Slot) : Res (Img α) :=
  let rb := clippedBoxes src.nr s.origStartRow o.boxSize
  let cb := clippedBoxes src.nc s.origStartCol o.boxSize
  if o.boxSize < 0 then .error .valueError
  else do
    let fill ← fill
    let ok := 0 ≤ rb.1.1 ∧ 0 ≤ rb.1.2 ∧ rb.1.1 < rb.1.2 ∧ 0 ≤ cb.1.1 ∧ 0 ≤ cb.1.2 ∧ cb.1.1 < cb.1.2
    if ok then pasteBoxG cast fill o.boxSize.toNat src rb.1 rb.2 cb.1 cb.2
    else .ok (Img.ofFn o.boxSize.toNat o.boxSize.toNat (fun _ _ => cast fill))

/-- Inner loop of `_write_cutouts` over the first `n` epochs of one object (/repo/meds/maker.py:245-254). -/
def writeObjCutoutsG {α : Type} (sub : Img α → ObjRow → Slot → Res (Img α)) (fileId : Nat) (src : Img α) (o : ObjRow) :
    Nat → List Slot → List α → Res (List α)
  | 0, _, buf => .ok buf
  | _ + 1, [], _ => .error .indexError
  | n + 1, s :: ss, buf => do
    let buf' ← (if s.fileId = (fileId : Int) then do
        let im ← sub src o s
        overwrite buf s.startRow im.flat
      else .ok buf)
    writeObjCutoutsG sub fileId src o n ss buf'

/-- Body of the per-file loop of `_write_cutouts` (/repo/meds/maker.py:225-254); `read` is `_read_image`. -/
def writeFileCutoutsG {α : Type} (read : Nat → SrcImage → Res (Option (Img α))) (sub : Img α → ObjRow → Slot → Res (Img α)) (objs : List ObjRow) (buf : List α) (fi : Nat × SrcImage) :
    Res (List α) := do
  let r ← read fi.1 fi.2
  match r with
  | none => .ok buf
  | some src => foldRes (fun b o => writeObjCutoutsG sub fi.1 src o o.ncutout.toNat o.slots b) buf objs

/-- `_write_cutouts` (/repo/meds/maker.py:211-254) on the pixels of the reserved extension. -/
def writeCutoutsG {α : Type} (read : Nat → SrcImage → Res (Option (Img α))) (sub : Img α → ObjRow → Slot → Res (Img α)) (images : List SrcImage) (objs : List ObjRow) (buf : List α) : Res (List α) :=
  foldRes (writeFileCutoutsG read sub objs) buf (numbered images)

/-- `_read_one_image` (/repo/meds/maker.py:598-618). -/
def readOneImageN (fl : FltPlanes) (t : String) : Res (Option (Img Flt)) :=
  match fl t with
  | none => .error .valueError
  | some r => .ok r

/-- `im -= bkg` (/repo/meds/maker.py:550) with numpy broadcasting, as `subBkg`. -/
def subBkgN (im bkg : Img Flt) : Res (Img Flt) :=
  if (bkg.nr = im.nr ∨ bkg.nr = 1) ∧ (bkg.nc = im.nc ∨ bkg.nc = 1) then
    .ok (Img.ofFn im.nr im.nc (fun r c =>
      ((im.get? r c).getD (.num 0)).sub ((bkg.get? (if bkg.nr = 1 then 0 else r) (if bkg.nc = 1 then 0 else c)).getD (.num 0))))
  else .error .valueError

/-- `im[w] = 0.0` where the mask is bad (/repo/meds/maker.py:574-578), as `zeroWhereBad`; the mask is an array of integers. -/
def zeroWhereBadN (flags : Int) (im : Img Flt) (bmask : Img ℚ) : Res (Img Flt) :=
  if badOutside flags bmask im.nr im.nc then .error .indexError
  else .ok (Img.ofFn im.nr im.nc (fun r c =>
    match bmask.get? r c with
    | some b => if badBit flags b then .num 0 else (im.get? r c).getD (.num 0)
    | none => (im.get? r c).getD (.num 0)))

/-- `_read_image` (/repo/meds/maker.py:525-583) for planes of floats; the bit mask of the image is that of `im`. -/
def readImageN (cfg : MakerCfg) (fl : FltPlanes) (im : SrcImage) (t : String) : Res (Option (Img Flt)) := do
  let raw ← readOneImageN fl t
  if t = "image" then do
    let bkg ← readOneImageN fl "bkg"
    match raw with
    | none => .error .typeError
    | some x => do
      let y ← (match bkg with | some b => subBkgN x b | none => .ok x)
      .ok (some (y.map (fun v => v.mul (.num im.info.scale))))
  else if t = "weight" then
    if cfg.minWeightKey then .error .runtimeError
    else
      match cfg.unusableBmask with
      | none =>
        match raw with
        | none => .error .typeError
        | some x => .ok (some (x.map (fun v => v.mul (Flt.invSquare im.info.scale))))
      | some flags => do
        let bm ← readOneImage im "bmask"
        match raw with
        | none => .error .typeError
        | some x => do
          let y ← (match bm with | some b => zeroWhereBadN flags x b | none => .ok x)
          .ok (some (y.map (fun v => v.mul (Flt.invSquare im.info.scale))))
  else .ok raw

/-- `default_values` (/repo/meds/defaults.py:8-13) as floats. -/
def defaultValueN (t : String) : Res Flt := do
  let v ← defaultValue t
  .ok (.num v)

/-- `_reserve_mosaic_images` and `_write_cutouts` (/repo/meds/maker.py:159-254) for one kind of cutout; `fl` has the float pixels of each image. -/
def writePlaneN (mk : Maker) (fl : Nat → FltPlanes) (t : String) : Res (List Flt) :=
  writeCutoutsG (fun j im => readImageN mk.cfg (fl j) im t) (subImageG (Flt.convert (mk.cfg.cast t)) (defaultValueN t)) mk.images mk.objs
    (List.replicate mk.totalPixels.toNat (.num 0))

end Maker

/-- A file as far as cutouts are read from it: its catalogue and the pixels of its cutout extensions. -/
structure FltFile where
  cat : ObjTable
  images : List (String × List Flt)

namespace Maker

/-- `write` (/repo/meds/maker.py:85-132); only the catalogue and the cutout extensions are followed. -/
def writeN (mk : Maker) (fl : Nat → FltPlanes) : Res (Maker × FltFile) := do
  let mk' ← mk.buildLayout
  let exts ← mapRes (fun t => do
    let pix ← mk'.writePlaneN fl t
    .ok (t ++ "_cutouts", pix)) mk'.types
  .ok (mk', { cat := { dtype := mk'.dtype, rows := mk'.objs }, images := exts })

end Maker

namespace FltFile

/-- The catalogue of the reader. -/
def reader (f : FltFile) : MEDS := { fits := ⟨[]⟩, cat := f.cat, info := [], metaData := "" }

/-- `get_cutout` (/repo/meds/meds.py:191-223) for cutouts of floats. -/
def getCutout (f : FltFile) (iobj icutout : Int) (type : String) : Res (Img Flt) := do
  f.reader.checkIndices iobj (some icutout)
  let o ← f.reader.row iobj
  let s ← f.reader.slot iobj icutout
  match f.images.lookup (type ++ "_cutouts") with
  | none => .error .valueError
  | some pix => do
    let imflat ← readSlice pix s.startRow (s.startRow + o.boxSize * o.boxSize)
    reshape imflat o.boxSize o.boxSize

end FltFile
end Meds
