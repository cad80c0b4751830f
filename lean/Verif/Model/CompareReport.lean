import Verif.Model.Compare

/-!
# What a comparison prints (/repo/meds/compare.py)

The values of images, weights and catalogue columns have no influence on the exit status (`Model/Compare`); a difference is only printed.  Here the printed
messages.  Left out: the numbers in the messages (rms values), the means printed at the end, pictures, and rounding in the statistics.
-/

namespace Meds.Compare

/-- A floating point number with the special values. -/
inductive Flt
  | num (q : ℚ)
  | nan
  | inf (negative : Bool)
  deriving DecidableEq, Repr

namespace Flt

/-- `a - b`. -/
def sub : Flt → Flt → Flt
  | .num a, .num b => .num (a - b)
  | .nan, _ => .nan
  | _, .nan => .nan
  | .inf s, .inf t => if s = t then .nan else .inf s
  | .inf s, .num _ => .inf s
  | .num _, .inf s => .inf (!s)

/-- `numpy.isclose(a, b)` with its default tolerances (called at /repo/meds/compare.py:56). -/
def isclose : Flt → Flt → Bool
  | .num a, .num b => decide (|a - b| ≤ 1 / 10 ^ 8 + 1 / 10 ^ 5 * |b|)
  | .inf s, .inf t => s == t
  | _, _ => false

/-- `numpy.abs(a) < t`. -/
def absLt (a : Flt) (t : ℚ) : Bool :=
  match a with
  | .num q => decide (|q| < t)
  | _ => false

/-- The number, if it is one. -/
def num? : Flt → Option ℚ
  | .num q => some q
  | _ => none

end Flt

/-- A column of a catalogue: numbers, with the length of the sub-array if it is not a column of scalars; or text. -/
inductive Column
  | numbers (width : Option Nat) (rows : List (List Flt))
  | texts (rows : List String)

/-- The printed messages that tell about a difference.  `image` and `weight` come after a line with the number of the pair (/repo/meds/compare.py:98); the epoch is
not printed. -/
inductive Msg
  | column (name : String)
  | columnShape (name : String)
  | image (pair epoch : Nat)
  | weight (pair epoch nbad : Nat)
  deriving DecidableEq, Repr

/-- NumPy broadcasting of a row of length 1. -/
def expand (n : Nat) (l : List Flt) : List Flt := if l.length = 1 then (List.replicate n l).flatten else l

/-- One turn of the loop over the columns (/repo/meds/compare.py:54-73) for the objects with these indices.  `allclose` of text is a TypeError, which is not caught;
of lengths that do not fit a ValueError, which is printed.  Simplification: a column of scalars in one file and of sub-arrays in the other is not modelled. -/
def columnMsg (pairs : List (Nat × Nat)) (name : String) (c1 c2 : Column) : Res (List Msg) :=
  match c1, c2 with
  | .numbers w1 r1, .numbers w2 r2 =>
    if w1.isSome ≠ w2.isSome then .error .unmodelled
    else
      let n1 := w1.getD 1
      let n2 := w2.getD 1
      if n1 = n2 ∨ n1 = 1 ∨ n2 = 1 then
        let n := if n1 = 1 then n2 else n1
        let close := pairs.all (fun p =>
          (List.zipWith Flt.isclose (expand n ((r1[p.1]?).getD [])) (expand n ((r2[p.2]?).getD []))).all id)
        .ok (if close then [] else [.column name])
      else .ok [.columnShape name]
  | _, _ => .error .typeError

/-- The shape check (/repo/meds/compare.py:195-197, 218-220). -/
def sameShapeF (im1 im2 : Img Flt) : Res Unit := if im1.nr ≠ im2.nr ∨ im1.nc ≠ im2.nc then .error .valueError else .ok ()

/-- `diff = im1 - im2` (/repo/meds/compare.py:199, 222), as a list of pixels. -/
def diffs (im1 im2 : Img Flt) : List Flt := List.zipWith Flt.sub im1.flat im2.flat

/-- `diff.std() > tol` (/repo/meds/compare.py:201-203): false for NaN, which is what comes out if a pixel is not a finite number or there is none. -/
def stdAbove (tol : ℚ) (d : List Flt) : Bool :=
  match d.mapM Flt.num? with
  | none => false
  | some l =>
    let n : ℚ := l.length
    let mean := l.sum / n
    let var := (l.map (fun x => (x - mean) ^ 2)).sum / n
    decide (l ≠ []) && decide (tol < 0 ∨ tol ^ 2 < var)

/-- `_compare_images` (/repo/meds/compare.py:189-212): is the message printed? -/
def imageOff (tol : ℚ) (im1 im2 : Img Flt) : Res Bool := do
  sameShapeF im1 im2
  .ok (stdAbove tol (diffs im1 im2))

/-- `_compare_weights` (/repo/meds/compare.py:214-229): the number of pixels in the message; none is printed for zero.  The tolerance is at line 29. -/
def weightsOff (im1 im2 : Img Flt) : Res Nat := do
  sameShapeF im1 im2
  .ok ((diffs im1 im2).filter (fun d => !d.absLt (1 / 10000))).length

/-- One turn of the inner loop (/repo/meds/compare.py:104-118). -/
def Comparator.cutoutMsgs (c : Comparator) (tol : ℚ) (type : String) (index i1 i2 k : Nat) : Res (List Msg) := do
  let im2 ← c.m2.getCutout i2 k type
  let im1 ← c.m1.getCutout i1 k type
  if type = "image" then do
    let b ← imageOff tol (im1.map Flt.num) (im2.map Flt.num)
    .ok (if b then [.image index k] else [])
  else if type = "weight" then do
    let n ← weightsOff (im1.map Flt.num) (im2.map Flt.num)
    .ok (if n = 0 then [] else [.weight index k n])
  else do
    compareExact im1 im2
    .ok []

/-- One turn of the outer loop (/repo/meds/compare.py:97-118). -/
def Comparator.pairMsgs (c : Comparator) (tol : ℚ) (type : String) (x : (Nat × Nat) × Nat) : Res (List Msg) := do
  let ncut ← c.checkNcutout x.1.1 x.1.2
  let l ← mapRes (fun k => c.cutoutMsgs tol type x.2 x.1.1 x.1.2 k) (List.range ncut.toNat)
  .ok l.flatten

/-- `compare_images` without `nrand` (/repo/meds/compare.py:75-118). -/
def Comparator.imagesMsgs (c : Comparator) (tol : ℚ) (pairs : List (Nat × Nat)) (type : String) : Res (List Msg) := do
  let l ← mapRes (c.pairMsgs tol type) pairs.zipIdx
  .ok l.flatten

/-- `go` (/repo/meds/compare.py:31-41) without `nrand`, with `png_prefix=None`, for files whose catalogues have these columns. -/
def Comparator.report (c : Comparator) (cols1 cols2 : List (String × Column)) (tol : ℚ) : Res (List Msg) := do
  let pairs ← c.matched
  if cols1.map (·.1) ≠ cols2.map (·.1) then .error .valueError
  else do
    let l0 ← mapRes (fun x : (String × Column) × (String × Column) => columnMsg pairs x.1.1 x.1.2 x.2.2) (cols1.zip cols2)
    let l1 ← mapRes (c.imagesMsgs tol pairs) ["image", "weight", "bmask", "seg"]
    .ok (l0.flatten ++ l1.flatten)

end Meds.Compare
