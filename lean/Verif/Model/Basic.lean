import Mathlib.Data.Rat.Floor

/-!
# Python / numpy basics used by the model

Exceptions are values of `Err`; arrays are a shape plus a flat row-major list.
-/

namespace Meds

/-- The exception classes that the modelled code can raise.  `unmodelled` marks calls whose outcome the model leaves open
(for example a fitsio slice with a negative start, whose meaning depends on the fitsio version); `nullResult` is a C function
returning NULL / false. -/
inductive Err
  | valueError | indexError | keyError | typeError | assertionError | runtimeError
  | creationError | linAlgError | zeroDivision | notImplemented | unboundLocal | osError | attributeError
  | nullResult | unmodelled | overflowError
  deriving DecidableEq, Repr

/-- Result of a call: a value or an exception. -/
abbrev Res (α : Type) := Except Err α

/-- numpy scalar index into an axis of length `n`: negative indices wrap once, everything else out of range raises IndexError.
(numpy semantics; used by every `arr[i]` in /repo/meds.) -/
def pyIndex (n : Nat) (i : Int) : Res Nat :=
  if 0 ≤ i then
    if i < n then .ok i.toNat else .error .indexError
  else if -(n : Int) ≤ i then .ok (i + n).toNat else .error .indexError

/-- `l[i]` with numpy index semantics. -/
def pyGet {α : Type} (l : List α) (i : Int) : Res α :=
  match pyIndex l.length i with
  | .error e => .error e
  | .ok k =>
    match l[k]? with
    | some x => .ok x
    | none => .error .indexError

/-- Map a fallible function over a list, first failure wins (a Python `for` loop that appends results). -/
def mapRes {α β : Type} (f : α → Res β) : List α → Res (List β)
  | [] => .ok []
  | x :: xs =>
    match f x with
    | .error e => .error e
    | .ok y =>
      match mapRes f xs with
      | .error e => .error e
      | .ok ys => .ok (y :: ys)

/-- A Python `for` loop with mutable state. -/
def foldRes {σ α : Type} (f : σ → α → Res σ) : σ → List α → Res σ
  | s, [] => .ok s
  | s, x :: xs =>
    match f s x with
    | .error e => .error e
    | .ok s' => foldRes f s' xs

/-- A 2-d numpy array: shape and row-major data. -/
structure Img (α : Type) where
  nr : Nat
  nc : Nat
  flat : List α
  deriving DecidableEq, Repr

namespace Img
variable {α β : Type}

/-- The data has as many elements as the shape says. -/
def WF (im : Img α) : Prop := im.flat.length = im.nr * im.nc

instance (im : Img α) : Decidable im.WF := inferInstanceAs (Decidable (_ = _))

/-- Pixel `(i, j)` for in-range non-negative indices. -/
def get? (im : Img α) (i j : Nat) : Option α :=
  if i < im.nr ∧ j < im.nc then im.flat[i * im.nc + j]? else none

/-- Array filled from a function of the pixel position (`numpy.mgrid` based expressions). -/
def ofFn (nr nc : Nat) (f : Nat → Nat → α) : Img α :=
  { nr := nr, nc := nc,
    flat := (List.range (nr * nc)).map (fun k => f (k / nc) (k % nc)) }

/-- Elementwise map (a vectorised numpy expression). -/
def map (f : α → β) (im : Img α) : Img β :=
  { nr := im.nr, nc := im.nc, flat := im.flat.map f }

/-- Elementwise combination of two arrays of equal shape. -/
def zipWith {γ : Type} (f : α → β → γ) (a : Img α) (b : Img β) : Img γ :=
  { nr := a.nr, nc := a.nc, flat := List.zipWith f a.flat b.flat }

/-- `im[i, j]` with numpy index semantics (negative indices wrap). -/
def pyGet2 (im : Img α) (i j : Int) : Res α :=
  match pyIndex im.nr i with
  | .error e => .error e
  | .ok a =>
    match pyIndex im.nc j with
    | .error e => .error e
    | .ok b =>
      match im.get? a b with
      | some x => .ok x
      | none => .error .indexError

end Img

/-- `flat.reshape(r, c)`: raises ValueError unless the number of elements matches; negative sizes are rejected too
(numpy allows a single `-1`, which the code never passes on purpose; with two equal negative sizes numpy raises ValueError). -/
def reshape {α : Type} (flat : List α) (r c : Int) : Res (Img α) :=
  if 0 ≤ r ∧ 0 ≤ c ∧ (flat.length : Int) = r * c then
    .ok { nr := r.toNat, nc := c.toNat, flat := flat }
  else .error .valueError

/-- Truncation toward zero: Python `int(x)` and numpy `astype("i4")` of a float. -/
def truncZ (q : ℚ) : Int := if 0 ≤ q then ⌊q⌋ else ⌈q⌉

/-- numpy `round()` of a float: nearest integer, halves to even. -/
def roundHE (q : ℚ) : Int :=
  let f := ⌊q⌋
  let d := q - f
  if d < 1/2 then f
  else if 1/2 < d then f + 1
  else if f % 2 = 0 then f else f + 1

/-- numpy `clip(lo, hi)` on integers: `minimum(maximum(x, lo), hi)`. -/
def clipI (x lo hi : Int) : Int := min (max x lo) hi

/-- numpy `clip(lo, hi)` on floats. -/
def clipQ (x lo hi : ℚ) : ℚ := min (max x lo) hi

/-- The code's marker for unset fields, `DEFVAL` (/repo/meds/util.py:4). -/
def DEFVAL : Int := -9999

end Meds
