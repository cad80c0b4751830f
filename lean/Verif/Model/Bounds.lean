import Verif.Model.Basic

/-!
# Rectangles (/repo/meds/bounds.py)
-/

namespace Meds

/-- Class `Bounds` (/repo/meds/bounds.py:1-11). -/
structure Bounds where
  rowmin : ℚ
  rowmax : ℚ
  colmin : ℚ
  colmax : ℚ
  deriving DecidableEq, Repr

namespace Bounds

/-- `contains_point` (/repo/meds/bounds.py:13-25) and, per element, `contains_points` (27-39). -/
def containsPoint (b : Bounds) (row col : ℚ) : Bool :=
  row ≤ b.rowmax && b.rowmin ≤ row && col ≤ b.colmax && b.colmin ≤ col

/-- `contains_bounds` (/repo/meds/bounds.py:41-54). -/
def containsBounds (self b : Bounds) : Bool :=
  self.rowmin ≤ b.rowmin && b.rowmax ≤ self.rowmax && self.colmin ≤ b.colmin && b.colmax ≤ self.colmax

/-- `intersects_bounds` (/repo/meds/bounds.py:56-70). -/
def intersectsBounds (self b : Bounds) : Bool :=
  !(self.rowmax ≤ b.rowmin : Bool) && !(b.rowmax ≤ self.rowmin : Bool)
    && !(self.colmax ≤ b.colmin : Bool) && !(b.colmax ≤ self.colmin : Bool)

/-- `expand_point` (/repo/meds/bounds.py:72-89), returning the mutated object. -/
def expandPoint (b : Bounds) (row col : ℚ) : Bounds :=
  let b1 := if row < b.rowmin then { b with rowmin := row }
            else if b.rowmax < row then { b with rowmax := row } else b
  if col < b1.colmin then { b1 with colmin := col }
  else if b1.colmax < col then { b1 with colmax := col } else b1

/-- Minimum of a non-empty list (`arr.min()`); ValueError on an empty array. -/
def listMin : List ℚ → Res ℚ
  | [] => .error .valueError
  | x :: xs => .ok (xs.foldl min x)

/-- Maximum of a non-empty list (`arr.max()`); ValueError on an empty array. -/
def listMax : List ℚ → Res ℚ
  | [] => .error .valueError
  | x :: xs => .ok (xs.foldl max x)

/-- `expand_points` (/repo/meds/bounds.py:91-114). -/
def expandPoints (b : Bounds) (rows cols : List ℚ) : Res Bounds := do
  let rowmin ← listMin rows
  let rowmax ← listMax rows
  let colmin ← listMin cols
  let colmax ← listMax cols
  let b1 := if rowmin < b.rowmin then { b with rowmin := rowmin } else b
  let b2 := if b1.rowmax < rowmax then { b1 with rowmax := rowmax } else b1
  let b3 := if colmin < b2.colmin then { b2 with colmin := colmin } else b2
  let b4 := if b3.colmax < colmax then { b3 with colmax := colmax } else b3
  .ok b4

/-- `expand_bounds` (/repo/meds/bounds.py:116-135). -/
def expandBounds (self b : Bounds) : Bounds :=
  let s1 := if b.rowmin < self.rowmin then { self with rowmin := b.rowmin }
            else if self.rowmax < b.rowmax then { self with rowmax := b.rowmax } else self
  if b.colmin < s1.colmin then { s1 with colmin := b.colmin }
  else if s1.colmax < b.colmax then { s1 with colmax := b.colmax } else s1

end Bounds

/-- A record of `make_wcs_positions` (/repo/meds/util.py:321). -/
structure Pos where
  wcsRow : ℚ
  wcsCol : ℚ
  zrow : ℚ
  zcol : ℚ
  deriving DecidableEq, Repr

/-- `make_wcs_positions` (/repo/meds/util.py:302-338), per element. -/
def makeWcsPosition (row col offset : ℚ) (inverse : Bool) : Pos :=
  if inverse then
    { zrow := row, zcol := col, wcsRow := row + offset, wcsCol := col + offset }
  else
    { wcsRow := row, wcsCol := col, zrow := row - offset, zcol := col - offset }

end Meds
