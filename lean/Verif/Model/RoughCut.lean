import Verif.Model.Tangent
import Mathlib.Algebra.Order.Floor.Ring
import Mathlib.Data.Real.Archimedean

/-!
# The rough sky cut (/repo/meds/maker.py:1058-1128)

Positions and angles are real; rounding is not modelled.  The world coordinate system is a parameter; `get_naxis` is taken to return numpy numbers
(`make_wcs_positions` asks for `row.size`, which a Python float does not have).
-/

namespace Meds.RoughCut
open Tangent

/-- What the cut uses of a wcs object: `get_naxis`, `image2sky` and the `position_offset` added by the maker (/repo/meds/maker.py:791-794). -/
structure Wcs where
  nrow : Nat
  ncol : Nat
  offset : ℝ
  /-- arguments: column, row; result: ra, dec -/
  image2sky : ℝ → ℝ → ℝ × ℝ

/-- A zero-offset position to the sky: `make_wcs_positions(..., inverse=True)` and `image2sky` (/repo/meds/maker.py:1103-1104). -/
def Wcs.toSky (w : Wcs) (row col : ℝ) : ℝ × ℝ := w.image2sky (col + w.offset) (row + w.offset)

/-- Number of intervals of the grid along the rows and the columns (/repo/meds/maker.py:1084-1089). -/
noncomputable def orders (nrow ncol : Nat) : Nat × Nat :=
  if ncol < nrow then (⌈(nrow : ℝ) / ncol⌉₊, 4) else (4, ⌈(ncol : ℝ) / nrow⌉₊)

/-- `numpy.arange(order + 1) * (n - 1.0) / order` (/repo/meds/maker.py:1093-1094). -/
noncomputable def gridCoords (n order : Nat) : List ℝ := (List.range (order + 1)).map (fun k : Nat => (k : ℝ) * ((n : ℝ) - 1) / order)

/-- The points of `meshgrid(rows, cols)` (/repo/meds/maker.py:1095-1097). -/
noncomputable def gridPoints (w : Wcs) : List (ℝ × ℝ) :=
  (gridCoords w.ncol (orders w.nrow w.ncol).2).flatMap (fun c => (gridCoords w.nrow (orders w.nrow w.ncol).1).map (fun r => (r, c)))

/-- `arr.min()` of a real array. -/
noncomputable def minOf : List ℝ → Res ℝ
  | [] => .error .valueError
  | x :: xs => .ok (xs.foldl min x)

/-- `arr.max()` of a real array. -/
noncomputable def maxOf : List ℝ → Res ℝ
  | [] => .error .valueError
  | x :: xs => .ok (xs.foldl max x)

/-- `Bounds` of real numbers. -/
structure RBounds where
  rowmin : ℝ
  rowmax : ℝ
  colmin : ℝ
  colmax : ℝ

open Classical in
/-- `contains_points`, per element (/repo/meds/bounds.py:27-39). -/
noncomputable def RBounds.contains (b : RBounds) (row col : ℝ) : Bool :=
  decide (row ≤ b.rowmax) && decide (b.rowmin ≤ row) && decide (col ≤ b.colmax) && decide (b.colmin ≤ col)

/-- Sky position of the middle of the image (/repo/meds/maker.py:1107-1114). -/
noncomputable def Wcs.ccd (w : Wcs) : ℝ × ℝ := w.toSky ((w.nrow : ℝ) / 2) ((w.ncol : ℝ) / 2)

/-- `u, v` of a zero-offset position, relative to the middle of the image (/repo/meds/maker.py:1117). -/
noncomputable def Wcs.uv (w : Wcs) (row col : ℝ) : Res (ℝ × ℝ) := radecToUv (w.toSky row col).1 (w.toSky row col).2 w.ccd.1 w.ccd.2

open Classical in
/-- `_get_rough_sky_bounds` (/repo/meds/maker.py:1071-1128): an empty image divides by zero; where `ufac` is zero numpy gives infinities, an error here. -/
noncomputable def roughBounds (buffer : ℝ) (w : Wcs) : Res RBounds :=
  if w.nrow = 0 ∨ w.ncol = 0 then .error .zeroDivision
  else do
    let uvs ← mapRes (fun p : ℝ × ℝ => w.uv p.1 p.2) (gridPoints w)
    let us := uvs.map Prod.fst
    let vs := uvs.map Prod.snd
    let ufac ← minOf (vs.map (fun v => Real.cos (v / 3600 * (Real.pi / 180))))
    if ufac = 0 then .error .zeroDivision
    else do
      let ubuff := buffer / ufac
      let umin ← minOf us
      let umax ← maxOf us
      let vmin ← minOf vs
      let vmax ← maxOf vs
      .ok ⟨umin - ubuff, umax + ubuff, vmin - buffer, vmax + buffer⟩

/-- `_do_rough_sky_cut` for one object (/repo/meds/maker.py:1058-1069): is it kept? -/
noncomputable def keeps (buffer : ℝ) (w : Wcs) (ra dec : ℝ) : Res Bool := do
  let b ← roughBounds buffer w
  let uv ← radecToUv ra dec w.ccd.1 w.ccd.2
  .ok (b.contains uv.1 uv.2)

end Meds.RoughCut
