import Verif.Model.RoughCut

/-!
# The rough sky cut with rounding (/repo/meds/maker.py:1058-1128)

The functions of `Model/RoughCut` with every arithmetic operation rounded by a function `rd`, and with the computed versions of the cosine and of `radec_to_uv` as
parameters.
-/

namespace Meds.RoughCut

/-- The arithmetic of the machine: rounding after each operation, the computed `numpy.cos(numpy.deg2rad(v / 3600.0))`, and the computed `radec_to_uv`. -/
structure Arith where
  rd : ℝ → ℝ
  cosf : ℝ → ℝ
  proj : ℝ → ℝ → ℝ → ℝ → Res (ℝ × ℝ)

/-- Number of intervals of the grid (/repo/meds/maker.py:1084-1089). -/
noncomputable def ordersF (A : Arith) (nrow ncol : Nat) : Nat × Nat :=
  if ncol < nrow then (⌈A.rd ((nrow : ℝ) / ncol)⌉₊, 4) else (4, ⌈A.rd ((ncol : ℝ) / nrow)⌉₊)

/-- `numpy.arange(order + 1) * (n - 1.0) / order` (/repo/meds/maker.py:1093-1094). -/
noncomputable def gridCoordsF (A : Arith) (n order : Nat) : List ℝ :=
  (List.range (order + 1)).map (fun k : Nat => A.rd (A.rd ((k : ℝ) * A.rd ((n : ℝ) - 1)) / order))

/-- The points of `meshgrid(rows, cols)` (/repo/meds/maker.py:1095-1097). -/
noncomputable def gridPointsF (A : Arith) (w : Wcs) : List (ℝ × ℝ) :=
  (gridCoordsF A w.ncol (ordersF A w.nrow w.ncol).2).flatMap (fun c => (gridCoordsF A w.nrow (ordersF A w.nrow w.ncol).1).map (fun r => (r, c)))

/-- A zero-offset position to the sky (/repo/meds/maker.py:1102-1103). -/
def Wcs.toSkyF (A : Arith) (w : Wcs) (row col : ℝ) : ℝ × ℝ := w.image2sky (A.rd (col + w.offset)) (A.rd (row + w.offset))

/-- Sky position of the middle of the image (/repo/meds/maker.py:1106-1113). -/
noncomputable def Wcs.ccdF (A : Arith) (w : Wcs) : ℝ × ℝ := w.toSkyF A (A.rd ((w.nrow : ℝ) / 2)) (A.rd ((w.ncol : ℝ) / 2))

/-- Computed `u, v` of a zero-offset position (/repo/meds/maker.py:1116). -/
noncomputable def Wcs.uvF (A : Arith) (w : Wcs) (row col : ℝ) : Res (ℝ × ℝ) :=
  A.proj (w.toSkyF A row col).1 (w.toSkyF A row col).2 (w.ccdF A).1 (w.ccdF A).2

open Classical in
/-- `_get_rough_sky_bounds` (/repo/meds/maker.py:1071-1128). -/
noncomputable def roughBoundsF (A : Arith) (buffer : ℝ) (w : Wcs) : Res RBounds :=
  if w.nrow = 0 ∨ w.ncol = 0 then .error .zeroDivision
  else do
    let uvs ← mapRes (fun p : ℝ × ℝ => w.uvF A p.1 p.2) (gridPointsF A w)
    let us := uvs.map Prod.fst
    let vs := uvs.map Prod.snd
    let ufac ← minOf (vs.map A.cosf)
    if ufac = 0 then .error .zeroDivision
    else do
      let ubuff := A.rd (buffer / ufac)
      let umin ← minOf us
      let umax ← maxOf us
      let vmin ← minOf vs
      let vmax ← maxOf vs
      .ok ⟨A.rd (umin - ubuff), A.rd (umax + ubuff), A.rd (vmin - buffer), A.rd (vmax + buffer)⟩

/-- `_do_rough_sky_cut` for one object (/repo/meds/maker.py:1058-1069): is it kept? -/
noncomputable def keepsF (A : Arith) (buffer : ℝ) (w : Wcs) (ra dec : ℝ) : Res Bool := do
  let b ← roughBoundsF A buffer w
  let uv ← A.proj ra dec (w.ccdF A).1 (w.ccdF A).2
  .ok (b.contains uv.1 uv.2)

end Meds.RoughCut
