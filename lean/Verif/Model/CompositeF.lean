import Verif.Model.Composite
import Verif.Model.Machine

/-!
# Composite images in double precision (/repo/meds/meds.py)

`Model/Composite.lean` computes positions and distances with exact numbers.  Here every operation is rounded to a double as numpy does it.  `inv` is the matrix
inversion of `numpy.matrix.getI` (LAPACK), which is a parameter.  Left out: overflow and underflow of doubles.
-/

namespace Meds
namespace MEDS

/-- Pixel `(i, j)` of an epoch in coadd pixel coordinates, in doubles (/repo/meds/meds.py:759-773, 991-1011): the centre subtracted, through u, v and back. -/
def toCoaddF (cjinv se : Mat2) (ccen cen : ℚ × ℚ) (i j : Nat) : ℚ × ℚ :=
  let rowrel := rndD (i - cen.1)
  let colrel := rndD (j - cen.2)
  let u := rndD (rndD (rowrel * se.a) + rndD (colrel * se.b))
  let v := rndD (rndD (rowrel * se.c) + rndD (colrel * se.d))
  (rndD (rndD (ccen.1 + rndD (u * cjinv.a)) + rndD (v * cjinv.b)), rndD (rndD (ccen.2 + rndD (u * cjinv.c)) + rndD (v * cjinv.d)))

/-- `_make_composite_image` (/repo/meds/meds.py:963-1031). -/
def makeCompositeF (inv : Mat2 → Res Mat2) (m : MEDS) (iobj icutout : Int) (im coaddSeg : Img ℚ) (restrict : Bool) : Res (Img ℚ) := do
  let ccen ← m.getCutoutRowcol iobj 0
  let cen ← m.getCutoutRowcol iobj icutout
  let segid ← coaddSeg.pyGet2 (truncZ ccen.1) (truncZ ccen.2)
  if icutout = 0 then maskBy restrict segid coaddSeg im
  else do
    let se ← m.getJacobianMatrix iobj icutout
    let cj ← m.getJacobianMatrix iobj 0
    match inv cj with
    | .error _ => .ok (im.mapPix (fun _ _ _ => 0))
    | .ok cjinv => do
      let labels ← Img.ofFnRes im.nr im.nc (fun i j => coaddLabel coaddSeg (toCoaddF cjinv se ccen cen i j))
      maskBy restrict segid labels im

/-- `get_cweight_cutout` (/repo/meds/meds.py:360-385). -/
def getCweightCutoutF (inv : Mat2 → Res Mat2) (m : MEDS) (iobj icutout : Int) (restrict : Bool) : Res (Img ℚ) := do
  let wt ← m.getCutout iobj icutout "weight"
  let coaddSeg ← m.getCutout iobj 0 "seg"
  makeCompositeF inv m iobj icutout wt coaddSeg restrict

/-- `get_cseg_cutout` (/repo/meds/meds.py:543-566). -/
def getCsegCutoutF (inv : Mat2 → Res Mat2) (m : MEDS) (iobj icutout : Int) : Res (Img ℚ) := do
  let seg ← m.getCutout iobj icutout "seg"
  let n ← m.getNumber iobj
  let coaddSeg ← m.getCutout iobj 0 "seg"
  makeCompositeF inv m iobj icutout (seg.map (fun _ => (n : ℚ))) coaddSeg false

/-- `_interpolate_coadd_seg_image` (/repo/meds/meds.py:736-784) with a centre given. -/
def interpolateImageF (inv : Mat2 → Res Mat2) (m : MEDS) (iobj : Int) (j : Mat2) (cen : ℚ × ℚ) : Res (Img ℚ) := do
  let coaddSeg ← m.getCutout iobj 0 "seg"
  let cj ← m.getJacobianMatrix iobj 0
  let ccen ← m.getCutoutRowcol iobj 0
  let cjinv ← inv cj
  Img.ofFnRes coaddSeg.nr coaddSeg.nc (fun i k => coaddLabel coaddSeg (toCoaddF cjinv j ccen cen i k))

/-- `interpolate_coadd_seg` (/repo/meds/meds.py:707-734). -/
def interpolateCoaddSegF (inv : Mat2 → Res Mat2) (m : MEDS) (iobj icutout : Int) : Res (Img ℚ) := do
  let coaddSeg ← m.getCutout iobj 0 "seg"
  if icutout = 0 then .ok coaddSeg
  else do
    let j ← m.getJacobianMatrix iobj icutout
    let cen ← m.getCutoutRowcol iobj icutout
    interpolateImageF inv m iobj j cen

/-- `get_uberseg` (/repo/meds/meds.py:445-508) with the loop over pixels (slow or compiled) as a parameter. -/
def getUbersegF (inv : Mat2 → Res Mat2) (loop : Img ℚ → Img ℚ → Int → Res (Img ℚ)) (m : MEDS) (iobj icutout : Int) : Res (Img ℚ) := do
  let weight ← getCweightCutoutF inv m iobj icutout false
  let seg ← interpolateCoaddSegF inv m iobj icutout
  if nUnique seg = 2 then .ok weight
  else do
    let number ← m.numberColumn iobj
    loop seg weight number

/-- Squared distance of a pixel from a centre in doubles (/repo/meds/meds.py:665-671). -/
def r2F (cen : ℚ × ℚ) (i j : Nat) : ℚ :=
  let row := rndD (i - cen.1)
  let col := rndD (j - cen.2)
  rndD (rndD (row * row) + rndD (col * col))

/-- `get_cseg_weight` (/repo/meds/meds.py:622-681). -/
def getCsegWeightF (m : MEDS) (iobj icutout : Int) (canonical : Bool) : Res (Img ℚ) := do
  let seg ← m.getCutout iobj icutout "seg"
  let weight ← m.getCutout iobj icutout "weight"
  let number ← m.numberColumn iobj
  match «where» seg (fun v => decide (v ≠ 0) && decide (v ≠ number)) with
  | [] => .ok weight
  | w :: ws => do
    let cen ← m.csegCentre iobj icutout canonical weight
    let minr2 := minList (r2F cen w.1 w.2) (ws.map (fun x => r2F cen x.1 x.2))
    .ok (weight.mapPix (fun i j v => if r2F cen i j < minr2 then v else 0))

end MEDS
end Meds
