import Verif.Model.Reader

/-!
# Coadd segmentation maps combined with other images (/repo/meds/meds.py)

Composite weights and seg maps, interpolated seg maps, circular masks, and the pure Python uberseg.
-/

namespace Meds

namespace Img
variable {α β : Type}

/-- New pixel values computed from position and old value (numpy masks such as `cim[w] = 0`). -/
def mapPix (f : Nat → Nat → α → β) (im : Img α) : Img β :=
  { nr := im.nr, nc := im.nc, flat := im.flat.mapIdx (fun k v => f (k / im.nc) (k % im.nc) v) }

/-- Array filled by a function of the position that may raise. -/
def ofFnRes (nr nc : Nat) (f : Nat → Nat → Res α) : Res (Img α) := do
  let flat ← mapRes (fun k => f (k / nc) (k % nc)) (List.range (nr * nc))
  .ok { nr := nr, nc := nc, flat := flat }

end Img

namespace MEDS

/-- `numpy.matrix.getI` of a 2x2 matrix: LinAlgError for a singular one (/repo/meds/meds.py:765, 998-1003).  Simplification: exact arithmetic. -/
def Mat2.inv (j : Mat2) : Res Mat2 :=
  let det := j.a * j.d - j.b * j.c
  if det = 0 then .error .linAlgError
  else .ok { a := j.d / det, b := -j.b / det, c := -j.c / det, d := j.a / det }

/-- Pixel `(i, j)` of an epoch in coadd pixel coordinates: through u, v and back (/repo/meds/meds.py:759-773, 991-1011). -/
def toCoadd (cjinv se : Mat2) (ccen cen : ℚ × ℚ) (i j : Nat) : ℚ × ℚ :=
  let rowrel : ℚ := i - cen.1
  let colrel : ℚ := j - cen.2
  let u := rowrel * se.a + colrel * se.b
  let v := rowrel * se.c + colrel * se.d
  (ccen.1 + u * cjinv.a + v * cjinv.b, ccen.2 + u * cjinv.c + v * cjinv.d)

/-- `coadd_seg[crow, ccol]` after rounding and clipping (/repo/meds/meds.py:775-782, 1013-1020). -/
def coaddLabel (coaddSeg : Img ℚ) (p : ℚ × ℚ) : Res ℚ :=
  coaddSeg.pyGet2 (clipI (roundHE p.1) 0 (coaddSeg.nr - 1)) (clipI (roundHE p.2) 0 (coaddSeg.nc - 1))

/-- The `logic` mask of `_make_composite_image` for one label (/repo/meds/meds.py:982-984, 1020-1022). -/
def otherObject (restrict : Bool) (segid label : ℚ) : Bool :=
  decide (label ≠ segid) && (restrict || decide (label ≠ 0))

/-- Zero the pixels whose label in a map of the same shape is another object's (`cim[w] = 0`, /repo/meds/meds.py:982-989, 1020-1029).
Arrays of different shape do not occur (both are box_size by box_size); IndexError stands for them. -/
def maskBy (restrict : Bool) (segid : ℚ) (labels im : Img ℚ) : Res (Img ℚ) :=
  if labels.nr = im.nr ∧ labels.nc = im.nc then
    .ok (im.mapPix (fun i j v => match labels.get? i j with | some l => if otherObject restrict segid l then 0 else v | none => v))
  else .error .indexError

/-- `_make_composite_image` (/repo/meds/meds.py:963-1031). -/
def makeComposite (m : MEDS) (iobj icutout : Int) (im coaddSeg : Img ℚ) (restrict : Bool) : Res (Img ℚ) := do
  let ccen ← m.getCutoutRowcol iobj 0
  let cen ← m.getCutoutRowcol iobj icutout
  let segid ← coaddSeg.pyGet2 (truncZ ccen.1) (truncZ ccen.2)
  if icutout = 0 then maskBy restrict segid coaddSeg im
  else do
    let se ← m.getJacobianMatrix iobj icutout
    let cj ← m.getJacobianMatrix iobj 0
    match Mat2.inv cj with
    | .error _ => .ok (im.mapPix (fun _ _ _ => 0))
    | .ok cjinv => do
      let labels ← Img.ofFnRes im.nr im.nc (fun i j => coaddLabel coaddSeg (toCoadd cjinv se ccen cen i j))
      maskBy restrict segid labels im

/-- `get_cweight_cutout` (/repo/meds/meds.py:360-385). -/
def getCweightCutout (m : MEDS) (iobj icutout : Int) (restrict : Bool) : Res (Img ℚ) := do
  let wt ← m.getCutout iobj icutout "weight"
  let coaddSeg ← m.getCutout iobj 0 "seg"
  m.makeComposite iobj icutout wt coaddSeg restrict

/-- Writing the images of a list through the views made by `split_mosaic`: the top of the mosaic is replaced (/repo/meds/meds.py:409-415, 590-595). -/
def putBack (mosaic : Img ℚ) (parts : List (Img ℚ)) : Img ℚ :=
  let top := (parts.map (·.flat)).flatten
  { mosaic with flat := top ++ mosaic.flat.drop top.length }

/-- `get_cweight_mosaic` (/repo/meds/meds.py:387-417). -/
def getCweightMosaic (m : MEDS) (iobj : Int) (restrict : Bool) : Res (Img ℚ) := do
  let mosaic ← m.getMosaic iobj "weight"
  let coaddSeg ← m.getCutout iobj 0 "seg"
  let wlist ← splitMosaic mosaic
  let parts ← mapRes (fun x : Img ℚ × Nat => m.makeComposite iobj x.2 x.1 coaddSeg restrict) wlist.zipIdx
  .ok (putBack mosaic parts)

/-- `get_cweight_cutout_list` (/repo/meds/meds.py:419-443). -/
def getCweightCutoutList (m : MEDS) (iobj : Int) (restrict : Bool) : Res (List (Img ℚ)) := do
  let mosaic ← m.getCweightMosaic iobj restrict
  splitMosaic mosaic

/-- `get_cseg_cutout` (/repo/meds/meds.py:543-566). -/
def getCsegCutout (m : MEDS) (iobj icutout : Int) : Res (Img ℚ) := do
  let seg ← m.getCutout iobj icutout "seg"
  let n ← m.getNumber iobj
  let coaddSeg ← m.getCutout iobj 0 "seg"
  m.makeComposite iobj icutout (seg.map (fun _ => (n : ℚ))) coaddSeg false

/-- `get_cseg_mosaic` (/repo/meds/meds.py:568-597). -/
def getCsegMosaic (m : MEDS) (iobj : Int) : Res (Img ℚ) := do
  let mosaic ← m.getMosaic iobj "seg"
  let n ← m.getNumber iobj
  let filled := mosaic.map (fun _ => (n : ℚ))
  let coaddSeg ← m.getCutout iobj 0 "seg"
  let wlist ← splitMosaic filled
  let parts ← mapRes (fun x : Img ℚ × Nat => m.makeComposite iobj x.2 x.1 coaddSeg false) wlist.zipIdx
  .ok (putBack filled parts)

/-- `get_cseg_cutout_list` (/repo/meds/meds.py:599-620). -/
def getCsegCutoutList (m : MEDS) (iobj : Int) : Res (List (Img ℚ)) := do
  let mosaic ← m.getCsegMosaic iobj
  splitMosaic mosaic

/-- `_interpolate_coadd_seg_image` (/repo/meds/meds.py:736-784). -/
def interpolateImage (m : MEDS) (iobj : Int) (j : Mat2) (cen : Option (ℚ × ℚ)) : Res (Img ℚ) := do
  let coaddSeg ← m.getCutout iobj 0 "seg"
  let c := cen.getD (((coaddSeg.nr : ℚ) - 1) / 2, ((coaddSeg.nc : ℚ) - 1) / 2)
  let cj ← m.getJacobianMatrix iobj 0
  let ccen ← m.getCutoutRowcol iobj 0
  let cjinv ← Mat2.inv cj
  Img.ofFnRes coaddSeg.nr coaddSeg.nc (fun i k => coaddLabel coaddSeg (toCoadd cjinv j ccen c i k))

/-- `interpolate_coadd_seg` (/repo/meds/meds.py:707-734). -/
def interpolateCoaddSeg (m : MEDS) (iobj icutout : Int) : Res (Img ℚ) := do
  let coaddSeg ← m.getCutout iobj 0 "seg"
  if icutout = 0 then .ok coaddSeg
  else do
    let j ← m.getJacobianMatrix iobj icutout
    let cen ← m.getCutoutRowcol iobj icutout
    m.interpolateImage iobj j (some cen)

/-- One pass of the loop of `interpolate_coadd_seg_mosaic`: the coadd's own map is left as it is; shapes agree (/repo/meds/meds.py:700-704). -/
def interpolatePart (m : MEDS) (iobj : Int) (x : Img ℚ × Nat) : Res (Img ℚ) :=
  if x.2 = 0 then .ok x.1 else m.interpolateCoaddSeg iobj x.2

/-- `interpolate_coadd_seg_mosaic` (/repo/meds/meds.py:683-705). -/
def interpolateCoaddSegMosaic (m : MEDS) (iobj : Int) : Res (Img ℚ) := do
  let mosaic ← m.getMosaic iobj "seg"
  let segs ← splitMosaic mosaic
  let parts ← mapRes (m.interpolatePart iobj) segs.zipIdx
  .ok (putBack mosaic parts)

/-- `self['number'][iobj]` (/repo/meds/meds.py:479, 647): ValueError without the column. -/
def numberColumn (m : MEDS) (iobj : Int) : Res Int :=
  if m.cat.dtype.hasNumber then do
    let o ← m.row iobj
    .ok o.number
  else .error .valueError

/-- The positions, in row-major order, of the pixels that satisfy a condition (`numpy.where`). -/
def «where» (im : Img ℚ) (p : ℚ → Bool) : List (Nat × Nat) :=
  ((List.range (im.nr * im.nc)).map (fun k => (k / im.nc, k % im.nc))).filter
    (fun x => match im.get? x.1 x.2 with | some v => p v | none => false)

/-- Squared distance of a pixel from a centre (/repo/meds/meds.py:660-671). -/
def r2 (cen : ℚ × ℚ) (i j : Nat) : ℚ := ((i : ℚ) - cen.1) ^ 2 + ((j : ℚ) - cen.2) ^ 2

/-- Minimum of a list with a first element (`ndarray.min`). -/
def minList (x : ℚ) (l : List ℚ) : ℚ := l.foldl min x

/-- The centre used by `get_cseg_weight` (/repo/meds/meds.py:654-658). -/
def csegCentre (m : MEDS) (iobj icutout : Int) (canonical : Bool) (weight : Img ℚ) : Res (ℚ × ℚ) :=
  if canonical then .ok (((weight.nr : ℚ) - 1) / 2, ((weight.nc : ℚ) - 1) / 2)
  else m.getCutoutRowcol iobj icutout

/-- `get_cseg_weight` (/repo/meds/meds.py:622-681). -/
def getCsegWeight (m : MEDS) (iobj icutout : Int) (canonical : Bool) : Res (Img ℚ) := do
  let seg ← m.getCutout iobj icutout "seg"
  let weight ← m.getCutout iobj icutout "weight"
  let number ← m.numberColumn iobj
  match «where» seg (fun v => decide (v ≠ 0) && decide (v ≠ number)) with
  | [] => .ok weight
  | w :: ws => do
    let cen ← m.csegCentre iobj icutout canonical weight
    let minr2 := minList (r2 cen w.1 w.2) (ws.map (fun x => r2 cen x.1 x.2))
    .ok (weight.mapPix (fun i j v => if r2 cen i j < minr2 then v else 0))

/-- `numpy.argmin` over squared distances to a list of pixels, as the pixel itself: the first of the nearest (/repo/meds/meds.py:499-500). -/
def nearestTo (i j : Nat) (p : Nat × Nat) : List (Nat × Nat) → Nat × Nat
  | [] => p
  | q :: qs =>
    let d (x : Nat × Nat) : Int := ((i : Int) - x.1) ^ 2 + ((j : Int) - x.2) ^ 2
    if d q < d p then nearestTo i j q qs else nearestTo i j p qs

/-- Does the pure Python loop zero pixel `(i, j)` (/repo/meds/meds.py:499-505)?  `argmin` of an empty array is a ValueError. -/
def slowZero (seg : Img ℚ) (number : Int) (inds : List (Nat × Nat)) (i j : Nat) : Res Bool :=
  match inds with
  | [] => .error .valueError
  | p :: ps =>
    let q := nearestTo i j p ps
    match seg.get? q.1 q.2 with
    | some v => .ok (decide (v ≠ number))
    | none => .error .indexError

/-- Set pixels of the weight to zero. -/
def zeroWhere (zero : Img Bool) (weight : Img ℚ) : Img ℚ :=
  weight.mapPix (fun i j v => match zero.get? i j with | some true => 0 | _ => v)

/-- The pure Python loop (/repo/meds/meds.py:497-506). -/
def ubersegSlow (seg weight : Img ℚ) (number : Int) : Res (Img ℚ) := do
  let z ← Img.ofFnRes seg.nr seg.nc (slowZero seg number («where» seg (fun v => decide (v ≠ 0))))
  .ok (zeroWhere z weight)

/-- Distinct pixel values, `numpy.unique`, as far as their number is concerned. -/
def nUnique (im : Img ℚ) : Nat := im.flat.dedup.length

/-- `get_uberseg` (/repo/meds/meds.py:445-508) with the loop over pixels (slow or compiled) as a parameter. -/
def getUbersegWith (loop : Img ℚ → Img ℚ → Int → Res (Img ℚ)) (m : MEDS) (iobj icutout : Int) : Res (Img ℚ) := do
  let weight ← m.getCweightCutout iobj icutout false
  let seg ← m.interpolateCoaddSeg iobj icutout
  if nUnique seg = 2 then .ok weight
  else do
    let number ← m.numberColumn iobj
    loop seg weight number

/-- `get_uberseg(..., fast=False)`. -/
def getUbersegSlow (m : MEDS) (iobj icutout : Int) : Res (Img ℚ) := getUbersegWith ubersegSlow m iobj icutout

/-- `get_uberseg_list` (/repo/meds/meds.py:510-539), with the loop as a parameter. -/
def getUbersegListWith (loop : Img ℚ → Img ℚ → Int → Res (Img ℚ)) (m : MEDS) (iobj : Int) : Res (List (Img ℚ)) := do
  let o ← m.row iobj
  mapRes (fun k : Nat => getUbersegWith loop m iobj k) (List.range o.ncutout.toNat)

end MEDS
end Meds
