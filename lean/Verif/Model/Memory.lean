import Verif.Model.Composite
import Verif.Model.Reject

/-!
# Arrays as memory

The rest of the model treats arrays as values.  Here the functions that hand out views, or write through them, work on memory: the arrays allocated so far,
and views into them.  (/repo/meds/meds.py:225-282, 387-443, 568-620, 683-705, 1071-1183.)
-/

namespace Meds.Memory

/-- The buffers allocated so far, row-major. -/
abbrev Mem (α : Type) := List (List α)

/-- A two-dimensional array as the caller holds it: a part of a buffer.  Simplification: only views without gaps between the rows, the kind made by slicing whole
rows of an array (/repo/meds/meds.py:1093). -/
structure View where
  buf : Nat
  off : Nat
  nr : Nat
  nc : Nat
deriving DecidableEq, Repr

variable {α : Type}

/-- The values seen through a view. -/
def View.read (v : View) (μ : Mem α) : Img α := ⟨v.nr, v.nc, ((μ.getD v.buf []).drop v.off).take (v.nr * v.nc)⟩

/-- Replace what is seen through a view, values in row-major order. -/
def View.write (v : View) (μ : Mem α) (xs : List α) : Mem α := μ.modify v.buf (fun b => b.take v.off ++ xs ++ b.drop (v.off + xs.length))

/-- `v[:, :] = im` (/repo/meds/meds.py:415, 595, 704); another shape is a ValueError (numpy's stretching of axes of length one does not occur). -/
def View.assign (v : View) (μ : Mem α) (im : Img α) : Res (Mem α) :=
  if im.nr = v.nr ∧ im.nc = v.nc then .ok (v.write μ im.flat) else .error .valueError

/-- `v[i, j] = x` by the caller, for indices within the array. -/
def View.set (v : View) (μ : Mem α) (i j : Nat) (x : α) : Mem α := μ.modify v.buf (fun b => b.set (v.off + (i * v.nc + j)) x)

/-- A new array. -/
def alloc (μ : Mem α) (im : Img α) : Mem α × View := (μ ++ [im.flat], ⟨μ.length, 0, im.nr, im.nc⟩)

/-- `v[r1:r2, :]` for `r1 ≤ r2`: the same memory. -/
def View.rows (v : View) (r1 r2 : Nat) : View := ⟨v.buf, v.off + r1 * v.nc, min r2 v.nr - r1, v.nc⟩

/-- `split_mosaic` (/repo/meds/meds.py:1071-1095). -/
def splitMosaic (v : View) : Res (List View) :=
  if v.nc = 0 then .error .zeroDivision
  else .ok ((List.range (v.nr / v.nc)).map (fun i => v.rows (i * v.nc) ((i + 1) * v.nc)))

/-- `get_cutout` (/repo/meds/meds.py:191-223): fitsio returns a new array, `reshape` does not copy. -/
def getCutout (m : MEDS) (μ : Mem ℚ) (iobj icutout : Int) (type : String) : Res (Mem ℚ × View) := do
  let im ← m.getCutout iobj icutout type
  .ok (alloc μ im)

/-- `get_mosaic` (/repo/meds/meds.py:225-255). -/
def getMosaic (m : MEDS) (μ : Mem ℚ) (iobj : Int) (type : String) : Res (Mem ℚ × View) := do
  let im ← m.getMosaic iobj type
  .ok (alloc μ im)

/-- One turn of `[self.get_psf(iobj, icut) for icut in range(ncut)]` (/repo/meds/meds.py:358). -/
def psfStep (m : MEDS) (iobj : Int) (st : Mem ℚ × List View) (k : Nat) : Res (Mem ℚ × List View) := do
  let im ← m.getPsf iobj k
  .ok ((alloc st.1 im).1, st.2 ++ [(alloc st.1 im).2])

/-- `get_cutout_list` (/repo/meds/meds.py:257-282, 344-358). -/
def getCutoutList (m : MEDS) (μ : Mem ℚ) (iobj : Int) (type : String) : Res (Mem ℚ × List View) :=
  if type = "psf" then do
    let o ← m.row iobj
    foldRes (psfStep m iobj) (μ, []) (List.range o.ncutout.toNat)
  else do
    let r ← getMosaic m μ iobj type
    let vs ← splitMosaic r.2
    .ok (r.1, vs)

/-- One turn of the loop `for icutout, wt in enumerate(wlist)` with `wt[:, :] = f(icutout, wt)` (/repo/meds/meds.py:412-415, 592-595, 700-704). -/
def replaceStep (f : Nat → Img ℚ → Res (Img ℚ)) (μ : Mem ℚ) (x : View × Nat) : Res (Mem ℚ) := do
  let c ← f x.2 (x.1.read μ)
  x.1.assign μ c

/-- `get_cweight_mosaic` (/repo/meds/meds.py:387-417). -/
def getCweightMosaic (m : MEDS) (μ : Mem ℚ) (iobj : Int) (restrict : Bool) : Res (Mem ℚ × View) := do
  let r ← getMosaic m μ iobj "weight"
  let coaddSeg ← m.getCutout iobj 0 "seg"
  let wlist ← splitMosaic r.2
  let μ' ← foldRes (replaceStep (fun k wt => m.makeComposite iobj k wt coaddSeg restrict)) r.1 wlist.zipIdx
  .ok (μ', r.2)

/-- `get_cweight_cutout_list` (/repo/meds/meds.py:419-443). -/
def getCweightCutoutList (m : MEDS) (μ : Mem ℚ) (iobj : Int) (restrict : Bool) : Res (Mem ℚ × List View) := do
  let r ← getCweightMosaic m μ iobj restrict
  let vs ← splitMosaic r.2
  .ok (r.1, vs)

/-- `get_cseg_mosaic` (/repo/meds/meds.py:568-597). -/
def getCsegMosaic (m : MEDS) (μ : Mem ℚ) (iobj : Int) : Res (Mem ℚ × View) := do
  let r ← getMosaic m μ iobj "seg"
  let n ← m.getNumber iobj
  let μ1 := r.2.write r.1 (List.replicate (r.2.nr * r.2.nc) (n : ℚ))
  let coaddSeg ← m.getCutout iobj 0 "seg"
  let wlist ← splitMosaic r.2
  let μ' ← foldRes (replaceStep (fun k seg => m.makeComposite iobj k seg coaddSeg false)) μ1 wlist.zipIdx
  .ok (μ', r.2)

/-- `get_cseg_cutout_list` (/repo/meds/meds.py:599-620). -/
def getCsegCutoutList (m : MEDS) (μ : Mem ℚ) (iobj : Int) : Res (Mem ℚ × List View) := do
  let r ← getCsegMosaic m μ iobj
  let vs ← splitMosaic r.2
  .ok (r.1, vs)

/-- `interpolate_coadd_seg_mosaic` (/repo/meds/meds.py:683-705); the turn of the coadd's own map is skipped, which writes the map onto itself here. -/
def interpolateCoaddSegMosaic (m : MEDS) (μ : Mem ℚ) (iobj : Int) : Res (Mem ℚ × View) := do
  let r ← getMosaic m μ iobj "seg"
  let segs ← splitMosaic r.2
  let μ' ← foldRes (replaceStep (fun k seg => if k = 0 then .ok seg else m.interpolateCoaddSeg iobj k)) r.1 segs.zipIdx
  .ok (μ', r.2)

section Reject
variable {K : Type} [Field K] [LinearOrder K]

/-- One turn of the loop of `reject_outliers` (/repo/meds/meds.py:1156-1181): `wt.clip(0.0, out=wt)` and `wt[w] = 0.0` write to the caller's array; the image is read
after the clipping. -/
def rejectStep (sqrt : K → K) (nsigma A : K) (med : Img K) (ims wts : List View) (st : Mem K × Nat) (i : Nat) : Res (Mem K × Nat) := do
  let im ← pyGet ims i
  let wt ← pyGet wts i
  let μ1 := wt.write st.1 ((wt.read st.1).map (max · 0)).flat
  if ¬ (wt.nr = im.nr ∧ wt.nc = im.nc) then .error .valueError
  else
    let w := Reject.outlier sqrt nsigma A med (im.read μ1) (wt.read μ1)
    .ok (wt.write μ1 (Img.zipWith (fun bad v => if bad then 0 else v) w (wt.read μ1)).flat, st.2 + w.flat.count true)

/-- `reject_outliers(imlist, wtlist, nsigma, A)` (/repo/meds/meds.py:1098-1183): the memory afterwards and the return value. -/
def rejectOutliers (sqrt : K → K) (nsigma A : K) (ims wts : List View) (μ : Mem K) : Res (Mem K × Nat) :=
  if ims.length < 3 then .ok (μ, 0)
  else
    match ims with
    | [] => .error .indexError
    | im0 :: _ =>
      if ims.any (fun im => decide (¬ (im.nr = im0.nr ∧ im.nc = im0.nc))) then .error .valueError
      else foldRes (rejectStep sqrt nsigma A (Reject.medianImage (im0.nr, im0.nc) (ims.map (·.read μ))) ims wts) (μ, 0) (List.range ims.length)

end Reject

end Meds.Memory
