import Verif.Model.Basic
import Mathlib.Data.List.Sort
import Mathlib.Algebra.Order.Field.Basic

/-!
# Outlier rejection (/repo/meds/meds.py:1098-1183)

Pixels are elements of an ordered field with a square root function as a parameter: the theorems take the reals, the concrete cases the rationals.
Rounding, NaN and integer weight arrays are not modelled here (see RejectF, RejectNaN), nor arrays that share memory (see Memory).
-/

namespace Meds.Reject

variable {K : Type} [Field K] [LinearOrder K]

/-- `numpy.median` of a non-empty stack: the middle value, or the mean of the two middle values. -/
def median (l : List K) : K :=
  let s := l.insertionSort (· ≤ ·)
  if l.length % 2 = 1 then s.getD (l.length / 2) 0
  else (s.getD (l.length / 2 - 1) 0 + s.getD (l.length / 2) 0) / 2

/-- `numpy.median(imstack, axis=0)` (/repo/meds/meds.py:1148-1154). -/
def medianImage (dims : Nat × Nat) (ims : List (Img K)) : Img K :=
  Img.ofFn dims.1 dims.2 (fun i j => median (ims.filterMap (·.get? i j)))

/-- What the caller sees afterwards: its two lists (the arrays are changed in place) and the return value. -/
structure Rejected (K : Type) where
  ims : List (Img K)
  wts : List (Img K)
  nreject : Nat
deriving DecidableEq

/-- `chi2_image > maxvals` for one image (/repo/meds/meds.py:1162-1176); `chi2_image` is a copy of the image, `wt` is clipped. -/
def outlier (sqrt : K → K) (nsigma A : K) (med im wt : Img K) : Img Bool :=
  let ierr := wt.map sqrt
  let chi2 := Img.zipWith (· - ·) im med
  let chi2 := Img.zipWith (· * ·) chi2 chi2
  let chi2 := Img.zipWith (· * ·) chi2 wt
  let maxvals := med.map (fun m => |m|)
  let maxvals := maxvals.map (· * A)
  let maxvals := Img.zipWith (· * ·) maxvals ierr
  let maxvals := maxvals.map (· + nsigma)
  let maxvals := Img.zipWith (· * ·) maxvals maxvals
  Img.zipWith (fun c m => decide (m < c)) chi2 maxvals

/-- One turn of the loop over images (/repo/meds/meds.py:1156-1181).  Weights of another shape raise (numpy broadcasting of axes of length one is not modelled). -/
def step (sqrt : K → K) (nsigma A : K) (med : Img K) (st : Rejected K) (i : Nat) : Res (Rejected K) := do
  let im ← pyGet st.ims i
  let wt ← pyGet st.wts i
  let wt := wt.map (max · 0)
  if ¬ (wt.nr = im.nr ∧ wt.nc = im.nc) then .error .valueError
  else
    let w := outlier sqrt nsigma A med im wt
    .ok { ims := st.ims
          wts := st.wts.set i (Img.zipWith (fun bad v => if bad then 0 else v) w wt)
          nreject := st.nreject + w.flat.count true }

/-- `reject_outliers(imlist, wtlist, nsigma, A)` (/repo/meds/meds.py:1098-1183).  Images of different shapes raise on `imstack[i, :, :] = im`. -/
def rejectOutliers (sqrt : K → K) (nsigma A : K) (ims wts : List (Img K)) : Res (Rejected K) :=
  if ims.length < 3 then .ok ⟨ims, wts, 0⟩
  else
    match ims with
    | [] => .error .indexError
    | im0 :: _ =>
      if ims.any (fun im => decide (¬ (im.nr = im0.nr ∧ im.nc = im0.nc))) then .error .valueError
      else foldRes (step sqrt nsigma A (medianImage (im0.nr, im0.nc) ims)) ⟨ims, wts, 0⟩ (List.range ims.length)

end Meds.Reject
