import Verif.Model.Reject
import Verif.Model.PixelTypes

/-!
# Outlier rejection in the types of the arrays (/repo/meds/meds.py:1098-1183)

As `Model/Reject`, with every operation rounded as NumPy rounds it.  The copy `chi2_image` has the type of the image, so that its in-place operations are put back into
that type; the stack, its median and `maxvals` are of doubles; `ierr` has the type of the weights.  The square root is a parameter (one for each number of bits).
`nsigma` and `A` are Python floats.  Left out: overflow, underflow, infinities and NaN (for NaN see `Model/RejectNaN`), and a weight array that occurs twice.
-/

namespace Meds.Reject

/-- An array of pixels with its type. -/
abbrev PixArr := PixType × Img ℚ

/-- `numpy.median` of doubles: the middle value, or the mean of the two middle values, whose sum is rounded before it is halved. -/
def medianF (l : List ℚ) : ℚ :=
  let s := l.insertionSort (· ≤ ·)
  if l.length % 2 = 1 then s.getD (l.length / 2) 0
  else rndP 53 (rndP 53 (s.getD (l.length / 2 - 1) 0 + s.getD (l.length / 2) 0) / 2)

/-- `numpy.median(imstack, axis=0)` (/repo/meds/meds.py:1148-1154); putting pixels of any of the types into the stack of doubles changes nothing. -/
def medianImageF (dims : Nat × Nat) (ims : List PixArr) : Img ℚ :=
  Img.ofFn dims.1 dims.2 (fun i j => medianF (ims.filterMap (fun a => a.2.get? i j)))

/-- `a op= b` for an array of type `k` and one of type `kb`: computed with the bits of `workBits`, put back into the type of the first. -/
def inPlace (k kb : PixType) (v : ℚ) : ℚ := rndP k.bits (rndP (workBits k kb) v)

/-- `chi2_image > maxvals` for one image of type `ki` with weights of type `kw` (/repo/meds/meds.py:1162-1176). -/
def outlierF (rt : Nat → ℚ → ℚ) (nsigma A : ℚ) (med : Img ℚ) (ki kw : PixType) (im wt : Img ℚ) : Img Bool :=
  let ierr := wt.map (rt kw.bits)
  let chi2 := Img.zipWith (fun a b => inPlace ki .f8 (a - b)) im med
  let chi2 := Img.zipWith (fun a b => inPlace ki ki (a * b)) chi2 chi2
  let chi2 := Img.zipWith (fun a b => inPlace ki kw (a * b)) chi2 wt
  let maxvals := med.map (fun m => |m|)
  let maxvals := maxvals.map (fun v => inPlace .f8 .f8 (v * A))
  let maxvals := Img.zipWith (fun a b => inPlace .f8 kw (a * b)) maxvals ierr
  let maxvals := maxvals.map (fun v => inPlace .f8 .f8 (v + nsigma))
  let maxvals := Img.zipWith (fun a b => inPlace .f8 .f8 (a * b)) maxvals maxvals
  Img.zipWith (fun c m => decide (m < c)) chi2 maxvals

/-- What the caller sees afterwards. -/
structure RejectedF where
  ims : List PixArr
  wts : List PixArr
  nreject : Nat
deriving DecidableEq

/-- One turn of the loop (/repo/meds/meds.py:1156-1181).  `wt.clip(0.0, out=wt)` cannot put floats into an array of integers, `chi2_image -= med` cannot either
(UFuncTypeError, a TypeError). -/
def stepF (rt : Nat → ℚ → ℚ) (nsigma A : ℚ) (med : Img ℚ) (st : RejectedF) (i : Nat) : Res RejectedF := do
  let im ← pyGet st.ims i
  let wt ← pyGet st.wts i
  if wt.1.isInt then .error .typeError
  else
    let clipped := wt.2.map (max · 0)
    if im.1.isInt then .error .typeError
    else if ¬ (clipped.nr = im.2.nr ∧ clipped.nc = im.2.nc) then .error .valueError
    else
      let w := outlierF rt nsigma A med im.1 wt.1 im.2 clipped
      .ok { ims := st.ims
            wts := st.wts.set i (wt.1, Img.zipWith (fun bad v => if bad then 0 else v) w clipped)
            nreject := st.nreject + w.flat.count true }

/-- `reject_outliers(imlist, wtlist, nsigma, A)` (/repo/meds/meds.py:1098-1183) on arrays of machine numbers. -/
def rejectOutliersF (rt : Nat → ℚ → ℚ) (nsigma A : ℚ) (ims wts : List PixArr) : Res RejectedF :=
  if ims.length < 3 then .ok ⟨ims, wts, 0⟩
  else
    match ims with
    | [] => .error .indexError
    | im0 :: _ =>
      if ims.any (fun im => decide (¬ (im.2.nr = im0.2.nr ∧ im.2.nc = im0.2.nc))) then .error .valueError
      else foldRes (stepF rt nsigma A (medianImageF (im0.2.nr, im0.2.nc) ims)) ⟨ims, wts, 0⟩ (List.range ims.length)

end Meds.Reject
