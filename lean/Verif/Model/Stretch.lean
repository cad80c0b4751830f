import Verif.Model.Viewer
import Mathlib.Analysis.SpecialFunctions.Log.Base
import Mathlib.Analysis.SpecialFunctions.Pow.NNReal

/-!
# From the pixels of a cutout to the grey values of its picture (/repo/scripts/meds-view)

Exact real numbers instead of floating point numbers.  NaN is `none`.
-/

namespace Meds.View

/-- `im.min()`. -/
def minOf {K : Type} [LinearOrder K] : List K → Option K
  | [] => none
  | x :: xs => some (xs.foldl min x)

/-- `im *= (1.0/im.max())` (/repo/scripts/meds-view:1063, 1075) for pixels that are not NaN.  `none` when the maximum is zero: the factor is infinite, the
pixels with the maximum become NaN. -/
noncomputable def byMax (im : List ℝ) : Res (Option (List ℝ)) :=
  match maxOf im with
  | none => .error .valueError
  | some m => if m = 0 then .ok none else .ok (some (im.map (fun x => x * (1 / m))))

/-- The treatment of an `image` cutout in `plot_one` (/repo/scripts/meds-view:1052-1065): NaN replaced by zero, one standard deviation at the largest weight
added, divided by the maximum.  Without a positive weight the pixels are left as they are. -/
noncomputable def stretchImage (im : List (Option ℝ)) (wt : List ℝ) : Res (Option (List ℝ)) :=
  let a := im.map (fun x => x.getD 0)
  match maxOf wt with
  | none => .error .valueError
  | some w =>
    if 0 < w then
      let std := Real.sqrt (1 / w)
      byMax (a.map (fun x => x + std))
    else .ok (some a)

/-- The treatment of a PSF image in `plot_one` (/repo/scripts/meds-view:1067-1076): logarithm, the smallest value moved to zero, divided by the maximum. -/
noncomputable def stretchPsf (im : List ℝ) : Res (Option (List ℝ)) :=
  let a := im.map (fun x => Real.logb 10 (max x (1 / 1000000)))
  match minOf a with
  | none => .error .valueError
  | some lo => byMax (a.map (fun x => x - lo))

/-- The treatment of a `seg` or `bmask` cutout in `plot_one` (/repo/scripts/meds-view:1078-1085).  Simplification: pixels of -1 and below, where the logarithm is
not a number, are outside the model. -/
noncomputable def stretchSeg (im : List ℝ) : Res (Option (List ℝ)) :=
  if im.all (fun x => decide (-1 < x)) then .ok (some (im.map (fun x => Real.logb 10 (x + 1)))) else .error .unmodelled

/-- The cutout, or PSF image, as it was read from the file. -/
inductive Plane
  | image (im : List (Option ℝ)) (wt : List ℝ)
  | psf (im : List ℝ)
  | segOrBmask (im : List ℝ)
  | other (im : List ℝ)

/-- The part of `plot_one` before drawing, for one cutout (/repo/scripts/meds-view:1045-1085).  The local variable `nonlinear` is set but not handed on. -/
noncomputable def stretch : Plane → Res (Option (List ℝ))
  | .image im wt => stretchImage im wt
  | .psf im => stretchPsf im
  | .segOrBmask im => stretchSeg im
  | .other im => .ok (some im)

/-- The grey values of the picture of one cutout: `plot_one`, `view_mosaic` without `--combine`, `view`, `scale_image`
(/repo/scripts/meds-view:1038-1096, 279-310, 90, 815-833).  If a pixel is NaN then so is the maximum, and all grey values are. -/
noncomputable def greys (p : Plane) (npix : Nat) : Res (List (Option ℝ)) := do
  let s ← stretch p
  match s with
  | none => .ok (List.replicate npix none)
  | some l => linearScale l

end Meds.View
