import Verif.Model.CoaddNaN
import Verif.Model.RejectNaN
import Verif.Model.Noise

/-!
# The epochs of an object with pixels that are not numbers (/repo/meds/coadd.py:449-602, 717-809; /repo/meds/meds.py:1098-1183)

`reject_outliers`, the tests, the interpolation and the noise images one after the other, for images and weights with NaN and infinities (`Model/CoaddNaN.lean` has the tests
and the interpolation of one epoch).  Rounding and overflow are not modelled, and a zero has no sign.
-/

namespace Meds
open Compare

namespace Compare.Flt

/-- `numpy.abs(x)`. -/
def absF : Flt → Flt
  | .num q => .num |q|
  | .nan => .nan
  | .inf _ => .inf false

/-- `numpy.sqrt(x)`; `rt` is the root of a number that is not negative. -/
def sqrtF (rt : ℚ → ℚ) : Flt → Flt
  | .num q => if q < 0 then .nan else .num (rt q)
  | .inf false => .inf false
  | _ => .nan

/-- `x.clip(0.0)`: NaN is left alone. -/
def clipF : Flt → Flt
  | .num q => .num (max q 0)
  | .nan => .nan
  | .inf s => if s then .num 0 else .inf false

/-- `a > b`; false if one of them is NaN. -/
def gtF : Flt → Flt → Bool
  | .num a, .num b => decide (b < a)
  | .inf s, .num _ => !s
  | .num _, .inf s => s
  | .inf s, .inf t => !s && t
  | _, _ => false

/-- `1.0 / x` in an array.  Simplification: a zero has no sign, so the quotient is plus infinity. -/
def recipF : Flt → Flt
  | .num q => if q = 0 then .inf false else .num (1 / q)
  | .nan => .nan
  | .inf _ => .num 0

end Compare.Flt

namespace Reject

/-- `numpy.median(imstack, axis=0)` (/repo/meds/meds.py:1148-1154). -/
def medianImageFlt (dims : Nat × Nat) (ims : List (Img Flt)) : Img Flt := Img.ofFn dims.1 dims.2 (fun i j => Coadd.medianF (ims.filterMap (·.get? i j)))

/-- What the caller sees afterwards. -/
structure RejectedFlt where
  ims : List (Img Flt)
  wts : List (Img Flt)
  nreject : Nat
deriving DecidableEq

/-- `chi2_image > maxvals` for one image (/repo/meds/meds.py:1162-1176). -/
def outlierFlt (rt : ℚ → ℚ) (nsigma A : ℚ) (med im wt : Img Flt) : Img Bool :=
  let ierr := wt.map (Flt.sqrtF rt)
  let chi2 := Img.zipWith Flt.sub im med
  let chi2 := Img.zipWith Flt.mul chi2 chi2
  let chi2 := Img.zipWith Flt.mul chi2 wt
  let maxvals := med.map Flt.absF
  let maxvals := maxvals.map (Flt.mul · (.num A))
  let maxvals := Img.zipWith Flt.mul maxvals ierr
  let maxvals := maxvals.map (Flt.add · (.num nsigma))
  let maxvals := Img.zipWith Flt.mul maxvals maxvals
  Img.zipWith Flt.gtF chi2 maxvals

/-- One turn of the loop over images (/repo/meds/meds.py:1156-1181).  Weights of another shape raise, as in `Model/Reject`. -/
def stepFlt (rt : ℚ → ℚ) (nsigma A : ℚ) (med : Img Flt) (st : RejectedFlt) (i : Nat) : Res RejectedFlt := do
  let im ← pyGet st.ims i
  let wt ← pyGet st.wts i
  let wt := wt.map Flt.clipF
  if ¬ (wt.nr = im.nr ∧ wt.nc = im.nc) then .error .valueError
  else
    let w := outlierFlt rt nsigma A med im wt
    .ok { ims := st.ims
          wts := st.wts.set i (Img.zipWith (fun bad v => if bad then .num 0 else v) w wt)
          nreject := st.nreject + w.flat.count true }

/-- `reject_outliers(imlist, wtlist, nsigma, A)` (/repo/meds/meds.py:1098-1183). -/
def rejectOutliersFlt (rt : ℚ → ℚ) (nsigma A : ℚ) (ims wts : List (Img Flt)) : Res RejectedFlt :=
  if ims.length < 3 then .ok ⟨ims, wts, 0⟩
  else
    match ims with
    | [] => .error .indexError
    | im0 :: _ =>
      if ims.any (fun im => decide (¬ (im.nr = im0.nr ∧ im.nc = im0.nc))) then .error .valueError
      else foldRes (stepFlt rt nsigma A (medianImageFlt (im0.nr, im0.nc) ims)) ⟨ims, wts, 0⟩ (List.range ims.length)

end Reject

namespace Coadd

/-- `_make_noise_image` (/repo/meds/coadd.py:781-790): the image, and the number of deviates drawn afterwards. -/
def makeNoiseImageF (rt : ℚ → ℚ) (draw : Nat → ℚ) (pos : Nat) (wt : Img Flt) : Img Flt × Nat :=
  ({ wt with flat := wt.flat.mapIdx (fun k w => (Flt.num (draw (pos + k))).mul (w.recipF.sqrtF rt)) }, pos + wt.flat.length)

/-- `_do_interp` (/repo/meds/coadd.py:792-809). -/
def doInterpF (interp : InterpF) (good : List Nat) (bad : List Bool) (im : Img Flt) : Img Flt :=
  { im with flat := im.flat.mapIdx (fun k v => if bad[k]? = some true then interpAtF interp good im k else v) }

/-- What `_interp_bad_pixels` leaves in the observation. -/
structure InterpedF where
  image : Img Flt
  weight : Img Flt
  noise : Img Flt
  ninterp : Nat
  pos : Nat
deriving DecidableEq

/-- `_interp_bad_pixels` (/repo/meds/coadd.py:717-779), with the noise image. -/
def interpNoiseF (rt : ℚ → ℚ) (interp : InterpF) (draw : Nat → ℚ) (pos : Nat) (flags : Option Int) (im : Img Flt) (bm : Img ℚ) (wt : Img Flt) : Res InterpedF :=
  let bad := (badPixelsF flags bm wt).flat
  if bad.count true = 0 then
    let n := makeNoiseImageF rt draw pos wt
    .ok ⟨im, wt, n.1, 0, n.2⟩
  else
    let good := (List.range bad.length).filter (fun k => bad[k]? == some false)
    if good.length = 0 then .error .valueError
    else
      let medwt := medianF (good.filterMap (fun k => wt.flat[k]?))
      let wt' : Img Flt := { wt with flat := wt.flat.mapIdx (fun k v => if bad[k]? = some true then medwt else v) }
      let n := makeNoiseImageF rt draw pos wt'
      .ok ⟨doInterpF interp good bad im, wt', doInterpF interp good bad n.1, bad.count true, n.2⟩

/-- The variables of the loop over epochs: what is handed on for each epoch that is used, with its index, `imflags`, and the deviates drawn. -/
structure LoopF where
  obs : List (Nat × InterpedF)
  flags : List Int
  pos : Nat
deriving DecidableEq

/-- One turn of the loop of `_get_obslist` (/repo/meds/coadd.py:491-600).  PSF, Jacobian and seg map do not depend on these pixels and are left out. -/
def epochStepF (rt : ℚ → ℚ) (interp : InterpF) (cfg : Cfg) (draw : Nat → ℚ) (ims wts : List (Img Flt)) (bms : List (Img ℚ)) (st : LoopF) (i : Nat) : Res LoopF := do
  let im ← pyGet ims i
  let wt ← pyGet wts i
  let bm ← pyGet bms i
  let bw ← symmetrizedF cfg bm wt
  let flag ← epochFlagF cfg bw.1 bw.2
  if flag ≠ 0 then .ok { st with flags := st.flags.set i flag }
  else do
    let r ← interpNoiseF rt interp draw st.pos cfg.badFlags im bw.1 bw.2
    .ok { st with obs := st.obs ++ [(i, r)], pos := r.pos }

/-- `_get_obslist` (/repo/meds/coadd.py:468-602) from the stamps of the epochs, without the coadd's own, which is the first of the file. -/
def obslistF (rt : ℚ → ℚ) (nsigma A : ℚ) (interp : InterpF) (cfg : Cfg) (draw : Nat → ℚ) (pos : Nat) (ims wts : List (Img Flt)) (bms : List (Img ℚ)) : Res LoopF := do
  let wts' ← (if cfg.rejectOutliers then do
    let r ← Reject.rejectOutliersFlt rt nsigma A ims wts
    .ok r.wts
  else .ok wts)
  foldRes (epochStepF rt interp cfg draw ims wts' bms) ⟨[], List.replicate ims.length 0, pos⟩ (List.range ims.length)

end Coadd
end Meds
