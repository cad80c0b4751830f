import Verif.Model.Reject

/-!
# Outlier rejection with pixels that are not numbers (/repo/meds/meds.py:1098-1183)

As `Model/Reject`, for floating point arrays with NaN, which is `none` here.  Infinities and rounding are not modelled.
-/

namespace Meds.Reject

variable {K : Type} [Field K] [LinearOrder K]

/-- An operation on two numbers; NaN if one of them is. -/
def nan2 (f : K → K → K) (a b : Option K) : Option K :=
  match a, b with
  | some x, some y => some (f x y)
  | _, _ => none

/-- `a > b`; false if one of them is NaN. -/
def gtN (a b : Option K) : Bool :=
  match a, b with
  | some x, some y => decide (y < x)
  | _, _ => false

/-- `numpy.median` of a stack: NaN if one of the values is. -/
def medianN (l : List (Option K)) : Option K := if l.any Option.isNone then none else some (median (l.filterMap id))

/-- `numpy.median(imstack, axis=0)` (/repo/meds/meds.py:1148-1154). -/
def medianImageN (dims : Nat × Nat) (ims : List (Img (Option K))) : Img (Option K) :=
  Img.ofFn dims.1 dims.2 (fun i j => medianN (ims.filterMap (·.get? i j)))

/-- What the caller sees afterwards. -/
structure RejectedN (K : Type) where
  ims : List (Img (Option K))
  wts : List (Img (Option K))
  nreject : Nat
deriving DecidableEq

/-- `chi2_image > maxvals` for one image (/repo/meds/meds.py:1162-1176); a comparison with NaN is false. -/
def outlierN (sqrt : K → K) (nsigma A : K) (med im wt : Img (Option K)) : Img Bool :=
  let ierr := wt.map (Option.map sqrt)
  let chi2 := Img.zipWith (nan2 (· - ·)) im med
  let chi2 := Img.zipWith (nan2 (· * ·)) chi2 chi2
  let chi2 := Img.zipWith (nan2 (· * ·)) chi2 wt
  let maxvals := med.map (Option.map (fun m => |m|))
  let maxvals := maxvals.map (Option.map (· * A))
  let maxvals := Img.zipWith (nan2 (· * ·)) maxvals ierr
  let maxvals := maxvals.map (Option.map (· + nsigma))
  let maxvals := Img.zipWith (nan2 (· * ·)) maxvals maxvals
  Img.zipWith gtN chi2 maxvals

/-- One turn of the loop over images (/repo/meds/meds.py:1156-1181); `clip` leaves NaN alone. -/
def stepN (sqrt : K → K) (nsigma A : K) (med : Img (Option K)) (st : RejectedN K) (i : Nat) : Res (RejectedN K) := do
  let im ← pyGet st.ims i
  let wt ← pyGet st.wts i
  let wt := wt.map (Option.map (max · 0))
  if ¬ (wt.nr = im.nr ∧ wt.nc = im.nc) then .error .valueError
  else
    let w := outlierN sqrt nsigma A med im wt
    .ok { ims := st.ims
          wts := st.wts.set i (Img.zipWith (fun bad v => if bad then some 0 else v) w wt)
          nreject := st.nreject + w.flat.count true }

/-- `reject_outliers(imlist, wtlist, nsigma, A)` (/repo/meds/meds.py:1098-1183). -/
def rejectOutliersN (sqrt : K → K) (nsigma A : K) (ims wts : List (Img (Option K))) : Res (RejectedN K) :=
  if ims.length < 3 then .ok ⟨ims, wts, 0⟩
  else
    match ims with
    | [] => .error .indexError
    | im0 :: _ =>
      if ims.any (fun im => decide (¬ (im.nr = im0.nr ∧ im.nc = im0.nc))) then .error .valueError
      else foldRes (stepN sqrt nsigma A (medianImageN (im0.nr, im0.nc) ims)) ⟨ims, wts, 0⟩ (List.range ims.length)

end Meds.Reject
