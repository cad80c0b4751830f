import Verif.Model.Basic
import Mathlib.Analysis.SpecialFunctions.Trigonometric.Basic

/-!
# The tangent-plane projection (/repo/meds/util.py:341-382)

Angles and vectors are real; rounding is not modelled.  The functions are applied to one position at a time (numpy maps them over arrays of positions).
-/

namespace Meds.Tangent

/-- A vector in space. -/
@[ext] structure Vec where
  x : ℝ
  y : ℝ
  z : ℝ

/-- `numpy.dot` of two vectors of length three. -/
def Vec.dot (a b : Vec) : ℝ := a.x * b.x + a.y * b.y + a.z * b.z

/-- `-1.0 * that` -/
def Vec.neg (a : Vec) : Vec := ⟨-1 * a.x, -1 * a.y, -1 * a.z⟩

/-- `radec_to_thetaphi` (/repo/meds/util.py:368-369). -/
noncomputable def radecToThetaphi (ra dec : ℝ) : ℝ × ℝ := ((90 - dec) / 180 * Real.pi, -1 * ra / 180 * Real.pi)

/-- `thetaphi_to_unitvecs_ruv` (/repo/meds/util.py:372-382). -/
noncomputable def thetaphiToUnitvecs (theta phi : ℝ) : Vec × Vec × Vec :=
  let sint := Real.sin theta
  let cost := Real.cos theta
  let sinp := Real.sin phi
  let cosp := Real.cos phi
  let rhat : Vec := ⟨sint * cosp, sint * sinp, cost⟩
  let that : Vec := ⟨cost * cosp, cost * sinp, -1 * sint⟩
  let phat : Vec := ⟨-1 * sinp, cosp, 0⟩
  (rhat, phat, that.neg)

/-- `radec_to_unitvecs_ruv` (/repo/meds/util.py:363-365). -/
noncomputable def radecToUnitvecs (ra dec : ℝ) : Vec × Vec × Vec :=
  thetaphiToUnitvecs (radecToThetaphi ra dec).1 (radecToThetaphi ra dec).2

open Classical in
/-- `radec_to_uv` (/repo/meds/util.py:352-360).  At right angles to the centre numpy divides by zero and returns infinities; that is an error here. -/
noncomputable def radecToUv (ra dec raCen decCen : ℝ) : Res (ℝ × ℝ) :=
  let cen := radecToUnitvecs raCen decCen
  let rhat := (radecToUnitvecs ra dec).1
  let cosang := rhat.dot cen.1
  let fac := 1 / Real.pi * 180 * 60 * 60
  if cosang = 0 then .error .zeroDivision
  else .ok (rhat.dot cen.2.1 / cosang * fac, rhat.dot cen.2.2 / cosang * fac)

end Meds.Tangent
