import Verif.Model.CoaddFloat
import Verif.Spec.CoaddNaN

/-! Outlier rejection and noise for floats of any kind. -/

namespace Meds.Spec
open Compare Coadd

/-- `m` is the mean of two floats of which the first is not above the second: NaN between opposite infinities. -/
def MeanAny : Flt → Flt → Flt → Prop
  | .num p, .num q, m => m = .num ((p + q) / 2)
  | .inf true, .inf false, m => m = .nan
  | .inf true, _, m => m = .inf true
  | _, .inf false, m => m = .inf false
  | _, _, _ => False

/-- `m` is the median: NaN if one of the values is; otherwise, in sorted order, the mean of the two in the middle. -/
def IsMedianAny (l : List Flt) (m : Flt) : Prop :=
  (.nan ∈ l ∧ m = .nan) ∨
  (.nan ∉ l ∧ ∃ s : List Flt, s.Perm l ∧ s.Pairwise LeF ∧ ∃ x y, s[(l.length - 1) / 2]? = some x ∧ s[l.length / 2]? = some y ∧ MeanAny x y m)

/-- Value `x` with weight `w` is an outlier for the median `m`: median and weight are numbers, the weight is positive, and `x` is infinite, or a number that fulfils the
criterion `w (x - m)^2 > (nsigma + A |m| sqrt(w))^2`. -/
def OutlierFlt (rt : ℚ → ℚ) (nsigma A : ℚ) (m x w : Flt) : Prop :=
  ∃ m' w' : ℚ, m = .num m' ∧ w = .num w' ∧ 0 < w' ∧ ((∃ s, x = .inf s) ∨ ∃ x', x = .num x' ∧ (nsigma + A * |m'| * rt w') ^ 2 < w' * (x' - m') ^ 2)

/-- `w'` is the weight `w`, or zero if that is negative. -/
def ClippedTo (w w' : Flt) : Prop := (AtMostZero w ∧ w' = .num 0) ∨ (¬ AtMostZero w ∧ w' = w)

open Classical in
/-- Number of positive weights that became zero. -/
noncomputable def zeroedFlt (before after : Img Flt) : Nat := (before.flat.zip after.flat).countP (fun p => decide (Positive p.1 ∧ p.2 = .num 0))

/-- An epoch: image, weight and mask, of `nr` by `nc` pixels. -/
def StampsOf {α : Type} (nr nc : Nat) (im : Img α) (wt : Img α) (bm : Img ℚ) : Prop :=
  im.WF ∧ wt.WF ∧ bm.WF ∧ im.nr = nr ∧ im.nc = nc ∧ wt.nr = nr ∧ wt.nc = nc ∧ bm.nr = nr ∧ bm.nc = nc

/-- The noise `d` deviates away, for a weight `w`: times `sqrt(1 / w)` for a positive number, zero for an infinite weight, NaN otherwise. -/
def NoiseFlt (rt : ℚ → ℚ) (d : ℚ) : Flt → Flt → Prop
  | .num w, v => 0 < w → v = .num (d * rt (1 / w))
  | .inf false, v => v = .num 0
  | _, v => v = .nan

/-- The weights `wt'` of the epoch `e` after outlier rejection (if `on`, and there are three epochs or more): zero for an outlier, otherwise clipped at zero. -/
def AfterRejection (on : Bool) (rt : ℚ → ℚ) (nsigma A : ℚ) (es : List (Img Flt × Img Flt × Img ℚ)) (n : Nat) (e : Img Flt × Img Flt × Img ℚ) (wt' : Img Flt) : Prop :=
  wt'.WF ∧ wt'.nr = n ∧ wt'.nc = n ∧ ∀ i j x w, e.1.get? i j = some x → e.2.1.get? i j = some w →
    (¬ (on = true ∧ 3 ≤ es.length) → wt'.get? i j = some w) ∧
    (on = true → 3 ≤ es.length → ∃ m w', IsMedianAny (es.filterMap (fun q => q.1.get? i j)) m ∧ ClippedTo w w' ∧
      (OutlierFlt rt nsigma A m x w → wt'.get? i j = some (.num 0)) ∧ (¬ OutlierFlt rt nsigma A m x w → wt'.get? i j = some w'))

/-- The mask and weights `bm'`, `wt'` after symmetrizing (if `on`): a zero weight and a bad flag a quarter turn away are carried over. -/
def Turned (on : Bool) (flags : Option Int) (n : Nat) (bm : Img ℚ) (wt : Img Flt) (bm' : Img ℚ) (wt' : Img Flt) : Prop :=
  ShapesAgree bm' wt' ∧ wt'.nr = n ∧ wt'.nc = n ∧ ∀ i j, i < n → j < n →
    (on = true → wt.get? j (n - 1 - i) = some (.num 0) → wt'.get? i j = some (.num 0)) ∧
    (¬ (on = true ∧ wt.get? j (n - 1 - i) = some (.num 0)) → wt'.get? i j = wt.get? i j) ∧
    (on = true → FlagAt flags bm j (n - 1 - i) → bm'.get? i j = bm.get? j (n - 1 - i)) ∧
    (¬ (on = true ∧ FlagAt flags bm j (n - 1 - i)) → bm'.get? i j = bm.get? i j)

end Meds.Spec
