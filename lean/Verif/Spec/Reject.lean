import Verif.Model.Basic
import Mathlib.Data.Real.Sqrt

/-!
# The rejection criterion, stated on its own
-/

namespace Meds.Spec

/-- `m` is the median of the values: in sorted order, the mean of the two in the middle (which coincide for an odd number of values). -/
def IsMedian {K : Type} [Field K] [LinearOrder K] (l : List K) (m : K) : Prop :=
  ∃ s : List K, s.Perm l ∧ s.Pairwise (· ≤ ·) ∧ ∃ x y, s[(l.length - 1) / 2]? = some x ∧ s[l.length / 2]? = some y ∧ m = (x + y) / 2

/-- The documented criterion: weight `w > 0`, and further from the median `m` than `nsigma` errors plus the fraction `A` of the median. -/
def Outlier (nsigma A m x w : ℝ) : Prop := 0 < w ∧ nsigma / Real.sqrt w + A * |m| < |x - m|

open Classical in
/-- Number of positive weights that became zero. -/
noncomputable def zeroed (before after : Img ℝ) : Nat := (before.flat.zip after.flat).countP (fun p => decide (0 < p.1 ∧ p.2 = 0))

end Meds.Spec
