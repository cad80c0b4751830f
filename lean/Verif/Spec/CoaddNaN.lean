import Verif.Model.CoaddNaN
import Verif.Spec.Coadd
import Mathlib.SetTheory.Cardinal.Finite

/-! Weights of any kind: what makes a pixel of an epoch usable. -/

namespace Meds.Spec
open Compare

/-- A number above zero, or plus infinity. -/
def Positive : Flt → Prop
  | .num q => 0 < q
  | .nan => False
  | .inf negative => negative = false

/-- A number that is zero or less, or minus infinity. -/
def AtMostZero : Flt → Prop
  | .num q => q ≤ 0
  | .nan => False
  | .inf negative => negative = true

/-- Weight and mask are arrays of the same shape. -/
def ShapesAgree {α β : Type} (a : Img α) (b : Img β) : Prop := a.WF ∧ b.WF ∧ a.nr = b.nr ∧ a.nc = b.nc

/-- The pixel can be used: its weight is positive and there is no bad flag. -/
def UsableF (flags : Option Int) (bm : Img ℚ) (wt : Img Flt) (i j : Nat) : Prop :=
  ∃ b w, bm.get? i j = some b ∧ wt.get? i j = some w ∧ Positive w ∧ ¬ HasFlag flags b

/-- The pixel has no weight, or a bad flag. -/
def UnusableF (flags : Option Int) (bm : Img ℚ) (wt : Img Flt) (i j : Nat) : Prop :=
  ∃ b w, bm.get? i j = some b ∧ wt.get? i j = some w ∧ (AtMostZero w ∨ HasFlag flags b)

/-- The weight of the pixel is NaN, and there is no bad flag. -/
def NanWeight (flags : Option Int) (bm : Img ℚ) (wt : Img Flt) (i j : Nat) : Prop :=
  ∃ b, bm.get? i j = some b ∧ wt.get? i j = some .nan ∧ ¬ HasFlag flags b

/-- The order of the floats that are not NaN. -/
def LeF : Flt → Flt → Prop
  | .inf true, .num _ | .inf true, .inf _ | .num _, .inf false | .inf false, .inf false => True
  | .num p, .num q => p ≤ q
  | _, _ => False

/-- `m` is the mean of two positive floats. -/
def MeanF : Flt → Flt → Flt → Prop
  | .num p, .num q, m => m = .num ((p + q) / 2)
  | _, _, m => m = .inf false

/-- `m` is the median of positive floats: in sorted order, the mean of the two in the middle. -/
def IsMedianF (l : List Flt) (m : Flt) : Prop :=
  ∃ s : List Flt, s.Perm l ∧ s.Pairwise LeF ∧ ∃ x y, s[(l.length - 1) / 2]? = some x ∧ s[l.length / 2]? = some y ∧ MeanF x y m

/-- The pixels that are not `UnusableF`, row by row. -/
def KeptPixels (flags : Option Int) (bm : Img ℚ) (wt : Img Flt) (ps : List (Nat × Nat)) : Prop :=
  ps.Pairwise (fun p q => p.1 < q.1 ∨ (p.1 = q.1 ∧ p.2 < q.2)) ∧ ∀ i j, (i, j) ∈ ps ↔ i < wt.nr ∧ j < wt.nc ∧ ¬ UnusableF flags bm wt i j

/-- The values of an image at some pixels, with the pixels. -/
def pointsAt (im : Img Flt) (ps : List (Nat × Nat)) : List ((Nat × Nat) × Flt) := ps.filterMap (fun p => (im.get? p.1 p.2).map (fun v => (p, v)))

/-- The number of pixels without weight or with a bad flag. -/
noncomputable def numUnusableF (flags : Option Int) (bm : Img ℚ) (wt : Img Flt) : Nat := Nat.card {p : Fin wt.nr × Fin wt.nc // UnusableF flags bm wt p.1 p.2}

/-- One of the four sides of an image consists of pixels with the property. -/
def WholeSide {α : Type} (im : Img α) (P : α → Prop) : Prop :=
  (∃ i, (i = 0 ∨ i = im.nr - 1) ∧ ∀ j < im.nc, ∃ v, im.get? i j = some v ∧ P v) ∨ (∃ j, (j = 0 ∨ j = im.nc - 1) ∧ ∀ i < im.nr, ∃ v, im.get? i j = some v ∧ P v)

end Meds.Spec
