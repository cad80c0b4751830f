import Verif.Model.Fits
import Mathlib.Algebra.Order.Ring.Rat

/-!
# Which coadd pixel shows the same piece of sky as a pixel of an epoch
-/

namespace Meds.Spec

/-- `(a, b)` is a pixel of an `nr` by `nc` image that is nearest to position `p` along each axis. -/
def NearestPixel (nr nc : Nat) (p : ℚ × ℚ) (a b : Nat) : Prop :=
  a < nr ∧ b < nc ∧ (∀ a', a' < nr → |p.1 - a| ≤ |p.1 - a'|) ∧ (∀ b', b' < nc → |p.2 - b| ≤ |p.2 - b'|)

/-- Tangent-plane position of a point given in pixels of a cutout: jacobian times offset from the recorded centre. -/
def tangent (s : Slot) (p : ℚ × ℚ) : ℚ × ℚ :=
  (s.dudrow * (p.1 - s.cutoutRow) + s.dudcol * (p.2 - s.cutoutCol), s.dvdrow * (p.1 - s.cutoutRow) + s.dvdcol * (p.2 - s.cutoutCol))

/-- Determinant of the jacobian. -/
def det (s : Slot) : ℚ := s.dudrow * s.dvdcol - s.dudcol * s.dvdrow

/-- `(a, b)` is the coadd pixel for pixel `(i, j)` of epoch `k`: the same pixel if the epoch is the coadd, else a coadd pixel nearest to the
point with the same tangent-plane position. -/
def CoaddPixel (nr nc : Nat) (k : Nat) (coadd epoch : Slot) (i j a b : Nat) : Prop :=
  (k = 0 ∧ a = i ∧ b = j) ∨
  (k ≠ 0 ∧ ∃ p : ℚ × ℚ, tangent coadd p = tangent epoch (i, j) ∧ NearestPixel nr nc p a b)

/-- Label `l` is another object's than `own`; sky (label 0) counts only if `restrict`. -/
def Foreign (restrict : Bool) (own l : ℚ) : Prop := l ≠ own ∧ (restrict = true ∨ l ≠ 0)

instance (r : Bool) (a b : ℚ) : Decidable (Foreign r a b) := inferInstanceAs (Decidable (_ ∧ _))

end Meds.Spec
