import Verif.Spec.Coadd
import Verif.Spec.Reject

/-!
# What enters a coadd, pixel by pixel, in terms of the planes of the file
-/

namespace Meds.Spec

/-- The documented criterion for value `x` with weight `w` where the median of the epochs is `m`. -/
def OutlierQ (rt : ℚ → ℚ) (nsigma A m x w : ℚ) : Prop := 0 < w ∧ (nsigma + A * |m| * rt w) ^ 2 < w * (x - m) ^ 2

/-- The planes of the epochs of an object, without the coadd's own. -/
structure Epochs where
  ims : List (Img ℚ)
  wts : List (Img ℚ)
  bms : List (Img ℚ)

/-- Weight of epoch `k` at a pixel. -/
def Epochs.WtAt (e : Epochs) (k i j : Nat) (w : ℚ) : Prop := ∃ wt, e.wts[k]? = some wt ∧ wt.get? i j = some w

/-- Pixel `(i, j)` of epoch `k` has a bad flag. -/
def Epochs.Flag (e : Epochs) (flags : Option Int) (k i j : Nat) : Prop := ∃ bm, e.bms[k]? = some bm ∧ FlagAt flags bm i j

/-- Pixel `(i, j)` of epoch `k` is an outlier among the epochs. -/
def Epochs.Outlying (e : Epochs) (rt : ℚ → ℚ) (nsigma A : ℚ) (k i j : Nat) : Prop :=
  ∃ im x w m, e.ims[k]? = some im ∧ im.get? i j = some x ∧ e.WtAt k i j w ∧ IsMedian (e.ims.filterMap (·.get? i j)) m ∧ OutlierQ rt nsigma A m x w

/-- Outliers are looked for: configured, and there are three epochs or more. -/
def Epochs.Rejects (e : Epochs) (on : Bool) : Prop := on = true ∧ 3 ≤ e.ims.length

/-- The weight is zero once outliers have been taken out, which sets negative weights to zero too. -/
def Epochs.Zero (e : Epochs) (on : Bool) (rt : ℚ → ℚ) (nsigma A : ℚ) (k i j : Nat) : Prop :=
  e.WtAt k i j 0 ∨ (e.Rejects on ∧ ((∃ w, e.WtAt k i j w ∧ w < 0) ∨ e.Outlying rt nsigma A k i j))

/-- What is not used of an `n` by `n` stamp: pixels without positive weight or with a bad flag, outliers, and with `sym` the pixels on which a quarter turn of the stamp
brings a pixel of weight zero or with a bad flag. -/
def Epochs.Dropped (e : Epochs) (n : Nat) (flags : Option Int) (on sym : Bool) (rt : ℚ → ℚ) (nsigma A : ℚ) (k i j : Nat) : Prop :=
  (∃ w, e.WtAt k i j w ∧ w ≤ 0) ∨ e.Flag flags k i j ∨ (e.Rejects on ∧ e.Outlying rt nsigma A k i j) ∨
    (sym = true ∧ (e.Zero on rt nsigma A k j (n - 1 - i) ∨ e.Flag flags k j (n - 1 - i)))

/-- The pixels of an `n` by `n` stamp outside of `S`, row by row. -/
def PixelsNot (n : Nat) (S : Nat → Nat → Prop) (ps : List (Nat × Nat)) : Prop :=
  ps.Pairwise (fun p q => p.1 < q.1 ∨ (p.1 = q.1 ∧ p.2 < q.2)) ∧ ∀ i j, (i, j) ∈ ps ↔ i < n ∧ j < n ∧ ¬ S i j

end Meds.Spec
