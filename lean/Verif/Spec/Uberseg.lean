import Verif.Model.Fits

/-!
# The pixel rules of uberseg and of the circular mask, stated on their own
-/

namespace Meds.Spec

/-- Squared distance of two pixels. -/
def dist2 (a b c d : Nat) : Int := ((a : Int) - c) ^ 2 + ((b : Int) - d) ^ 2

/-- Pixel `(c, d)` carries the label `l` of some object (not sky). -/
def Labelled (seg : Img ℚ) (c d : Nat) (l : ℚ) : Prop := seg.get? c d = some l ∧ l ≠ 0

/-- `(c, d)`, with label `l`, is a labelled pixel nearest to `(a, b)`. -/
def Nearest (seg : Img ℚ) (a b c d : Nat) (l : ℚ) : Prop :=
  Labelled seg c d l ∧ ∀ c' d' l', Labelled seg c' d' l' → dist2 a b c d ≤ dist2 a b c' d'

/-- The squared distance of two pixels when every conversion, difference, product and sum is rounded by `rd`. -/
def roundedDist2 (rd : Int → Int) (a b c d : Nat) : Int :=
  rd (rd (rd (rd a - rd c) * rd (rd a - rd c)) + rd (rd (rd b - rd d) * rd (rd b - rd d)))

/-- `(c, d)`, with label `l`, is a labelled pixel nearest to `(a, b)` as far as the rounded distances tell. -/
def NearestRounded (rd : Int → Int) (seg : Img ℚ) (a b c d : Nat) (l : ℚ) : Prop :=
  Labelled seg c d l ∧ ∀ c' d' l', Labelled seg c' d' l' → roundedDist2 rd a b c d ≤ roundedDist2 rd a b c' d'

/-- Row-major order of pixels. -/
def Before (a b c d : Nat) : Prop := a < c ∨ (a = c ∧ b < d)

/-- The first nearest labelled pixel in row-major order. -/
def FirstNearest (seg : Img ℚ) (a b c d : Nat) (l : ℚ) : Prop :=
  Nearest seg a b c d l ∧ ∀ c' d' l', Nearest seg a b c' d' l' → (c' = c ∧ d' = d) ∨ Before c d c' d'

/-- There is only one first nearest pixel. -/
theorem FirstNearest.unique {seg : Img ℚ} {a b c d c' d' : Nat} {l l' : ℚ} (h : FirstNearest seg a b c d l) (h' : FirstNearest seg a b c' d' l') :
    c = c' ∧ d = d' ∧ l = l' := by
  have e : c' = c ∧ d' = d := by
    rcases h.2 _ _ _ h'.1 with e | e
    · exact e
    · rcases h'.2 _ _ _ h.1 with f | f
      · exact ⟨f.1.symm, f.2.symm⟩
      · rcases e with e | e <;> rcases f with f | f <;> omega
  obtain ⟨rfl, rfl⟩ := e
  have h1 := h.1.1.1
  rw [h'.1.1.1] at h1
  injection h1 with h1
  exact ⟨rfl, rfl, h1.symm⟩

/-- Squared distance of a pixel from a centre. -/
def centreDist2 (cen : ℚ × ℚ) (a b : Nat) : ℚ := ((a : ℚ) - cen.1) ^ 2 + ((b : ℚ) - cen.2) ^ 2

end Meds.Spec
