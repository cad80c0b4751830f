import Verif.Model.Basic

/-! Specification of a cutout, independent of the code's clipping arithmetic. -/

namespace Meds.Spec

/-- The source pixel at integer position `(i, j)`, if the position is inside the image. -/
def pixelAt {α : Type} (src : Img α) (i j : Int) : Option α :=
  if 0 ≤ i ∧ 0 ≤ j then src.get? i.toNat j.toNat else none

/-- What a cutout must contain at `(r, c)`: the stored (cast) source pixel at `(r0 + r, c0 + c)`, or the stored fill value off the image. -/
def cutoutPixel (cast : ℚ → ℚ) (fill : ℚ) (src : Img ℚ) (r0 c0 : Int) (r c : Nat) : ℚ :=
  match pixelAt src (r0 + r) (c0 + c) with
  | some v => cast v
  | none => cast fill

/-- The documented default values for pixels off the image: 0 for image, weight and seg, 2^30 for the bit mask. -/
def documentedFill : String → Option ℚ
  | "image" => some 0
  | "weight" => some 0
  | "seg" => some 0
  | "bmask" => some 1073741824
  | _ => none

end Meds.Spec
