import Verif.Model.NotANumber
import Verif.Spec.Layout

/-!
# Positions that are not numbers: specification
-/

namespace Meds.Spec
open Compare

/-- A position of numbers. -/
def number2 : Flt × Flt → Option (ℚ × ℚ)
  | (.num c, .num r) => some (c, r)
  | _ => none

/-- Image number `i` covers a point of the sky: it passes the rough cut, the WCS has a position (of two numbers) for it, and that position lies in the closed
rectangle from the first to the last pixel, enlarged by the border. -/
def CoversN (cfg : MakerCfg) (i : Nat) (im : SrcImageN) (sky : SkyPos) : Prop :=
  im.im.wcs.rough sky = true ∧ ∃ col row : ℚ, im.sky2image sky = (.num col, .num row) ∧
    1 - border cfg i ≤ row ∧ row ≤ im.im.wcs.nrow + border cfg i ∧ 1 - border cfg i ≤ col ∧ col ≤ im.im.wcs.ncol + border cfg i

/-- The same image with a rough cut that also drops every point for which the WCS has no position. -/
def dropping (im : SrcImageN) : SrcImage :=
  { im.im with wcs := { im.im.wcs with
      rough := fun s => im.im.wcs.rough s && (number2 (im.sky2image s)).isSome
      sky2image := fun s => (number2 (im.sky2image s)).getD (0, 0) } }

end Meds.Spec
