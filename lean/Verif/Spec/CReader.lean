import Verif.Model.CReader

/-!
# What the C reader should return, stated on its own
-/

namespace Meds.Spec

/-- All rows of a table have per-epoch columns of the same width (a FITS table cannot be otherwise). -/
def OneWidth (t : ObjTable) : Prop := ∀ r ∈ t.rows, ∀ r' ∈ t.rows, r.slots.length = r'.slots.length

/-- Object `i` exists and has an epoch `k` (any integers). -/
def ValidPair (rows : List ObjRow) (i k : Int) : Prop := 0 ≤ i ∧ 0 ≤ k ∧ ∃ r, rows[i.toNat]? = some r ∧ k < r.ncutout

/-- A C cutout shows the same image: its dimensions and `CUTOUT_GET` at every pixel. -/
def SameImage (c : C.Cutout) (im : Img ℚ) : Prop :=
  c.mosaicNrow = im.nr ∧ c.mosaicNcol = im.nc ∧ c.cutoutNcol = im.nc ∧
    ∀ a b : Nat, a < im.nr → b < im.nc → ∃ v, im.get? a b = some v ∧ c.get a b = .ok v

end Meds.Spec
