import Verif.Model.Composite
import Verif.Model.StampTypes

/-!
# The number of the object put into seg maps of the stored type

`Model/Composite.lean` puts the number of the object into the seg map of a cutout as it is.  The array has the integer type of the stored seg maps.
-/

namespace Meds
namespace MEDS

/-- The right side and the effect of `seg[:, :] = self.get_number(iobj)` (/repo/meds/meds.py:562, 586; `get_number` /repo/meds/meds.py:924-940) for an array of type `ty`.  With a column
`number` the value is a NumPy integer, which wraps in all versions.  Without it is the Python int `iobj+1` (for a Python int `iobj`): NumPy 2 raises an OverflowError if the type does not have
it; NumPy 1 wraps (newer ones with a warning). -/
def numberAs (m : MEDS) (np2 : Bool) (ty : IntType) (iobj : Int) : Res Int := do
  let n ← m.getNumber iobj
  if np2 && !m.cat.dtype.hasNumber && !(ty.has n) then .error .overflowError
  else .ok (ty.wrap n)

/-- `get_cseg_cutout` (/repo/meds/meds.py:543-566) with seg maps of type `ty`. -/
def getCsegCutoutT (m : MEDS) (np2 : Bool) (ty : IntType) (iobj icutout : Int) : Res (Img ℚ) := do
  let seg ← m.getCutout iobj icutout "seg"
  let n ← m.numberAs np2 ty iobj
  let coaddSeg ← m.getCutout iobj 0 "seg"
  m.makeComposite iobj icutout (seg.map (fun _ => (n : ℚ))) coaddSeg false

/-- `get_cseg_mosaic` (/repo/meds/meds.py:568-597) with seg maps of type `ty`. -/
def getCsegMosaicT (m : MEDS) (np2 : Bool) (ty : IntType) (iobj : Int) : Res (Img ℚ) := do
  let mosaic ← m.getMosaic iobj "seg"
  let n ← m.numberAs np2 ty iobj
  let filled := mosaic.map (fun _ => (n : ℚ))
  let coaddSeg ← m.getCutout iobj 0 "seg"
  let wlist ← splitMosaic filled
  let parts ← mapRes (fun x : Img ℚ × Nat => m.makeComposite iobj x.2 x.1 coaddSeg false) wlist.zipIdx
  .ok (putBack filled parts)

/-- `get_cseg_cutout_list` (/repo/meds/meds.py:599-620) with seg maps of type `ty`. -/
def getCsegCutoutListT (m : MEDS) (np2 : Bool) (ty : IntType) (iobj : Int) : Res (List (Img ℚ)) := do
  let mosaic ← m.getCsegMosaicT np2 ty iobj
  splitMosaic mosaic

end MEDS
end Meds
