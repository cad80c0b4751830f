import Verif.Model.Maker
import Verif.Model.Uberseg

/-!
# Integer types of stored planes and of the compiled uberseg

Elsewhere seg maps and bit masks have unbounded integers; here they have the numbers of bits of the arrays in the code.
-/

namespace Meds

/-- An integer type of numpy, such as `i4` (four bytes, signed) or `u2`. -/
structure IntType where
  bits : Nat
  signed : Bool
  deriving DecidableEq, Repr

/-- `i4`, the default of `seg_dtype` and `bmask_dtype` (/repo/meds/defaults.py:46-47). -/
def IntType.i4 : IntType := ⟨32, true⟩

/-- An integer put into an array of that type, with numpy's rule for assignments between integer types: the number modulo `2^bits`. -/
def IntType.wrap (t : IntType) (k : Int) : Int := if t.signed then k.bmod (2 ^ t.bits) else k % 2 ^ t.bits

/-- A pixel put into the array of a stamp (`subim[...] = read_im` and `subim += default_values[...]`, /repo/meds/maker.py:271-289).
Simplification: for pixels that are whole numbers, as those of masks are.  The default value is put in as numpy 1 does it; numpy 2 refuses a default value that
does not fit into the type (Model/StampTypes.lean). -/
def IntType.cast (t : IntType) (q : ℚ) : ℚ := (t.wrap (truncZ q) : Int)

namespace Uberseg

/-- The call of the compiled code in `get_uberseg` (/repo/meds/meds.py:474-493) with the integers that it has: `seg.astype(numpy.int32)`, for a seg map of any integer
type; `obj_inds` was made before, from the seg map as it was; `object_number` is parsed with the format `i` (/repo/meds/_uberseg.c:104), which raises an OverflowError for
numbers that are no C int.  `f32` is the conversion of a weight to `float32`. -/
def fastLoop32 (F : F32) (f32 : ℚ → ℚ) (fuel : Nat) (seg weight : Img ℚ) (number : Int) : Res (Img ℚ) :=
  if number < -2 ^ 31 ∨ 2 ^ 31 ≤ number then .error .overflowError
  else tree F fuel (seg.map (fun v => IntType.i4.wrap (truncZ v))) (MEDS.where seg (fun v => decide (v ≠ 0))) (weight.map f32) number

/-- `get_uberseg(..., fast=True)` (/repo/meds/meds.py:445-508) with 32-bit labels in the compiled code. -/
def getUbersegFast32 (F : F32) (f32 : ℚ → ℚ) (fuel : Nat) (m : MEDS) (iobj icutout : Int) : Res (Img ℚ) :=
  MEDS.getUbersegWith (fastLoop32 F f32 fuel) m iobj icutout

end Uberseg
end Meds
