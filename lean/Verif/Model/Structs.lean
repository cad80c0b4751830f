import Verif.Model.Columns

/-!
# The helpers that make empty arrays for the user (/repo/meds/util.py)

`zero name` is the zero of the type of a column: 0 for numbers, the empty string for strings.  Simplification: types are left out, so an assignment of DEFVAL that
does not fit the type of an extra column is not an error here.
-/

namespace Meds
namespace Columns

variable {α : Type}

/-- `get_meds_input_dtype` (/repo/meds/util.py:145-164). -/
def inputDtype (extra : List Field) : List Field := inputNames.map (fun s => ⟨s, none⟩) ++ extra

/-- `get_meds_input_struct` (/repo/meds/util.py:121-142): DEFVAL everywhere but in a column `ncutout`. -/
def inputStruct (zero : String → α) (defval : α) (n : Nat) (extra : List Field) : Res (Arr α) :=
  filled n (inputDtype extra) (fun s => if s = "ncutout" then zero s else defval)

/-- `get_image_info_dtype` (/repo/meds/util.py:243-299); `wcs` tells whether `wcs_len` was given. -/
def infoDtype (wcs : Bool) (extra : List Field) : List Field :=
  (["image", "weight", "seg", "bmask", "bkg"].flatMap (fun t => [⟨t ++ "_path", none⟩, ⟨t ++ "_ext", none⟩])) ++
    ["image_id", "image_flags", "magzp", "scale", "position_offset"].map (fun s => ⟨s, none⟩) ++ (if wcs then [⟨"wcs", none⟩] else []) ++ extra

/-- `get_image_info_struct` (/repo/meds/util.py:205-240). -/
def infoStruct (zero : String → α) (one : α) (n : Nat) (wcs : Bool) (extra : List Field) : Res (Arr α) :=
  filled n (infoDtype wcs extra) (fun s => if s = "scale" then one else zero s)

end Columns
end Meds
