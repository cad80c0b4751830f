import Verif.Model.Sources

/-!
# Text put into the columns of `image_info`

`get_image_info_struct` makes columns of type `S` with a fixed width for paths (/repo/meds/util.py:261, 274-281).  What NumPy does when a text is assigned to an
element of such a column decides what file is opened later.
-/

namespace Meds.Sources

/-- An element of a column of type `S` and width `w` after a text was assigned to it (NumPy; the type is from /repo/meds/util.py:261): a text that is not ASCII
is a UnicodeEncodeError, which is a ValueError; what is longer is cut off; NUL characters at the end do not come back.  Simplification: a width of zero is not modelled. -/
def store (w : Nat) (s : String) : Res Cell :=
  if s.toList.all (fun c => decide (c.toNat < 128)) then
    .ok (.bytes (String.ofList ((s.toList.take w).reverse.dropWhile (fun c => c.toNat = 0)).reverse))
  else .error .valueError

/-- `image_info["<t>_path"][i] = p` for the row of this image.  The path of the image itself is also what the reader reports (/repo/meds/meds.py:821-822). -/
def DiskImage.setPath (w : Nat) (t p : String) (d : DiskImage) : Res DiskImage := do
  let c ← store w p
  .ok { d with
    info := if t = "image" then { d.info with imagePath := c.text } else d.info
    row := { d.row with path := fun u => if u = t then some c else d.row.path u } }

end Meds.Sources
