import Verif.Model.WcsState

/-!
# WCS objects with state: specification
-/

namespace Meds.Spec

/-- The same WCS, whatever size and offset are set in it at the moment. -/
def SameMethods (w w' : WcsObj) : Prop := w'.sky2image = w.sky2image ∧ w'.jacobian = w.jacobian ∧ w'.rough = w.rough

/-- The WCS object of an image: the one of its PSF object if that has one, otherwise a new one. -/
def wcsOf (store : List WcsObj) (src : SrcImageS) : Option WcsObj :=
  match src.psfWcs with
  | some r => store[r]?
  | none => some src.fresh

/-- The size of an image: that in the header of the file when the WCS comes from the PSF object, otherwise that of the WCS. -/
def naxisOf (src : SrcImageS) : Nat × Nat := if src.psfWcs.isSome then src.headerNaxis else src.fresh.naxis

/-- The image with the WCS `w` as it is meant: its own size, its own offset. -/
def withOwn (src : SrcImageS) (w : WcsObj) : SrcImage :=
  { wcs := { ncol := (naxisOf src).1, nrow := (naxisOf src).2, sky2image := w.sky2image (naxisOf src), jacobian := w.jacobian (naxisOf src),
             rough := w.rough (naxisOf src) src.info.positionOffset }
    info := src.info, plane := src.plane }

/-- Two images that differ at most in which object is their WCS: the same methods, the same size and everything else the same. -/
def SameSource (store : List WcsObj) (a : SrcImageS) (store' : List WcsObj) (b : SrcImageS) : Prop :=
  b.info = a.info ∧ b.plane = a.plane ∧ naxisOf b = naxisOf a ∧ ∃ w w', wcsOf store a = some w ∧ wcsOf store' b = some w' ∧ SameMethods w w'

/-- The last of some images whose WCS is the object `r` of the caller. -/
def lastUser (srcs : List SrcImageS) (r : Nat) : Option SrcImageS := (srcs.filter (fun s => s.psfWcs == some r)).getLast?

end Meds.Spec
