import Verif.Model.Maker
import Verif.Model.Coadd

/-! The header cards of the mosaic extensions (`fpack_pars`), /repo/meds/maker.py:159-209. -/

namespace Meds

namespace Header

/-- Header cards, or a python dictionary of them: key and value, in order.  Simplification: keys are compared exactly. -/
abbrev Cards := List (String × String)

/-- An image extension with its header (/repo/meds/maker.py:182-188, 200-206).  Simplification: the pixels are left out; they are in `Maker.reservedHdus`. -/
structure ImageHdu where
  extname : String
  dtype : String
  npix : Nat
  cards : Cards
  deriving DecidableEq, Repr

/-- What fitsio does with the arguments of `create_image_hdu`.  `base` has the cards that it writes by itself; `touch` is what it leaves in the
dictionary given as `header` (released versions only count its entries, /repo/meds/maker.py:180-181). -/
structure Fitsio where
  base : String → String → Nat → Cards
  touch : Cards → Cards

/-- Writing one card (/repo/meds/maker.py:190, 209): the value of a card that is there is replaced, a new card is appended. -/
def updateKey (h : Cards) (c : String × String) : Cards :=
  if c.1 ∈ h.map (·.1) then h.map (fun d => if d.1 = c.1 then (d.1, c.2) else d) else h ++ [c]

/-- `write_keys(header, clean=False)` (/repo/meds/maker.py:190, 209); `None` has no cards. -/
def writeKeys (keys : Option Cards) (h : Cards) : Cards := (keys.getD []).foldl updateKey h

/-- `fits[extname].write_keys(...)` (/repo/meds/maker.py:190, 209): the first extension with the name. -/
def writeTo (name : String) (keys : Option Cards) : List ImageHdu → List ImageHdu
  | [] => []
  | h :: t => if h.extname = name then { h with cards := writeKeys keys h.cards } :: t else h :: writeTo name keys t

/-- What `_reserve_mosaic_images` looks at: the entry `fpack_pars` of the configuration (it is the dictionary of the caller, since
`self.update(config)` copies no values, /repo/meds/maker.py:1435-1443), the pixel types and the sizes. -/
structure Setup where
  types : List String
  dtype : String → String
  totalPixels : Nat
  psfPixels : Option Nat
  pars : Option Cards

/-- `fits.create_image_hdu(...)` (/repo/meds/maker.py:182-188, 200-206): the file with the extension appended, and the dictionary given as `header` afterwards. -/
def createHdu (io : Fitsio) (ext dtype : String) (n : Nat) (header : Option Cards) (hs : List ImageHdu) : List ImageHdu × Option Cards :=
  (hs ++ [⟨ext, dtype, n, io.base ext dtype n⟩], header.map io.touch)

/-- One turn of the loop over the cutout types (/repo/meds/maker.py:173-190) on the file and the dictionary `header`: fitsio gets a deep copy of the
dictionary, and what becomes of the copy does not matter. -/
def reserveType (io : Fitsio) (s : Setup) (st : List ImageHdu × Option Cards) (t : String) : List ImageHdu × Option Cards :=
  let ext := t ++ "_cutouts"
  let copy := st.2
  let made := createHdu io ext (s.dtype t) s.totalPixels copy st.1
  (writeTo ext st.2 made.1, st.2)

/-- The PSF part (/repo/meds/maker.py:192-209): fitsio gets the dictionary itself. -/
def reservePsf (io : Fitsio) (s : Setup) (st : List ImageHdu × Option Cards) : List ImageHdu × Option Cards :=
  match s.psfPixels with
  | none => st
  | some n =>
    let made := createHdu io "psf" "f4" n st.2 st.1
    (writeTo "psf" made.2 made.1, made.2)

/-- `_reserve_mosaic_images` (/repo/meds/maker.py:159-209): the extensions, and what is in the dictionary of the caller afterwards. -/
def reserve (io : Fitsio) (s : Setup) : List ImageHdu × Option Cards :=
  reservePsf io s (s.types.foldl (reserveType io s) ([], s.pars))

/-- The setup of a maker (/repo/meds/maker.py:164-178, 192-196). -/
def ofMaker (mk : Maker) (dtype : String → String) (pars : Option Cards) : Setup :=
  ⟨mk.types, dtype, mk.totalPixels.toNat, mk.psf.map (fun _ => mk.totalPsfPixels.toNat), pars⟩

/-- The setup of a coadd maker, which has the same `_reserve_mosaic_images` and always PSFs (/repo/meds/coadd.py:110, 276). -/
def ofCoadd (k : Coadd.CMaker) (dtype : String → String) (pars : Option Cards) : Setup :=
  ⟨k.types, dtype, k.totalPixels.toNat, some k.psfPixels.toNat, pars⟩

end Header

end Meds
