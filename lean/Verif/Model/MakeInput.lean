import Mathlib.Data.Rat.Floor

/-!
# Box sizes for the cutout program (/repo/src/make-meds-input.c) and the plot grid of the viewer (/repo/scripts/meds-view)

`int`s are unbounded integers and `double`s exact rationals here: overflow, rounding and NaN measurements are not modelled.
-/

namespace Meds.MakeInput

/-- `SIZES` (/repo/src/make-meds-input.c:29-30). -/
def SIZES : List Int := [2, 3, 4, 6, 8, 12, 16, 24, 32, 48, 64, 96, 128, 192, 256, 384, 512, 768, 1024, 1536, 2048, 3072, 4096, 6144]

/-- The loop of `fft_round_size` over the rest of the table; `newsize` keeps the last entry looked at. -/
def fftLoop (size newsize : Int) : List Int → Int
  | [] => newsize
  | s :: rest => if s ≥ size then s else fftLoop size s rest

/-- `fft_round_size` (/repo/src/make-meds-input.c:305-321). -/
def fftRoundSize (size : Int) : Int := fftLoop size 0 SIZES

/-- `struct obj` (/repo/src/make-meds-input.c:33-48), the fields that are read here. -/
structure Obj where
  rowmin : Int
  rowmax : Int
  colmin : Int
  colmax : Int
  fluxRadius : ℚ
  ellipticity : ℚ

/-- `FWHM_FAC` (/repo/src/make-meds-input.c:27). -/
def FWHM_FAC : ℚ := 23548200450309493 / 10000000000000000

/-- `SIGMA_FAC` (/repo/src/make-meds-input.c:25). -/
def SIGMA_FAC : ℚ := 5

/-- `get_sigma_size` (/repo/src/make-meds-input.c:324-337). -/
def getSigmaSize (fluxRadius ellipticity : ℚ) : Int :=
  let sigma := fluxRadius * 2 / FWHM_FAC
  let drad := sigma * SIGMA_FAC
  let drad := drad * (1 + ellipticity)
  2 * ⌈drad⌉

/-- `get_box_size` (/repo/src/make-meds-input.c:338-354). -/
def getBoxSize (o : Obj) (minsize maxsize : Int) : Int :=
  let rowsize := o.rowmax - o.rowmin + 1
  let colsize := o.colmax - o.colmin + 1
  let sigmaSize := getSigmaSize o.fluxRadius o.ellipticity
  let box := if rowsize > colsize then rowsize else colsize
  let box := if sigmaSize > box then sigmaSize else box
  let box := if box < minsize then minsize else box
  let box := if box > maxsize then maxsize else box
  fftRoundSize box

/-- The box size `main` gives an object (/repo/src/make-meds-input.c:374-389): both limits are rounded first. -/
def mainBoxSize (minsize maxsize : Int) (o : Obj) : Int := getBoxSize o (fftRoundSize minsize) (fftRoundSize maxsize)

end Meds.MakeInput

namespace Meds.View

/-- `Grid.set_grid` (/repo/scripts/meds-view:343-364); `sq` is `int(sqrt(nplot))`.  Returns `(nrow, ncol)`. -/
def setGrid (sq nplot : Nat) : Nat × Nat :=
  if nplot = 8 then (2, 4)
  else if nplot = sq * sq then (sq, sq)
  else if nplot ≤ sq * (sq + 1) then (sq, sq + 1)
  else (sq + 1, sq + 1)

/-- `get_grid` (/repo/scripts/meds-view:400-416). -/
def getGrid (sq nplot : Nat) : Nat × Nat :=
  if nplot = sq * sq then (sq, sq)
  else if nplot ≤ sq * (sq + 1) then (sq, sq + 1)
  else (sq + 1, sq + 1)

/-- `Grid.get_rowcol` (/repo/scripts/meds-view:366-395); `none` is the `ValueError`.  Negative indices are not modelled. -/
def getRowcol (g : Nat × Nat) (index : Nat) : Option (Nat × Nat) :=
  let nplotTot := g.1 * g.2
  let imax : Int := nplotTot - 1
  if (index : Int) > imax then none else some (index / g.2, index % g.2)

end Meds.View
