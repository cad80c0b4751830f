import Verif.Model.MakeInput
import Verif.Model.CReader

/-!
# The two command line programs (/repo/src/make-meds-input.c, /repo/src/meds-get-cutout.c)

A run ends in an exit status together with what has been written.  `atoi` of the arguments, opening the input table and the text format of the numbers
are outside the model: arguments are integers, a catalogue is the list of its rows, a file of ids is the list of what successive `fscanf("%ld")` calls find
(`some` number or, for text which is not a number, `none`).
-/

namespace Meds.MakeInput

/-- One row of the SExtractor table, the columns of `get_colnums` (/repo/src/make-meds-input.c:105-119). -/
structure SexRow where
  yImage : ℚ
  xImage : ℚ
  yminImage : Int
  ymaxImage : Int
  xminImage : Int
  xmaxImage : Int
  fluxRadius : ℚ
  aWorld : ℚ
  bWorld : ℚ

/-- `struct obj` (/repo/src/make-meds-input.c:33-48) with the fields that are printed; the measurements are in `meas`. -/
structure CatObj where
  id : Int
  row : ℚ
  col : ℚ
  meas : Obj
  boxSize : Int

/-- One turn of the loop in `load_rows` (/repo/src/make-meds-input.c:199-219); `row` counts from one.  `b_world/a_world` with `a_world = 0` is zero here
and infinite or NaN in C. -/
def loadRow (row : Nat) (r : SexRow) : CatObj :=
  { id := (row : Int) - 1
    row := r.yImage
    col := r.xImage
    meas := { rowmin := r.yminImage, rowmax := r.ymaxImage, colmin := r.xminImage, colmax := r.xmaxImage, fluxRadius := r.fluxRadius,
              ellipticity := 1 - r.bWorld / r.aWorld }
    boxSize := 0 }

/-- The loop of `load_rows` (/repo/src/make-meds-input.c:190-220) from row number `row` on. -/
def loadRows : Nat → List SexRow → List CatObj
  | _, [] => []
  | row, r :: rest => loadRow row r :: loadRows (row + 1) rest

/-- The `while` loop of `cat_add_id_from_file` (/repo/src/make-meds-input.c:249-258) over what is left of the file; `none` is the `exit(1)` for a file
which is too large.  Returns the catalogue and the counter `i`. -/
def idLoop (cat : List CatObj) (i : Nat) : List (Option Int) → Option (List CatObj × Nat)
  | [] => some (cat, i)
  | none :: _ => some (cat, i)
  | some id :: rest => if i ≥ cat.length then none else idLoop (cat.modify i (fun o => { o with id := id })) (i + 1) rest

/-- `cat_add_id_from_file` (/repo/src/make-meds-input.c:237-267); the outer `none` of `idFile` is a file which cannot be opened. -/
def addIds (cat : List CatObj) (idFile : Option (List (Option Int))) : Option (List CatObj) :=
  match idFile with
  | none => none
  | some toks =>
    match idLoop cat 0 toks with
    | none => none
    | some (cat, i) => if i ≠ cat.length then none else some cat

/-- `set_box_sizes` (/repo/src/make-meds-input.c:356-363). -/
def setBoxSizes (cat : List CatObj) (minsize maxsize : Int) : List CatObj :=
  cat.map (fun o => { o with boxSize := getBoxSize o.meas minsize maxsize })

/-- A line of the output: id, row, column and box size. -/
structure Line where
  id : Int
  row : ℚ
  col : ℚ
  boxSize : Int
deriving DecidableEq

/-- `cat_write_meds_input` (/repo/src/make-meds-input.c:290-301). -/
def writeMedsInput (cat : List CatObj) : List Line := cat.map (fun o => ⟨o.id, o.row, o.col, o.boxSize⟩)

/-- `main` (/repo/src/make-meds-input.c:364-393): exit status and standard output.  `infile` is `none` when the table or one of its columns cannot be
read, the outer `none` of `idFile` is the missing fourth argument. -/
def main (infile : Option (List SexRow)) (minsize maxsize : Int) (idFile : Option (Option (List (Option Int)))) : Nat × List Line :=
  let minsize := fftRoundSize minsize
  let maxsize := fftRoundSize maxsize
  match infile with
  | none => (1, [])
  | some rows =>
    let cat := loadRows 1 rows
    match (match idFile with | none => some cat | some f => addIds cat f) with
    | none => (1, [])
    | some cat => (0, writeMedsInput (setBoxSizes cat minsize maxsize))

end Meds.MakeInput

namespace Meds.C

/-- `meds_cutout_write_fits` (/repo/src/meds.c:1555-1604) with `clobber`: `MOSAIC_SIZE` pixels from `rows[0]` on, in an image of `MOSAIC_NROW` by
`MOSAIC_NCOL`.  `writable` says whether all calls of cfitsio succeed; if one fails the file is taken to be as it was (what cfitsio leaves then is not
modelled).  The status that is set is the second component. -/
def writeFits (writable : Bool) (c : Cutout) (old : Option (Img ℚ)) : Option (Img ℚ) × Bool :=
  if writable then (some ⟨c.mosaicNrow.toNat, c.mosaicNcol.toNat, c.pix.take (c.ncutout * c.cutoutNrow * c.cutoutNcol).toNat⟩, true)
  else (old, false)

/-- `main` of /repo/src/meds-get-cutout.c:5-46: exit status and the output file afterwards.  `meds` is the result of `meds_open`, `icutout` is `none` without
a fifth argument, `old` is what the output file contained.  The end of `main` is reached without a `return`, which is exit status zero.  A stray read
(`unmodelled`) is an error of this function. -/
def getCutoutMain (meds : Res Handle) (index : Int) (icutout : Option Int) (writable : Bool) (old : Option (Img ℚ)) : Res (Nat × Option (Img ℚ)) :=
  match meds with
  | .error .nullResult => .ok (1, old)
  | .error e => .error e
  | .ok h =>
    match (match icutout with | some k => getCutout h index k | none => getMosaic h index) with
    | .ok image => .ok (0, (writeFits writable image old).1)
    | .error .nullResult => .ok (0, old)
    | .error e => .error e

end Meds.C
