import Verif.Model.MakeInput
import Verif.Model.CMeta
import Mathlib.Data.Int.Log

/-!
# The program `make-meds-input` (/repo/src/make-meds-input.c) with its texts

`Model/Programs.lean` starts from the rows of the catalogue and from the results of `fscanf`.  Here the same program from arguments, named columns and characters, and with
the digits that are printed.  From the SExtractor catalogue and the optional file with identifiers to the lines on standard output.  `exit(1)` is the error `runtimeError`; nothing is printed
to standard output before the last step, so an error means that nothing was printed.  Left out: messages on standard error, overflow of `int` and `long`,
failure of `calloc`.
-/

namespace Meds.InputText
open MakeInput

/-- The table in the second HDU of the catalogue, the columns that hold numbers.  Simplification: names are distinct up to case. -/
structure SexTable where
  nrows : Nat
  cols : List (String × List ℚ)

/-- `get_colnum` (/repo/src/make-meds-input.c:96-105): names are looked up without regard to case. -/
def getColnum (t : SexTable) (name : String) : Res (List ℚ) :=
  match t.cols.find? (fun c => c.1.toLower == name.toLower) with
  | some c => .ok c.2
  | none => .error .runtimeError

/-- `fits_load_col_dbl` (/repo/src/make-meds-input.c:158-171); `row` counts from zero here. -/
def loadDbl (col : List ℚ) (row : Nat) : Res ℚ :=
  match col[row]? with
  | some v => .ok v
  | none => .error .runtimeError

/-- `fits_load_col_int` (/repo/src/make-meds-input.c:172-185): cfitsio drops the fraction. -/
def loadInt (col : List ℚ) (row : Nat) : Res Int := do
  let v ← loadDbl col row
  .ok (truncZ v)

/-- `struct obj` with the fields that are printed (/repo/src/make-meds-input.c:33-48). -/
structure Entry where
  id : Int
  row : ℚ
  col : ℚ
  obj : Obj

/-- `load_rows` (/repo/src/make-meds-input.c:188-219); a zero `A_WORLD` would make an infinite ellipticity or NaN and is left open. -/
def loadRows (t : SexTable) : Res (List Entry) := do
  let row ← getColnum t "Y_IMAGE"
  let col ← getColnum t "X_IMAGE"
  let rowmin ← getColnum t "YMIN_IMAGE"
  let rowmax ← getColnum t "YMAX_IMAGE"
  let colmin ← getColnum t "XMIN_IMAGE"
  let colmax ← getColnum t "XMAX_IMAGE"
  let fluxRadius ← getColnum t "FLUX_RADIUS"
  let aWorld ← getColnum t "A_WORLD"
  let bWorld ← getColnum t "B_WORLD"
  mapRes (fun k => do
    let y ← loadDbl row k
    let x ← loadDbl col k
    let y0 ← loadInt rowmin k
    let y1 ← loadInt rowmax k
    let x0 ← loadInt colmin k
    let x1 ← loadInt colmax k
    let f ← loadDbl fluxRadius k
    let a ← loadDbl aWorld k
    let b ← loadDbl bWorld k
    if a = 0 then .error .unmodelled
    else .ok { id := (k : Nat), row := y, col := x, obj := ⟨y0, y1, x0, x1, f, 1 - b / a⟩ }) (List.range t.nrows)

/-- `isspace`. -/
def isSpace (c : Char) : Bool := c == ' ' || c == '\t' || c == '\n' || c == '\r' || c == '\x0b' || c == '\x0c'

/-- The digits at the start and what is left. -/
def takeDigits : Nat → List Char → Nat × List Char
  | acc, [] => (acc, [])
  | acc, c :: cs =>
    match C.digit c with
    | some d => takeDigits (10 * acc + d) cs
    | none => (acc, c :: cs)

/-- At least one digit. -/
def scanDigits : List Char → Option (Nat × List Char)
  | [] => none
  | c :: cs =>
    match C.digit c with
    | some d => some (takeDigits d cs)
    | none => none

/-- `fscanf(fptr, "%ld", &id)`: blanks, a sign, digits; the number and what is left of the text, or no match. -/
def scanLong (s : List Char) : Option (Int × List Char) :=
  match s.dropWhile isSpace with
  | '-' :: cs => (scanDigits cs).map (fun r => (-(r.1 : Int), r.2))
  | '+' :: cs => (scanDigits cs).map (fun r => ((r.1 : Int), r.2))
  | cs => (scanDigits cs).map (fun r => ((r.1 : Int), r.2))

/-- The loop of `cat_add_id_from_file` (/repo/src/make-meds-input.c:253-263); the first argument bounds the number of passes. -/
def addIds : Nat → List Char → Nat → List Entry → Res (List Entry × Nat)
  | 0, _, _, _ => .error .unmodelled
  | fuel + 1, s, i, cat =>
    match scanLong s with
    | none => .ok (cat, i)
    | some (id, rest) =>
      if cat.length ≤ i then .error .runtimeError
      else addIds fuel rest (i + 1) (cat.modify i (fun e => { e with id := id }))

/-- `cat_add_id_from_file` (/repo/src/make-meds-input.c:239-272). -/
def addIdsFromFile (cat : List Entry) (text : Option (List Char)) : Res (List Entry) :=
  match text with
  | none => .error .runtimeError
  | some s => do
    let r ← addIds (s.length + 1) s 0 cat
    if r.2 ≠ cat.length then .error .runtimeError else .ok r.1

/-- The number that `%.16g` writes: 16 significant decimal digits, nearest.  Simplification: only the value of the text is kept. -/
def printed (q : ℚ) : ℚ :=
  if q = 0 then 0
  else
    let e := Int.log 10 |q| - 15
    (if q < 0 then -1 else 1) * ((roundHE (|q| / 10 ^ e) : ℚ) * 10 ^ e)

/-- A line on standard output. -/
structure Line where
  id : Int
  row : ℚ
  col : ℚ
  boxSize : Int

/-- `main` (/repo/src/make-meds-input.c:364-394) with `set_box_sizes` and `cat_write_meds_input` (/repo/src/make-meds-input.c:289-301, 356-363).  `args` is `argv`
without the name of the program; `tables` and `texts` are the files that can be opened. -/
def main (tables : String → Option SexTable) (texts : String → Option (List Char)) (args : List String) : Res (List Line) :=
  match args with
  | infile :: minsize :: maxsize :: more => do
    let minsize := fftRoundSize (C.atol minsize.toList)
    let maxsize := fftRoundSize (C.atol maxsize.toList)
    let t ← (match tables infile with | some t => .ok t | none => .error .runtimeError)
    let cat ← loadRows t
    let cat ← (match more with
      | [] => .ok cat
      | idFile :: _ => addIdsFromFile cat (texts idFile))
    .ok (cat.map (fun e => { id := e.id, row := printed e.row, col := printed e.col, boxSize := getBoxSize e.obj minsize maxsize }))
  | _ => .error .runtimeError

end Meds.InputText
