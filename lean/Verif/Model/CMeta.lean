import Verif.Model.CReader

/-!
# The metadata of the C reader (/repo/src/meds.c:674-820)

The first row of the table `metadata`, column by column.  cfitsio's behaviour that matters here, from its documentation: column names are looked up without regard
to case; a routine called with a status that is not zero returns at once and reads nothing; a string is stored with a terminating zero, so its buffer must be one byte
larger than the string.  A string column is read with trailing blanks removed, and `str w s` holds `s` without them.  Reading a number out of a string column, or a
string out of a number column, is a conversion inside cfitsio that is left open (`unmodelled`).
-/

namespace Meds.C

/-- One entry of the table: a string in a column of `width` bytes, or a number. -/
inductive Cell where
  | str (width : Nat) (s : List Char)
  | num (v : ℚ)
  deriving DecidableEq

/-- The first row of the table `metadata`. -/
abbrev MetaTable := List (String × Cell)

/-- `get_colnum` (/repo/src/meds.c:115-124), with the entry of the column; `none` for `MEDS_DEFVAL`. -/
def colnum (t : MetaTable) (name : String) : Option Cell := (t.find? (fun c => c.1.toLower == name.toLower)).map (·.2)

/-- How an entry of `struct meds_meta` is read. -/
inductive Kind where
  | string
  | double
  | long
  | atol
  deriving DecidableEq

/-- An entry of `struct meds_meta`: a string may be `NULL`. -/
inductive Value where
  | str (s : Option (List Char))
  | dbl (v : ℚ)
  | lng (v : Int)
  deriving DecidableEq

/-- What is there if nothing could be read: `NULL` or `MEDS_DEFVAL` (/repo/src/meds.c:678-741, 757-758). -/
def Kind.dflt : Kind → Value
  | .string => .str none
  | .double => .dbl (-9999)
  | .long => .lng (-9999)
  | .atol => .lng (-9999)

/-- The value of a digit. -/
def digit (c : Char) : Option Nat := if '0' ≤ c ∧ c ≤ '9' then some (c.toNat - '0'.toNat) else none

/-- Digits up to the first other character. -/
def digits : Nat → List Char → Nat
  | acc, [] => acc
  | acc, c :: cs =>
    match digit c with
    | some d => digits (10 * acc + d) cs
    | none => acc

/-- `atol`: blanks, a sign, digits.  Simplification: no overflow. -/
def atol : List Char → Int
  | [] => 0
  | c :: cs =>
    if c = ' ' ∨ c = '\t' ∨ c = '\n' ∨ c = '\r' ∨ c = '\x0b' ∨ c = '\x0c' then atol cs
    else if c = '-' then - (digits 0 cs : Int)
    else if c = '+' then digits 0 cs
    else digits 0 (c :: cs)

/-- `fits_read_string_byname` (/repo/src/meds.c:678-700): the string or `NULL`, and the status (`true`: not zero).  The buffer has as many bytes as the column is wide,
so a string that fills its column is stored beyond the buffer. -/
def readString (t : MetaTable) (name : String) (status : Bool) : Res (Option (List Char) × Bool) :=
  match colnum t name with
  | none => .ok (none, true)
  | some c =>
    if status then .ok (none, true)
    else match c with
      | .str w s => if s.length + 1 ≤ w then .ok (some s, false) else .error .unmodelled
      | .num _ => .error .unmodelled

/-- `fits_read_double_byname` (/repo/src/meds.c:701-721). -/
def readDouble (t : MetaTable) (name : String) (status : Bool) : Res (ℚ × Bool) :=
  match colnum t name with
  | none => .ok (-9999, true)
  | some c =>
    if status then .ok (-9999, true)
    else match c with
      | .num v => .ok (v, false)
      | .str _ _ => .error .unmodelled

/-- `fits_read_long_byname` (/repo/src/meds.c:722-742); a fraction is cut off. -/
def readLong (t : MetaTable) (name : String) (status : Bool) : Res (Int × Bool) :=
  match colnum t name with
  | none => .ok (-9999, true)
  | some c =>
    if status then .ok (-9999, true)
    else match c with
      | .num v => .ok (v.num.tdiv v.den, false)
      | .str _ _ => .error .unmodelled

/-- The entries in the order in which `read_meta` reads them (/repo/src/meds.c:762-810). -/
def metaEntries : List (String × Kind) :=
  [("cat_file", .string), ("coadd_file", .string), ("coadd_srclist", .string), ("cutout_file", .string), ("magzp_ref", .double), ("DESDATA", .string),
   ("se_hdu", .long), ("se_wt_hdu", .long), ("se_badpix_hdu", .long), ("sky_hdu", .long), ("seg_hdu", .long), ("coadd_hdu", .long), ("coadd_wt_hdu", .long),
   ("coadd_seg_hdu", .long), ("fake_coadd_seg", .long), ("coaddcat_file", .string), ("medsconf", .string), ("min_boxsize", .atol), ("max_boxsize", .atol)]

/-- One entry (/repo/src/meds.c:762-810); the two box sizes are strings in the file (/repo/src/meds.c:801-810). -/
def readEntry (t : MetaTable) (e : String × Kind) (status : Bool) : Res (Value × Bool) :=
  match e.2 with
  | .string => do
    let r ← readString t e.1 status
    .ok (.str r.1, r.2)
  | .double => do
    let r ← readDouble t e.1 status
    .ok (.dbl r.1, r.2)
  | .long => do
    let r ← readLong t e.1 status
    .ok (.lng r.1, r.2)
  | .atol => do
    let r ← readString t e.1 status
    match r.1, r.2 with
    | some s, false => .ok (.lng (atol s), r.2)
    | _, _ => .ok (.lng (-9999), r.2)

/-- The reads one after the other, with the one `status` they share. -/
def readEntries (t : MetaTable) : List (String × Kind) → Bool → Res (List Value)
  | [], _ => .ok []
  | e :: es, status => do
    let r ← readEntry t e status
    let rest ← readEntries t es r.2
    .ok (r.1 :: rest)

/-- `read_meta` (/repo/src/meds.c:746-816) for a file with a table `metadata`. -/
def readMeta (t : MetaTable) : Res (List Value) := readEntries t metaEntries false

/-- `self->name` of the result. -/
def metaField (vs : List Value) (name : String) : Option Value := ((metaEntries.map Prod.fst).zip vs).lookup name

end Meds.C
