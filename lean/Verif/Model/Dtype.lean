import Verif.Model.Columns
import Verif.Model.IntTypes
import Verif.Model.Machine

/-!
# Types and memory layout of the columns of `obj_data`

`Model/Columns` has columns without types, one after the other.  Here the columns have the types of numpy and a place in the record, and a number put into a column is
converted to its type.
-/

namespace Meds
namespace Dtype

open Columns

/-- The types of columns considered here: integers, `f8`, `f4`, `S<n>`, `bool` and `V<n>`, raw bytes. -/
inductive Kind where
  | int (t : IntType)
  | f8
  | f4
  | bytes (n : Nat)
  | bool
  | void (n : Nat)
  deriving DecidableEq

/-- Bytes of one value. -/
def Kind.size : Kind → Nat
  | .int t => t.bits / 8
  | .f8 => 8
  | .f4 => 4
  | .bytes n => n
  | .bool => 1
  | .void n => n

/-- `i8`. -/
def i8 : Kind := .int ⟨64, true⟩

/-- `i4`. -/
def i4 : Kind := .int ⟨32, true⟩

/-- An entry of a numpy type descriptor: name, type, and the length of a sub-array. -/
structure Entry where
  name : String
  kind : Kind
  width : Option Nat
  deriving DecidableEq

/-- Bytes of a column in one record. -/
def Entry.size (e : Entry) : Nat := e.kind.size * e.width.getD 1

/-- A structured dtype: fields with their offsets, and the length of a record. -/
structure DType where
  fields : List (Entry × Nat)
  itemsize : Nat
  deriving DecidableEq

/-- The loop of numpy's `dtype.descr`, from a field that ends at `off` on: gaps are entries without a name, overlapping or reordered fields a ValueError. -/
def descrFrom (itemsize : Nat) : List (Entry × Nat) → Nat → Res (List Entry)
  | [], off => .ok (if off < itemsize then [⟨"", .void (itemsize - off), none⟩] else [])
  | f :: fs, off =>
    if off < f.2 then do
      let r ← descrFrom itemsize fs (f.2 + f.1.size)
      .ok (⟨"", .void (f.2 - off), none⟩ :: f.1 :: r)
    else if f.2 < off then .error .valueError
    else do
      let r ← descrFrom itemsize fs (off + f.1.size)
      .ok (f.1 :: r)

/-- `obj_data.dtype.descr` (/repo/meds/maker.py:1368). -/
def DType.descr (d : DType) : Res (List Entry) := descrFrom d.itemsize d.fields 0

/-- A value of a column. -/
inductive V where
  | num (q : ℚ)
  | text (s : String)
  | raw
  deriving DecidableEq

/-- A column with its values, row by row. -/
structure TCol where
  entry : Entry
  vals : List (List V)
  deriving DecidableEq

/-- The array given by the user. -/
structure TArr where
  dtype : DType
  n : Nat
  vals : List (List (List V))

/-- The columns of the array. -/
def TArr.cols (a : TArr) : List TCol := List.zipWith (fun f v => ⟨f.1, v⟩) a.dtype.fields a.vals

/-- `get_meds_output_dtype` (/repo/meds/util.py:179-202). -/
def outputDtype (nmax : Nat) (extra : List Entry) : List Entry :=
  [⟨"id", i8, none⟩, ⟨"box_size", i8, none⟩, ⟨"ra", .f8, none⟩, ⟨"dec", .f8, none⟩, ⟨"ncutout", i8, none⟩,
   ⟨"file_id", i8, some nmax⟩, ⟨"start_row", i8, some nmax⟩, ⟨"orig_row", .f8, some nmax⟩, ⟨"orig_col", .f8, some nmax⟩,
   ⟨"orig_start_row", i8, some nmax⟩, ⟨"orig_start_col", i8, some nmax⟩, ⟨"cutout_row", .f8, some nmax⟩, ⟨"cutout_col", .f8, some nmax⟩,
   ⟨"dudrow", .f8, some nmax⟩, ⟨"dudcol", .f8, some nmax⟩, ⟨"dvdrow", .f8, some nmax⟩, ⟨"dvdcol", .f8, some nmax⟩] ++ extra

/-- `_get_psf_dtype` (/repo/meds/maker.py:1379-1391). -/
def psfDtype (nmax : Nat) : List Entry :=
  [⟨"psf_row_size", i4, some nmax⟩, ⟨"psf_col_size", i4, some nmax⟩, ⟨"psf_cutout_row", .f8, some nmax⟩, ⟨"psf_cutout_col", .f8, some nmax⟩,
   ⟨"psf_start_row", i8, some nmax⟩]

/-- `_get_extra_fields` (/repo/meds/maker.py:1357-1377). -/
def extraFields (psf : Bool) (d : DType) (nmax : Nat) : Res (List Entry) := do
  let ds ← d.descr
  .ok (ds.filter (fun e => !(((outputDtype nmax []).map (·.name)).contains e.name) && !(((psfDtype nmax).map (·.name)).contains e.name)) ++
    (if psf then psfDtype nmax else []))

/-- The names numpy gives to the fields of a descriptor: entry `i` without a name becomes `f<i>`. -/
def fieldNames (ds : List Entry) : List String := ds.mapIdx (fun i e => if e.name = "" then "f" ++ toString i else e.name)

/-- `data[name] = DEFVAL` with the Python integer -9999 for a column of this type: the value stored.  `strict` is numpy 2, in which an integer that does not fit into
the type is an OverflowError; before, it was wrapped.  Assignments to raw bytes are left open. -/
def assignDefault (strict : Bool) : Kind → Res V
  | .int t => if t.wrap (-9999) = -9999 then .ok (.num (-9999)) else if strict then .error .overflowError else .ok (.num (t.wrap (-9999)))
  | .f8 => .ok (.num (-9999))
  | .f4 => .ok (.num (-9999))
  | .bytes n => .ok (.text (String.ofList ("-9999".toList.take n)))
  | .bool => .ok (.num 1)
  | .void _ => .error .unmodelled

/-- `numpy.zeros`: the zero of a type. -/
def zeroOf : Kind → V
  | .bytes _ => .text ""
  | .void _ => .raw
  | _ => .num 0

/-- One turn of the loop of `get_meds_output_struct` (/repo/meds/util.py:112-116).  The loop takes the names of the descriptor; the empty one is not the name of a
field. -/
def fillCol (strict : Bool) (n : Nat) (e : Entry) : Res TCol :=
  if e.name = "ncutout" then .ok ⟨e, List.replicate n (List.replicate (e.width.getD 1) (zeroOf e.kind))⟩
  else if e.name = "" then .error .valueError
  else do
    let v ← assignDefault strict e.kind
    .ok ⟨e, List.replicate n (List.replicate (e.width.getD 1) v)⟩

/-- `get_meds_output_struct` (/repo/meds/util.py:95-118), and `get_meds_input_struct` (121-142) with the other list of entries. -/
def filledStruct (strict : Bool) (n : Nat) (ds : List Entry) : Res (List TCol) :=
  if (fieldNames ds).Nodup then mapRes (fillCol strict n) ds else .error .valueError

/-- A value of a column of type `src` put into a column of type `dst`.  Left open: floats that do not fit into an integer type, strings put into numbers and the reverse,
and everything put into `f4`, `bool` and raw bytes from another type; none of the columns of the maker has such a type. -/
def convert (src dst : Kind) (v : V) : Res V :=
  if src = dst then .ok v
  else
    match src, dst, v with
    | .int _, .int t, .num q => .ok (.num (t.wrap (truncZ q)))
    | .bool, .int t, .num q => .ok (.num (t.wrap (truncZ q)))
    | .f8, .int t, .num q => if t.wrap (truncZ q) = truncZ q then .ok (.num (truncZ q)) else .error .unmodelled
    | .f4, .int t, .num q => if t.wrap (truncZ q) = truncZ q then .ok (.num (truncZ q)) else .error .unmodelled
    | .int _, .f8, .num q => .ok (.num (rndD q))
    | .bool, .f8, .num q => .ok (.num q)
    | .f4, .f8, .num q => .ok (.num q)
    | _, _, _ => .error .unmodelled

/-- One column of `eu.numpy_util.copy_fields(obj_data, new_obj_data)` (called in /repo/meds/maker.py:1353). -/
def copyCol (a : TArr) (c : TCol) : Res TCol :=
  match a.cols.find? (fun s => s.entry.name == c.entry.name) with
  | none => .ok c
  | some s => do
    let v ← broadcast a.n c.entry.width s.entry.width s.vals
    let w ← mapRes (mapRes (convert s.entry.kind c.entry.kind)) v
    .ok { c with vals := w }

/-- `_check_required_obj_data_fields` and `_get_full_obj_data` (/repo/meds/maker.py:1223-1230, 1311-1355) for a given `nmax`: the columns of the catalogue. -/
def setObjData (strict psf : Bool) (nmax : Nat) (a : TArr) : Res (List TCol) :=
  if (["id", "box_size", "ra", "dec"].filter (fun s => !((a.dtype.fields.map (·.1.name)).contains s))).length > 0 then .error .valueError
  else do
    let extra ← extraFields psf a.dtype nmax
    let new ← filledStruct strict a.n (outputDtype nmax extra)
    mapRes (copyCol a) new

/-- `get_meds_input_struct(nobj, extra_fields)` (/repo/meds/util.py:121-164). -/
def inputStruct (strict : Bool) (n : Nat) (extra : List Entry) : Res (List TCol) :=
  filledStruct strict n ([⟨"id", i8, none⟩, ⟨"box_size", i8, none⟩, ⟨"ra", .f8, none⟩, ⟨"dec", .f8, none⟩] ++ extra)

/-- `a[names]` of numpy since 1.16: a view of the same records, with the fields in the order of the names. -/
def select (names : List String) (d : DType) : DType :=
  { d with fields := names.filterMap (fun s => d.fields.find? (fun f => f.1.name == s)) }

end Dtype
end Meds
