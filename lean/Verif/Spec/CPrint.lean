import Verif.Model.CPrint

/-!
# Printed text
-/

namespace Meds.Spec
open C CPrint

/-- All that was written to a stream. -/
def textOn (s : Stream) (o : Out) : List Char := ((o.filter (fun p => p.1 = s)).map (·.2)).flatten

/-- A line: the name in 14 columns, a colon, the values with a blank before each. -/
def valueLine (name : String) (ws : List (List Char)) : List Char := pad14 name ++ [' ', ':', ' '] ++ (ws.map (' ' :: ·)).flatten ++ ['\n']

/-- What is to be printed of an object: its row of the catalogue, used slots only. -/
def objectLines (f : Fmt) (r : ObjRow) : List (List Char) :=
  let s := r.slots.take r.ncutout.toNat
  [pad14 "ncutout" ++ [' ', ':', ' '] ++ f.ld r.ncutout ++ ['\n'], pad14 "box_size" ++ [' ', ':', ' '] ++ f.ld r.boxSize ++ ['\n'],
   valueLine "file_id" (s.map (fun x => f.ld x.fileId)), valueLine "start_row" (s.map (fun x => f.ld x.startRow)), valueLine "orig_row" (s.map (fun x => f.lf x.origRow)),
   valueLine "orig_col" (s.map (fun x => f.lf x.origCol)), valueLine "orig_start_row" (s.map (fun x => f.ld x.origStartRow)), valueLine "orig_start_col" (s.map (fun x => f.ld x.origStartCol)),
   valueLine "cutout_row" (s.map (fun x => f.lf x.cutoutRow)), valueLine "cutout_col" (s.map (fun x => f.lf x.cutoutCol)), valueLine "dudrow" (s.map (fun x => f.lf x.dudrow)),
   valueLine "dudcol" (s.map (fun x => f.lf x.dudcol)), valueLine "dvdrow" (s.map (fun x => f.lf x.dvdrow)), valueLine "dvdcol" (s.map (fun x => f.lf x.dvdcol))]

/-- Numbers are written without blanks and line ends, and different integers differently. -/
structure GoodFmt (f : Fmt) : Prop where
  ld_chars : ∀ v, ∀ c ∈ f.ld v, c ≠ ' ' ∧ c ≠ '\n'
  lf_chars : ∀ v, ∀ c ∈ f.lf v, c ≠ ' ' ∧ c ≠ '\n'
  ld_inj : ∀ v w, f.ld v = f.ld w → v = w

/-- The lines about the file itself. -/
def headLines (f : Fmt) (path : String) (nobj nimage : Nat) : List (List Char) :=
  ["MEDS structure\n".toList, "    meds path:     ".toList ++ path.toList ++ ['\n'], "    nobj:          ".toList ++ f.ld nobj ++ ['\n'], "    source images: ".toList ++ f.ld nimage ++ ['\n'],
   "metadata\n".toList]

/-- The text of an entry of the metadata that has a value: a string, or a number greater than zero. -/
def entryText (f : Fmt) : Option Value → Option (List Char)
  | some (.str (some s)) => some s
  | some (.lng v) => if 0 < v then some (f.ld v) else none
  | some (.dbl v) => if 0 < v then some (f.lf v) else none
  | _ => none

/-- Names of the entries of the metadata, in the order in which they are to be printed, with the text before the value. -/
def metaLabels : List (String × String) :=
  [("cat_file", "    cat_file:      "), ("coadd_file", "    coadd_file:    "), ("coadd_srclist", "    coadd_srclist: "), ("cutout_file", "    cutout_file:   "),
   ("coaddcat_file", "    coaddcat_file: "), ("DESDATA", "    desdata:       "), ("medsconf", "    medsconf:      "), ("min_boxsize", "    min_boxsize:   "),
   ("max_boxsize", "    max_boxsize:   "), ("magzp_ref", "    magzp_ref:     "), ("se_hdu", "    se_hdu:        "), ("se_wt_hdu", "    se_wt_hdu:     "),
   ("se_badpix_hdu", "    se_badpix_hdu: "), ("sky_hdu", "    sky_hdu:       "), ("seg_hdu", "    seg_hdu:       "), ("coadd_hdu", "    coadd_hdu:     "),
   ("coadd_wt_hdu", "    coadd_wt_hdu:  "), ("coadd_seg_hdu", "    coadd_seg_hdu: "), ("fake_coadd_seg", "    fake_coadd_seg: ")]

/-- The lines about the metadata, for the entries that have a value. -/
def metaLines (f : Fmt) (vs : List Value) : List (List Char) := metaLabels.filterMap fun e => (entryText f (metaField vs e.1)).map (e.2.toList ++ · ++ ['\n'])

end Meds.Spec
