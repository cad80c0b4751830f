import Verif.Model.CMeta

/-!
# What the C library prints (/repo/src/meds.c:66-83, 251-287, 327-341, 489-496, 816-855, 1059-1069)

A `fprintf` is a piece of text with the stream that it goes to.  How numbers are written (`%ld`, `%lf`) is a parameter.  A string that is `NULL` is undefined behaviour of `%s` and appears as
`.error .unmodelled`; so does an index outside an array.
-/

namespace Meds.CPrint
open C

/-- A `FILE*`. -/
inductive Stream
  | out
  | err
  | file (n : Nat)
  deriving DecidableEq

/-- The pieces of text in the order in which they are written. -/
abbrev Out := List (Stream × List Char)

/-- `%ld` and `%lf`. -/
structure Fmt where
  ld : Int → List Char
  lf : ℚ → List Char

/-- `%-14s`. -/
def pad14 (s : String) : List Char := s.toList ++ List.replicate (14 - s.length) ' '

variable (f : Fmt)

/-- `print_doubles` (/repo/src/meds.c:66-74) and the four loops of `print_distortions` (/repo/src/meds.c:259-287): `n` entries of an array. -/
def printDoubles (vals : List ℚ) (n : Nat) (name : String) (stream : Stream) : Res Out := do
  let ws ← mapRes (fun (i : Nat) => do
    let v ← index vals i
    .ok (stream, ' ' :: f.lf v)) (List.range n)
  .ok ((stream, pad14 name ++ " : ".toList) :: ws ++ [(stream, ['\n'])])

/-- `print_longs` (/repo/src/meds.c:75-83). -/
def printLongs (vals : List Int) (n : Nat) (name : String) (stream : Stream) : Res Out := do
  let ws ← mapRes (fun (i : Nat) => do
    let v ← index vals i
    .ok (stream, ' ' :: f.ld v)) (List.range n)
  .ok ((stream, pad14 name ++ " : ".toList) :: ws ++ [(stream, ['\n'])])

/-- `print_distortions` (/repo/src/meds.c:259-287). -/
def printDistortions (a : List Slot) (n : Nat) (stream : Stream) : Res Out := do
  let p1 ← printDoubles f (a.map (·.dudrow)) n "dudrow" stream
  let p2 ← printDoubles f (a.map (·.dudcol)) n "dudcol" stream
  let p3 ← printDoubles f (a.map (·.dvdrow)) n "dvdrow" stream
  let p4 ← printDoubles f (a.map (·.dvdcol)) n "dvdcol" stream
  .ok (p1 ++ p2 ++ p3 ++ p4)

/-- `meds_obj_print` (/repo/src/meds.c:327-341). -/
def objPrint (o : Obj) (stream : Stream) : Res Out := do
  let n := o.ncutout.toNat
  let p1 ← printLongs f (o.arrays.map (·.fileId)) n "file_id" stream
  let p2 ← printLongs f (o.arrays.map (·.startRow)) n "start_row" stream
  let p3 ← printDoubles f (o.arrays.map (·.origRow)) n "orig_row" stream
  let p4 ← printDoubles f (o.arrays.map (·.origCol)) n "orig_col" stream
  let p5 ← printLongs f (o.arrays.map (·.origStartRow)) n "orig_start_row" stream
  let p6 ← printLongs f (o.arrays.map (·.origStartCol)) n "orig_start_col" stream
  let p7 ← printDoubles f (o.arrays.map (·.cutoutRow)) n "cutout_row" stream
  let p8 ← printDoubles f (o.arrays.map (·.cutoutCol)) n "cutout_col" stream
  let p9 ← printDistortions f o.arrays n stream
  .ok ([(stream, pad14 "ncutout" ++ " : ".toList ++ f.ld o.ncutout ++ ['\n']), (stream, pad14 "box_size" ++ " : ".toList ++ f.ld o.boxSize ++ ['\n'])]
    ++ p1 ++ p2 ++ p3 ++ p4 ++ p5 ++ p6 ++ p7 ++ p8 ++ p9)

/-- The entries of `meds_meta_print` in order, with the text before the value, and whether the code looks first whether there is a value (/repo/src/meds.c:818-853). -/
def metaPieces : List (String × String × Bool) :=
  [("cat_file", "    cat_file:      ", false), ("coadd_file", "    coadd_file:    ", false), ("coadd_srclist", "    coadd_srclist: ", false), ("cutout_file", "    cutout_file:   ", false),
   ("coaddcat_file", "    coaddcat_file: ", true), ("DESDATA", "    desdata:       ", false), ("medsconf", "    medsconf:      ", true), ("min_boxsize", "    min_boxsize:   ", true),
   ("max_boxsize", "    max_boxsize:   ", true), ("magzp_ref", "    magzp_ref:     ", true), ("se_hdu", "    se_hdu:        ", true), ("se_wt_hdu", "    se_wt_hdu:     ", true),
   ("se_badpix_hdu", "    se_badpix_hdu: ", true), ("sky_hdu", "    sky_hdu:       ", true), ("seg_hdu", "    seg_hdu:       ", true), ("coadd_hdu", "    coadd_hdu:     ", true),
   ("coadd_wt_hdu", "    coadd_wt_hdu:  ", true), ("coadd_seg_hdu", "    coadd_seg_hdu: ", true), ("fake_coadd_seg", "    fake_coadd_seg: ", true)]

/-- One of them: `stderr`, whatever the argument of the function is (/repo/src/meds.c:818-853). -/
def metaPiece (vs : List Value) (e : String × String × Bool) : Res Out :=
  match metaField vs e.1 with
  | some (.str (some s)) => .ok [(.err, e.2.1.toList ++ s ++ ['\n'])]
  | some (.str none) => if e.2.2 then .ok [] else .error .unmodelled
  | some (.lng v) => if 0 < v then .ok [(.err, e.2.1.toList ++ f.ld v ++ ['\n'])] else .ok []
  | some (.dbl v) => if 0 < v then .ok [(.err, e.2.1.toList ++ f.lf v ++ ['\n'])] else .ok []
  | none => .error .unmodelled

/-- `meds_meta_print` (/repo/src/meds.c:816-855); the second argument is not used. -/
def metaPrint (vs : List Value) (_stream : Stream) : Res Out := do
  let ps ← mapRes (metaPiece f vs) metaPieces
  .ok ps.flatten

/-- `meds_print` (/repo/src/meds.c:1059-1069) of an open file with its metadata; `none` for `NULL`. -/
def medsPrint (m : Option (String × Handle × List Value)) (stream : Stream) : Res Out :=
  match m with
  | none => .ok []
  | some (path, h, vs) => do
    let p ← metaPrint f vs stream
    .ok ([(stream, "MEDS structure\n".toList), (stream, "    meds path:     ".toList ++ path.toList ++ ['\n']), (stream, "    nobj:          ".toList ++ f.ld h.cat.length ++ ['\n']),
      (stream, "    source images: ".toList ++ f.ld h.info.length ++ ['\n']), (stream, "metadata\n".toList)] ++ p)

/-- `struct meds_image_info` with the entries that are texts or doubles (/repo/src/meds.h:188-198). -/
structure ImageInfo where
  imagePath : List Char
  wcsPath : List Char
  skyPath : List Char
  segPath : List Char
  magzp : ℚ
  scale : ℚ

/-- `meds_image_info_print` (/repo/src/meds.c:489-496). -/
def imageInfoPrint (i : ImageInfo) (stream : Stream) : Out :=
  [(stream, "image_path: ".toList ++ i.imagePath ++ ['\n']), (stream, "sky_path:   ".toList ++ i.skyPath ++ ['\n']), (stream, "seg_path:   ".toList ++ i.segPath ++ ['\n']),
   (stream, "magzp:      ".toList ++ f.lf i.magzp ++ ['\n']), (stream, "scale:      ".toList ++ f.lf i.scale ++ ['\n'])]

/-- `meds_distort_print` (/repo/src/meds.c:251-258); `g` is `%g`. -/
def distortPrint (g : ℚ → List Char) (d : Distort) (stream : Stream) : Out :=
  [(stream, g d.dudrow ++ ' ' :: (g d.dudcol ++ ' ' :: (g d.dvdrow ++ ' ' :: (g d.dvdcol ++ ['\n']))))]

end Meds.CPrint
