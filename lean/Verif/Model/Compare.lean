import Verif.Model.Reader

/-!
# Comparing two files (/repo/meds/compare.py)

Left out: what is printed, the statistics of the image differences (they only get printed), and the plotting packages, which are taken to work (so is `eu.stat.sigma_clip`,
also for no images at all).  All columns of the catalogue are taken to be numbers (`numpy.allclose` raises for strings).
-/

namespace Meds.Compare

/-- The `png_prefix` argument: its default `False`, `None`, or a string. -/
inductive Png
  | isFalse | isNone | str
  deriving DecidableEq

/-- A `Comparator` (/repo/meds/compare.py:11-29) with the two files open. -/
structure Comparator where
  m1 : MEDS
  m2 : MEDS
  sameNepoch : Bool
  png : Png

/-- `eu.numpy_util.match`, as documented: the ids of the first file have to be different; for every object of the second file whose id is in the first file, the two
indices. -/
def matchIds (ids1 ids2 : List Int) : Res (List (Nat × Nat)) :=
  if ids1 = [] ∨ ids2 = [] then .error .valueError
  else if ¬ ids1.Nodup then .error .valueError
  else .ok (ids2.zipIdx.filterMap (fun p => (ids1.idxOf? p.1).map (fun i => (i, p.2))))

/-- `_match` (/repo/meds/compare.py:253-267). -/
def Comparator.matched (c : Comparator) : Res (List (Nat × Nat)) := do
  let l ← matchIds (c.m1.cat.rows.map (·.id)) (c.m2.cat.rows.map (·.id))
  if l.length = 0 then .error .runtimeError else .ok l

/-- The optional column names of a catalogue; the other columns are the same in every file of the model. -/
def colNames (d : CatDtype) : List String :=
  (if d.hasNumber then ["number"] else []) ++ (if d.psfRowCol = .absent then [] else ["psf_row_size", "psf_col_size"]) ++
    (if d.psfBox = .absent then [] else ["psf_box_size"])

/-- `compare_object_data` (/repo/meds/compare.py:43-73): different names raise, different values do not. -/
def Comparator.objectData (c : Comparator) : Res Unit :=
  if colNames c.m1.cat.dtype ≠ colNames c.m2.cat.dtype then .error .valueError else .ok ()

/-- `_check_ncutout` (/repo/meds/compare.py:170-187). -/
def Comparator.checkNcutout (c : Comparator) (i1 i2 : Nat) : Res Int := do
  let o1 ← c.m1.row i1
  let o2 ← c.m2.row i2
  if c.sameNepoch = false then .ok (min o1.ncutout o2.ncutout)
  else if o1.ncutout ≠ o2.ncutout then .error .valueError
  else .ok o1.ncutout

/-- The shape check of `_compare_images` and `_compare_weights` (/repo/meds/compare.py:195-197, 218-220). -/
def sameShape (im1 im2 : Img ℚ) : Res Unit := if im1.nr ≠ im2.nr ∨ im1.nc ≠ im2.nc then .error .valueError else .ok ()

/-- `_compare_images_exact` (/repo/meds/compare.py:231-243). -/
def compareExact (im1 im2 : Img ℚ) : Res Unit := do
  sameShape im1 im2
  if (List.zipWith (fun a b => decide (a ≠ b)) im1.flat im2.flat).any id then .error .valueError else .ok ()

/-- One turn of the inner loop (/repo/meds/compare.py:104-118). -/
def Comparator.compareCutout (c : Comparator) (type : String) (i1 i2 icut : Nat) : Res Unit := do
  let im2 ← c.m2.getCutout i2 icut type
  let im1 ← c.m1.getCutout i1 icut type
  if type = "image" then sameShape im1 im2
  else if type = "weight" then sameShape im1 im2
  else compareExact im1 im2

/-- One turn of the outer loop (/repo/meds/compare.py:97-143); the state tells whether `icut` and the images have a value. `False + "..."` is a TypeError. -/
def Comparator.comparePair (c : Comparator) (type : String) (bound : Bool) (p : Nat × Nat) : Res Bool := do
  let ncut ← c.checkNcutout p.1 p.2
  let _ ← mapRes (fun k => c.compareCutout type p.1 p.2 k) (List.range ncut.toNat)
  let bound' := bound || decide (0 < ncut)
  if type = "image" ∧ c.png ≠ .isNone then
    if bound' = false then .error .unboundLocal
    else if c.png = .isFalse then .error .typeError
    else .ok bound'
  else .ok bound'

/-- `compare_images` (/repo/meds/compare.py:75-168); `pairs` are the matched objects, or the random ones among them. -/
def Comparator.compareImages (c : Comparator) (pairs : List (Nat × Nat)) (type : String) : Res Unit := do
  let _ ← foldRes (c.comparePair type) false pairs
  if type = "image" ∧ c.png = .isFalse then .error .typeError else .ok ()

/-- `go` without `nrand` (/repo/meds/compare.py:31-41). -/
def Comparator.go (c : Comparator) : Res Unit := do
  let pairs ← c.matched
  c.objectData
  let _ ← mapRes (c.compareImages pairs) ["image", "weight", "bmask", "seg"]
  .ok ()

/-- The column used for matching (`--id-name`, /repo/meds/compare.py:259-262); other columns than these are left out. -/
def idColumn (d : CatDtype) (name : String) : Res (ObjRow → Int) :=
  if name = "id" then .ok (·.id)
  else if name = "number" then (if d.hasNumber then .ok (·.number) else .error .valueError)
  else if name = "ncutout" then .ok (·.ncutout)
  else if name = "box_size" then .ok (·.boxSize)
  else .error .unmodelled

/-- `_match` (/repo/meds/compare.py:253-267) for a column of that name. -/
def Comparator.matchedBy (c : Comparator) (name : String) : Res (List (Nat × Nat)) := do
  let k1 ← idColumn c.m1.cat.dtype name
  let k2 ← idColumn c.m2.cat.dtype name
  let l ← matchIds (c.m1.cat.rows.map k1) (c.m2.cat.rows.map k2)
  if l.length = 0 then .error .runtimeError else .ok l

/-- What is compared for one type (/repo/meds/compare.py:88-92): all pairs, or those at random indices.  `draw type n k` are the indices that
`eu.random.random_indices(n, k)` returns in the call for that type (/repo/meds/compare.py:245-251).  Simplification: `nrand` is not negative. -/
def chosen (draw : String → Nat → Nat → List Nat) (nrand : Option Nat) (type : String) (pairs : List (Nat × Nat)) : Res (List (Nat × Nat)) :=
  let ids := match nrand with
    | some n => draw type pairs.length (min n pairs.length)
    | none => List.range pairs.length
  mapRes (fun i : Nat => pyGet pairs (i : Int)) ids

/-- `go` (/repo/meds/compare.py:31-41) with all its arguments. -/
def Comparator.goRand (c : Comparator) (name : String) (draw : String → Nat → Nat → List Nat) (nrand : Option Nat) : Res Unit := do
  let pairs ← c.matchedBy name
  c.objectData
  let _ ← mapRes (fun type => do
    let sub ← chosen draw nrand type pairs
    c.compareImages sub type) ["image", "weight", "bmask", "seg"]
  .ok ()

/-- The arguments of the script (/repo/scripts/meds-compare:5-25); `image_rms_tol` decides only what is printed. -/
structure Args where
  idName : String
  nrand : Option Nat
  noNepoch : Bool
  png : Option String

/-- The script `meds-compare` (/repo/scripts/meds-compare:27-45) with its arguments parsed: its exit status.  `none` is a file that is not there. -/
def compareMain (f1 f2 : Option Fits) (a : Args) (draw : String → Nat → Nat → List Nat) : Nat :=
  match f1, f2 with
  | some f1, some f2 =>
    match MEDS.openFile f1, MEDS.openFile f2 with
    | .ok m1, .ok m2 =>
      match (⟨m1, m2, !a.noNepoch, if a.png.isSome then .str else .isNone⟩ : Comparator).goRand a.idName draw a.nrand with
      | .ok _ => 0
      | .error _ => 1
    | _, _ => 1
  | _, _ => 1

end Meds.Compare
