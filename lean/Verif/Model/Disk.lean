import Verif.Model.Extractor

/-!
# The extractors on disk: opening, clobbering, writing, clean-up

A disk maps directory entries to files or symbolic links.  `nm` maps a path as the user spells it to its directory entry ("a.fits", "./a.fits" and
"/data/../data/a.fits" may all be the same entry); it is an arbitrary parameter, so nothing below depends on how paths are normalised.
Simplifications: no hard links (fitsio removes the output before creating it, so a hard link is an independent copy here), no permissions, no missing
directories, no other process; writing one HDU is one step (the bytes of a half-written HDU are only in the output file).
-/

namespace Meds.Disk

/-- What a directory entry holds. -/
inductive Node
  | file (f : Fits)
  | link (path : String)

/-- The part of the filesystem that the extractors can reach. -/
abbrev Disk := String → Option Node

/-- Change one directory entry. -/
def put (d : Disk) (e : String) (n : Option Node) : Disk := fun x => if x = e then n else d x

variable (nm : String → String)

/-- Follow symbolic links, at most `fuel` of them, to a file. -/
def fileAt (d : Disk) (fuel : Nat) (e : String) : Option Fits :=
  match d e with
  | none => none
  | some (.file f) => some f
  | some (.link p) =>
    match fuel with
    | 0 => none
    | n + 1 => fileAt d n (nm p)

/-- The contents seen by opening a path; Linux gives up after 40 links. -/
def readPath (d : Disk) (path : String) : Option Fits := fileAt nm d 40 (nm path)

/-- The entry at which opening a path for creation puts the new file: links are followed also when they dangle. -/
def target (d : Disk) (fuel : Nat) (e : String) : Option String :=
  match d e with
  | some (.link p) =>
    match fuel with
    | 0 => none
    | n + 1 => target d n (nm p)
  | _ => some e

/-- `os.path.exists`. -/
def pathExists (d : Disk) (path : String) : Bool := (readPath nm d path).isSome

/-- `if os.path.exists(path): os.remove(path)`; `os.remove` removes the entry itself, also if it is a link.
(/repo/meds/extractor.py:83-85, and inside `fitsio.FITS(path, "rw", clobber=True)`.) -/
def removeIfExists (d : Disk) (path : String) : Disk :=
  if pathExists nm d path then put d (nm path) none else d

end Disk

open Disk

namespace Extract

/-- What is to be extracted: the three classes and their own arguments (/repo/meds/extractor.py:47-48, 208; /repo/meds/number_extractor.py:33). -/
inductive Job
  | range (start stop : Int) (copyAll : Bool)
  | catalog
  | numbers (sorts : Bool) (ns : List Int)

/-- The arguments of an extractor object. -/
structure Request where
  medsFile : String
  subFile : String
  cleanup : Bool
  job : Job

/-- Is `self.cleanup` set when the constructor returns or raises?  Not when the numbers are repeated: then `__del__` raises AttributeError, which Python
ignores (/repo/meds/number_extractor.py:37-43). -/
def Request.cleans (r : Request) : Bool :=
  match r.job with
  | .numbers _ ns => r.cleanup && decide ns.Nodup
  | _ => r.cleanup

/-- The checks before any file is opened (/repo/meds/extractor.py:193-200, 253-255; /repo/meds/number_extractor.py:35-44, 239-244).  File names are compared as
strings. -/
def Request.check (r : Request) : Res Unit :=
  match r.job with
  | .range a b _ => if r.medsFile = r.subFile then .error .valueError else if b < a then .error .valueError else .ok ()
  | .catalog => if r.medsFile = r.subFile then .error .valueError else .ok ()
  | .numbers _ ns =>
    if ns.Nodup then
      if r.medsFile = r.subFile then .error .valueError
      else if ns.length = 0 then .error .valueError
      else .ok ()
    else .error .assertionError

/-- A write of one extension, or the exception raised by the reads before it. -/
abbrev HduStep := Res (String × Hdu)

/-- The steps of writing something that fails as a whole or gives a list of steps. -/
def stepsOf {α : Type} (x : Res α) (k : α → List HduStep) : List HduStep :=
  match x with
  | .error e => [.error e]
  | .ok a => k a

/-- The image_info and metadata steps, common to the three extractors (/repo/meds/extractor.py:115-119). -/
def tableSteps (f : Fits) : List HduStep :=
  [f.imageInfo.map (fun i => ("image_info", .info i)), f.metaTable.map (fun m => ("metadata", .metadata m))]

/-- PSF step of the range extractor (/repo/meds/extractor.py:149-152). -/
def psfSteps (f : Fits) : Option (Int × Int) → List HduStep
  | none => []
  | some r => [sliceExt f r "psf"]

/-- Cutout steps of the range extractor (/repo/meds/extractor.py:121-152). -/
def rangeCutoutSteps (f : Fits) (r : Int × Int) (psf : Option (Int × Int)) : List HduStep :=
  if r.1 = -1 then dummyHdus.map .ok else (rangeExts f).map (sliceExt f r) ++ psfSteps f psf

/-- The catalogue of the range extractor, with the ranges (/repo/meds/extractor.py:96-108). -/
def rangeHead (f : Fits) (start stop : Int) : Res (ObjTable × (Int × Int) × Option (Int × Int)) := do
  let t ← f.objects
  let rows ← sliceRows t.rows start (stop + 1)
  let r ← rowRange rows
  let rows1 := shiftRows r.1 rows
  let psf ← psfRange f t.dtype rows1
  .ok ({ t with rows := shiftPsf psf rows1 }, r, psf)

/-- The writes of `MEDSExtractor._extract` in order (/repo/meds/extractor.py:87-161). -/
def rangeSteps (f : Fits) (start stop : Int) (copyAll : Bool) : List HduStep :=
  stepsOf (rangeHead f start stop) (fun x =>
    .ok ("object_data", .objects x.1) :: (tableSteps f ++ rangeCutoutSteps f x.2.1 x.2.2 ++ (extras f copyAll).map .ok))

/-- The writes of `MEDSCatalogExtractor._extract` in order (/repo/meds/extractor.py:231-251). -/
def catalogSteps (f : Fits) : List HduStep :=
  f.objects.map (fun t => ("object_data", Hdu.objects t)) :: tableSteps f

/-- The catalogue of the number extractor, with the ranges (/repo/meds/number_extractor.py:149-178). -/
def numberHead (sorts : Bool) (f : Fits) (numbers : List Int) : Res (ObjTable × List (Int × Int) × Option (List (Int × Int))) := do
  let t ← f.objects
  let inds ← numberInds t numbers
  let rows ← takeRows sorts t.rows inds
  let rs ← rowRanges rows
  let rows1 ← newStarts rs rows
  let p ← numberPsf f t.dtype rows1
  .ok ({ t with rows := p.1 }, rs, p.2)

/-- PSF step of the number extractor (/repo/meds/number_extractor.py:221-226). -/
def numberPsfSteps (f : Fits) : Option (List (Int × Int)) → List HduStep
  | none => []
  | some rs => [gatherExt f rs "psf"]

/-- Cutout steps of the number extractor (/repo/meds/number_extractor.py:191-226). -/
def numberCutoutSteps (f : Fits) (rs : List (Int × Int)) (psf : Option (List (Int × Int))) : List HduStep :=
  if firstStart rs = -1 then dummyHdus.map .ok
  else (["image_cutouts", "weight_cutouts", "seg_cutouts", "bmask_cutouts"].map (gatherExt f rs)) ++ numberPsfSteps f psf

/-- The writes of `MEDSNumberExtractor._extract` in order (/repo/meds/number_extractor.py:143-226). -/
def numberSteps (sorts : Bool) (f : Fits) (numbers : List Int) : List HduStep :=
  stepsOf (numberHead sorts f numbers) (fun x =>
    .ok ("object_data", .objects x.1) :: (tableSteps f ++ numberCutoutSteps f x.2.1 x.2.2))

/-- The writes of a job, given the contents of the input file. -/
def Job.steps (j : Job) (f : Fits) : List HduStep :=
  match j with
  | .range a b c => rangeSteps f a b c
  | .catalog => catalogSteps f
  | .numbers sorts ns => numberSteps sorts f (ns.insertionSort (· ≤ ·))

/-- Write step after step at directory entry `e`, `hs` being there already: the disks after each write, and the exception that ended it, if any. -/
def writeSteps (d : Disk) (e : String) (hs : List (String × Hdu)) : List HduStep → List Disk × Option Err
  | [] => ([], none)
  | .error x :: _ => ([], some x)
  | .ok h :: t =>
    let d' := put d e (some (.file ⟨hs ++ [h]⟩))
    let r := writeSteps d' e (hs ++ [h]) t
    (d' :: r.1, r.2)

variable (nm : String → String)

/-- `fitsio.FITS(sub_file, "rw", clobber=True)` and the writes (/repo/meds/extractor.py:91): removal, creation, extensions.  The input stays open, so its
contents are still readable even if the removal took its last name away. -/
def writeOut (d : Disk) (r : Request) (f : Fits) : List Disk × Option Err :=
  let d1 := removeIfExists nm d r.subFile
  match target nm d1 40 (nm r.subFile) with
  | none => ([d1], some .osError)
  | some e =>
    let d2 := put d1 e (some (.file ⟨[]⟩))
    let w := writeSteps d2 e [] (r.job.steps f)
    (d1 :: d2 :: w.1, w.2)

/-- The constructor: every disk state after the initial one, in order, and the exception, if any
(/repo/meds/extractor.py:47-70, 208-214; /repo/meds/number_extractor.py:33-49). -/
def construct (d : Disk) (r : Request) : List Disk × Option Err :=
  match r.check with
  | .error e => ([], some e)
  | .ok _ =>
    match readPath nm d r.medsFile with
    | none => ([], some .osError)
    | some f => writeOut nm d r f

/-- The disk when the constructor returns or raises. -/
def afterConstruct (d : Disk) (r : Request) : Disk := ((construct nm d r).1.getLast?).getD d

/-- `close` (/repo/meds/extractor.py:81-85, 225-229; /repo/meds/number_extractor.py:60-64), also called by `__exit__` and `__del__`. -/
def close (d : Disk) (r : Request) : Disk := if r.cleans then removeIfExists nm d r.subFile else d

/-- `close` called `n` times. -/
def closes (d : Disk) (r : Request) : Nat → Disk
  | 0 => d
  | n + 1 => close nm (closes d r n) r

/-- Disk states at which an extractor object can be observed or interrupted: before, after each disk operation of the constructor, and after any
number of calls of `close`, the last by the destructor. -/
inductive Reached (d : Disk) (r : Request) : Disk → Prop
  | start : Reached d r d
  | building {d' : Disk} : d' ∈ (construct nm d r).1 → Reached d r d'
  | closed (n : Nat) : Reached d r (closes nm (afterConstruct nm d r) r n)

end Extract
end Meds
