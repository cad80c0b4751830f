import Verif.Model.Joblib
import Verif.Model.Viewer

/-!
# The worker processes of the parallel PSF writer (/repo/meds/maker.py:301-407, 1477-1494)

`Model/Joblib.lean` takes `joblib.Parallel` to run the jobs one after the other and hands their results on directly.  Here the workers run in any interleaving, a request for one PSF image or one
half of a dump at a time, and hand their results on through files in a temporary directory.  What joblib is taken to do: it runs each job, returns the returned values in the order in which
the jobs were submitted once all have returned, and raises the exception of a job that has failed, after which no worker runs any more.
-/

namespace Meds.Workers
open Maker

/-- A path, absolute. -/
abbrev Path := List Char

/-- What is at a path: a directory, a file that `joblib.dump` has begun, a finished dump, something else. -/
inductive Node
  | dir
  | part
  | pickle (psfs : List (Img ℚ))
  | other (s : String)

/-- The filesystem. -/
abbrev Files := Path → Option Node

/-- Change what is at one path. -/
def put (fs : Files) (p : Path) (n : Node) : Files := fun q => if q = p then some n else fs q

/-- Is the path inside of the directory, at any depth? -/
def below (d q : Path) : Bool := (d ++ ['/']).isPrefixOf q

/-- `shutil.rmtree(tempdir, ignore_errors=True)` (/repo/meds/maker.py:406-407).  Simplification: it removes everything. -/
def rmtree (fs : Files) (d : Path) : Files := fun q => if q = d ∨ below d q = true then none else fs q

/-- `os.path.join(tempdir, "job%s.pkl" % job)` (/repo/meds/maker.py:354). -/
def jobPath (tempdir : Path) (job : Nat) : Path := tempdir ++ "/job".toList ++ View.padNat 1 job ++ ".pkl".toList

/-- A worker in `_psf_rec_func` (/repo/meds/maker.py:1477-1494): in the loop, in the dump, returned, or ended by an exception. -/
inductive Worker
  | running (todo : List (SkyPos × Slot)) (psfs : List (Img ℚ))
  | dumping (psfs : List (Img ℚ))
  | done (path : Path)
  | failed (e : Err)

/-- The filesystem and the workers. -/
structure State where
  files : Files
  workers : List Worker

/-- A worker gets the processor; `fault` is an exception for reasons of its own: no space on the disk, a PSF object that raises, a worker that is killed. -/
structure Event where
  job : Nat
  fault : Option Err

/-- One step of a worker (/repo/meds/maker.py:1482-1494). -/
def stepWorker (psf : List PsfModel) (path : Path) (fault : Option Err) (w : Worker) (fs : Files) : Worker × Files :=
  match w with
  | .done p => (.done p, fs)
  | .failed e => (.failed e, fs)
  | .running todo psfs =>
    match fault with
    | some e => (.failed e, fs)
    | none =>
      match todo with
      | r :: rest =>
        match pyGet psf r.2.fileId with
        | .ok p => (.running rest (psfs ++ [p.getRec r.1 r.2.origRow r.2.origCol]), fs)
        | .error e => (.failed e, fs)
      | [] => (.dumping psfs, put fs path .part)
  | .dumping psfs =>
    match fault with
    | some e => (.failed e, fs)
    | none => (.done path, put fs path (.pickle psfs))

/-- One step of the whole. -/
def step (psf : List PsfModel) (tempdir : Path) (st : State) (ev : Event) : State :=
  match st.workers[ev.job]? with
  | none => st
  | some w =>
    let x := stepWorker psf (jobPath tempdir ev.job) ev.fault w st.files
    { files := x.2, workers := st.workers.set ev.job x.1 }

/-- The workers at the start, after `tempfile.mkdtemp()` (/repo/meds/maker.py:320, 352-362). -/
def launch (fs : Files) (tempdir : Path) (reqs : List (List (SkyPos × Slot))) : State :=
  { files := put fs tempdir .dir, workers := reqs.map (fun r => .running r []) }

/-- The workers after a sequence of steps. -/
def exec (psf : List PsfModel) (tempdir : Path) (fs : Files) (reqs : List (List (SkyPos × Slot))) (sched : List Event) : State :=
  sched.foldl (step psf tempdir) (launch fs tempdir reqs)

/-- What `joblib.Parallel(...)(jobs)` may return or raise in a state of the workers (/repo/meds/maker.py:364-372). -/
inductive Returns (st : State) : Res (List Path) → Prop
  | all {paths : List Path} : st.workers = paths.map .done → Returns st (.ok paths)
  | raised {e : Err} : .failed e ∈ st.workers → Returns st (.error e)

/-- `joblib.load` (/repo/meds/maker.py:383); a dump that is not finished is an EOFError (shown as ValueError). -/
def load (fs : Files) (p : Path) : Res (List (Img ℚ)) :=
  match fs p with
  | some (.pickle l) => .ok l
  | some .part => .error .valueError
  | _ => .error .osError

/-- The loop over `enumerate(outputs)` (/repo/meds/maker.py:378-404). -/
def collect (nPer : Nat) (mk : Maker) (fs : Files) (paths : List Path) (buf : List ℚ) : Res (List ℚ) :=
  foldRes (fun b (jo : Nat × Path) => do
    let out ← load fs jo.2
    writeJobOut mk.cfg (jobChunk nPer mk.objs jo.1) out b) buf ((List.range paths.length).zip paths)

/-- The lists for the jobs (/repo/meds/maker.py:322-362). -/
def requests (nPer : Nat) (mk : Maker) : Res (List (List (SkyPos × Slot))) :=
  mapRes (fun j => gatherJob (jobChunk nPer mk.objs j)) (List.range (jobCount nPer mk.objs.length))

/-- `_write_psf_cutouts_joblib` (/repo/meds/maker.py:301-407): what it may leave of the filesystem, and the pixels of the PSF extension or the exception, for a sequence of steps of the workers. -/
inductive Run (nPer : Nat) (mk : Maker) (psf : List PsfModel) (tempdir : Path) (fs : Files) (buf : List ℚ) : List Event → Files → Res (List ℚ) → Prop
  | gather {e : Err} : requests nPer mk = .error e → Run nPer mk psf tempdir fs buf [] (rmtree (put fs tempdir .dir) tempdir) (.error e)
  | raised {reqs : List (List (SkyPos × Slot))} {sched : List Event} {e : Err} : requests nPer mk = .ok reqs → Returns (exec psf tempdir fs reqs sched) (.error e) →
      Run nPer mk psf tempdir fs buf sched (rmtree (exec psf tempdir fs reqs sched).files tempdir) (.error e)
  | written {reqs : List (List (SkyPos × Slot))} {sched : List Event} {paths : List Path} : requests nPer mk = .ok reqs → Returns (exec psf tempdir fs reqs sched) (.ok paths) →
      Run nPer mk psf tempdir fs buf sched (rmtree (exec psf tempdir fs reqs sched).files tempdir) (collect nPer mk (exec psf tempdir fs reqs sched).files paths buf)

/-- The cutout extensions of `_write_data` (/repo/meds/maker.py:92-121), before the PSFs. -/
def planes (mk : Maker) : Res (List (String × Hdu)) :=
  foldRes (fun h t => modifyImage (t ++ "_cutouts") (mk.writeCutouts t) h) (mk.tableHdus ++ mk.reservedHdus) mk.types

/-- `_write_data` (/repo/meds/maker.py:92-132) with `use_joblib`: what it may leave of the filesystem (without the output file), and the output file or the exception. -/
inductive WriteRun (mk : Maker) (tempdir : Path) (fs : Files) : List Event → Files → Res Fits → Prop
  | stopped {e : Err} : planes mk = .error e → WriteRun mk tempdir fs [] fs (.error e)
  | without {h1 : List (String × Hdu)} : planes mk = .ok h1 → mk.psf = none → WriteRun mk tempdir fs [] fs (.ok ⟨h1 ++ mk.psfInfoHdus⟩)
  | missing {h1 : List (String × Hdu)} {psf : List PsfModel} : planes mk = .ok h1 → mk.psf = some psf → (∀ buf, Fits.lookup h1 "psf" ≠ some (.image buf)) →
      WriteRun mk tempdir fs [] fs (.error .osError)
  | psfs {h1 : List (String × Hdu)} {psf : List PsfModel} {buf : List ℚ} {sched : List Event} {fs' : Files} {r : Res (List ℚ)} : planes mk = .ok h1 → mk.psf = some psf →
      Fits.lookup h1 "psf" = some (.image buf) → Run 2000 mk psf tempdir fs buf sched fs' r →
      WriteRun mk tempdir fs sched fs' (do
        let b ← r
        let h2 ← modifyImage "psf" (fun _ => .ok b) h1
        .ok ⟨h2 ++ mk.psfInfoHdus⟩)

end Meds.Workers
