import Verif.Model.Workers

/-!
# Several makers writing at the same time (/repo/meds/maker.py:301-407)

Makers in different processes of one machine, each with its worker processes and its temporary directory, all in the temporary directory of the system.  The main process of each maker goes on step by
step as well: it makes the directory, waits for its workers, loads one file at a time, removes the directory.  As in `Model/Workers.lean`, `mkdtemp` gives a directory that is not there at that time.
-/

namespace Meds.Workers
open Maker

/-- What a call of `_write_psf_cutouts_joblib` is given. -/
structure Call where
  nPer : Nat
  maker : Maker
  psf : List PsfModel
  buf : List ℚ

/-- Where the call is: not begun, workers running, loading their files (/repo/meds/maker.py:378-404), ended. -/
inductive Proc
  | waiting
  | staged (d : Path) (workers : List Worker)
  | loading (d : Path) (todo : List (Nat × Path)) (buf : List ℚ)
  | ended (r : Res (List ℚ))

/-- All calls, and the filesystem that they share. -/
structure Sys where
  files : Files
  procs : List Proc

/-- What happens next: the call begins, one of its workers makes a step, its main process makes a step (`k` is the failed worker whose exception is raised). -/
inductive What
  | start (name : Path)
  | work (ev : Event)
  | main (k : Nat)

/-- An action of one of the calls. -/
structure Act where
  proc : Nat
  what : What

/-- `tempfile.mkdtemp()` (/repo/meds/maker.py:320): a name in the temporary directory of the system. -/
def dirOf (tmp name : Path) : Path := tmp ++ '/' :: name

/-- The returned values, once all workers have returned (/repo/meds/maker.py:369-372). -/
def allDone : List Worker → Option (List Path)
  | [] => some []
  | .done p :: ws => (allDone ws).map (p :: ·)
  | _ :: _ => none

/-- One action (/repo/meds/maker.py:301-407). -/
def procStep (tmp : Path) (t : Call) (a : What) (p : Proc) (fs : Files) : Proc × Files :=
  match p, a with
  | .waiting, .start name =>
    match requests t.nPer t.maker with
    | .error e => (.ended (.error e), fs)
    | .ok reqs => (.staged (dirOf tmp name) (reqs.map (fun r => .running r [])), put fs (dirOf tmp name) .dir)
  | .staged d ws, .work ev =>
    match ws[ev.job]? with
    | none => (.staged d ws, fs)
    | some w =>
      let x := stepWorker t.psf (jobPath d ev.job) ev.fault w fs
      (.staged d (ws.set ev.job x.1), x.2)
  | .staged d ws, .main k =>
    match allDone ws with
    | some paths => (.loading d ((List.range paths.length).zip paths) t.buf, fs)
    | none =>
      match ws[k]? with
      | some (.failed e) => (.ended (.error e), rmtree fs d)
      | _ => (.staged d ws, fs)
  | .loading d [] buf, .main _ => (.ended (.ok buf), rmtree fs d)
  | .loading d (jp :: rest) buf, .main _ =>
    match (do
      let out ← load fs jp.2
      writeJobOut t.maker.cfg (jobChunk t.nPer t.maker.objs jp.1) out buf) with
    | .ok b => (.loading d rest b, fs)
    | .error e => (.ended (.error e), rmtree fs d)
  | p, _ => (p, fs)

/-- One action in the whole. -/
def actOn (tmp : Path) (tasks : List Call) (st : Sys) (a : Act) : Sys :=
  match tasks[a.proc]?, st.procs[a.proc]? with
  | some t, some p =>
    let x := procStep tmp t a.what p st.files
    { files := x.2, procs := st.procs.set a.proc x.1 }
  | _, _ => st

/-- The state after a sequence of actions. -/
def runAll (tmp : Path) (tasks : List Call) (fs : Files) (acts : List Act) : Sys :=
  acts.foldl (actOn tmp tasks) { files := fs, procs := tasks.map (fun _ => .waiting) }

end Meds.Workers
