import Verif.Model.Maker

/-!
# The joblib code paths of the maker (/repo/meds/maker.py)

joblib itself is external: `Parallel` is taken to run every job once and to return the results in submission order, and `dump`/`load` to be lossless.
-/

namespace Meds
namespace Maker

/-- Number of jobs (/repo/meds/maker.py:310-313); `nPer` is 2000 in the code. -/
def jobCount (nPer nobj : Nat) : Nat :=
  let n := nobj / nPer
  if n * nPer < nobj then n + 1 else n

/-- The elements of `range(start, end)` with `start = job * n_per_job`, `end = min(start + n_per_job, nobj)`
(/repo/meds/maker.py:326-327, 378-379, 1009-1010). -/
def jobChunk {α : Type} (nPer : Nat) (l : List α) (job : Nat) : List α :=
  (l.take (min (job * nPer + nPer) l.length)).drop (job * nPer)

/-- The request lists of one object (/repo/meds/maker.py:334-349): one entry per epoch.  The colour decision of `_psf_uses_color` is the same
in both code paths and is part of the PSF model, which sees the whole `SkyPos`. -/
def gatherObj (sky : SkyPos) : Nat → List Slot → Res (List (SkyPos × Slot))
  | 0, _ => .ok []
  | _ + 1, [] => .error .indexError
  | n + 1, s :: ss => do
    let r ← gatherObj sky n ss
    .ok ((sky, s) :: r)

/-- The request lists of one job (/repo/meds/maker.py:329-349). -/
def gatherJob (objs : List ObjRow) : Res (List (SkyPos × Slot)) := do
  let r ← mapRes (fun o : ObjRow => gatherObj o.sky o.ncutout.toNat o.slots) objs
  .ok r.flatten

/-- `_psf_rec_func` (/repo/meds/maker.py:1477-1494). -/
def psfRecFunc (psf : List PsfModel) (reqs : List (SkyPos × Slot)) : Res (List (Img ℚ)) :=
  mapRes (fun r : SkyPos × Slot => do
    let p ← pyGet psf r.2.fileId
    .ok (p.getRec r.1 r.2.origRow r.2.origCol)) reqs

/-- Writing the images of one object from the job output, `loc` counting on (/repo/meds/maker.py:385-404). -/
def writeObjOut (cfg : MakerCfg) (out : List (Img ℚ)) : Nat → List Slot → Nat × List ℚ → Res (Nat × List ℚ)
  | 0, _, st => .ok st
  | _ + 1, [], _ => .error .indexError
  | n + 1, s :: ss, st => do
    let psfim ← pyGet out (st.1 : Int)
    let buf' ← writePsfImage cfg s psfim st.2
    writeObjOut cfg out n ss (st.1 + 1, buf')

/-- Writing the output of one job (/repo/meds/maker.py:376-404). -/
def writeJobOut (cfg : MakerCfg) (objs : List ObjRow) (out : List (Img ℚ)) (buf : List ℚ) : Res (List ℚ) := do
  let st ← foldRes (fun st (o : ObjRow) => writeObjOut cfg out o.ncutout.toNat o.slots st) (0, buf) objs
  .ok st.2

/-- `_write_psf_cutouts_joblib` (/repo/meds/maker.py:301-407), for any chunk size. -/
def writePsfJoblib (nPer : Nat) (mk : Maker) (psf : List PsfModel) (buf : List ℚ) : Res (List ℚ) := do
  let jobs := List.range (jobCount nPer mk.objs.length)
  let reqs ← mapRes (fun j => gatherJob (jobChunk nPer mk.objs j)) jobs
  let outs ← mapRes (psfRecFunc psf) reqs
  foldRes (fun b (jo : Nat × List (Img ℚ)) => writeJobOut mk.cfg (jobChunk nPer mk.objs jo.1) jo.2 b) buf (jobs.zip outs)

/-- `n_jobs` of `_do_sky2image` (/repo/meds/maker.py:998-1001): the CPU count, or the configured maximum if that is positive and smaller. -/
def skyWorkers (maxWorkers : Int) (cpus : Nat) : Nat := if 0 < maxWorkers then min maxWorkers.toNat cpus else cpus

/-- `n_per_job` of `_do_sky2image` (/repo/meds/maker.py:1002-1005); `n_jobs` is the CPU count or the configured maximum, at least 1. -/
def skyPerJob (nJobs n : Nat) : Nat :=
  let p := n / nJobs
  if nJobs * p < n then p + 1 else p

/-- The jobs built by the loop of `_do_sky2image`, which breaks at the first start beyond the end (/repo/meds/maker.py:1007-1012);
`fuel` counts the remaining jobs. -/
def skyJobs {α : Type} (nPer : Nat) (l : List α) : Nat → Nat → List (List α)
  | 0, _ => []
  | fuel + 1, i => if l.length ≤ i * nPer then [] else jobChunk nPer l i :: skyJobs nPer l fuel (i + 1)

/-- `_do_sky2image` (/repo/meds/maker.py:988-1056) up to the final offset: `conv` is the vectorised `wcs.sky2image` returning (col, row) pairs.
Simplification: the two arrays are kept as one list of pairs, and outputs are arrays (never scalars). -/
def doSky2image (useJoblib : Bool) (nJobs : Nat) (conv : List SkyPos → List (ℚ × ℚ)) (sky : List SkyPos) : Res (List (ℚ × ℚ)) :=
  if useJoblib && decide (250 < sky.length) then
    if nJobs = 0 then .error .zeroDivision
    else
      let nPer := skyPerJob nJobs sky.length
      if nPer * nJobs < sky.length then .error .assertionError
      else
        let res := ((skyJobs nPer sky nJobs 0).map conv).flatten
        if res.length = sky.length then .ok res else .error .assertionError
  else .ok (conv sky)

end Maker
end Meds
