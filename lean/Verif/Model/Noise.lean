import Verif.Model.Coadd

/-!
# The noise images of a coadder (/repo/meds/coadd.py:331-342, 717-809)

`Model/Coadd.lean` leaves the random numbers out; here the same functions are written once more with the coadder's generator.  `draw k` is the `k`-th normal deviate of
`numpy.random.RandomState(seed)`; a coadder has one generator for its whole life, so its state is the number of deviates drawn so far.  (The generator hands
out the same sequence however the calls are divided.)
-/

namespace Meds.Coadd

/-- `_make_noise_image` (/repo/meds/coadd.py:781-790): the image, and the number of deviates drawn afterwards. -/
def makeNoiseImage (sqrt : ℚ → ℚ) (draw : Nat → ℚ) (pos : Nat) (wt : Img ℚ) : Img ℚ × Nat :=
  ({ wt with flat := wt.flat.mapIdx (fun k w => draw (pos + k) * sqrt (1 / w)) }, pos + wt.flat.length)

/-- `_do_interp` (/repo/meds/coadd.py:792-809): the bad pixels get the value of the interpolator. -/
def doInterp (interp : Interp) (good : List Nat) (bad : List Bool) (im : Img ℚ) : Img ℚ :=
  { im with flat := im.flat.mapIdx (fun k v => if bad[k]? = some true then interpAt interp good im k else v) }

/-- What `_interp_bad_pixels` leaves in the observation. -/
structure Interped where
  image : Img ℚ
  weight : Img ℚ
  noise : Img ℚ
  ninterp : Nat
  pos : Nat

/-- `_interp_bad_pixels` (/repo/meds/coadd.py:717-779), with the noise image. -/
def interpNoise (sqrt : ℚ → ℚ) (interp : Interp) (draw : Nat → ℚ) (pos : Nat) (flags : Option Int) (im bm wt : Img ℚ) : Res Interped :=
  let bad := (badPixels flags bm wt).flat
  if bad.count true = 0 then
    let n := makeNoiseImage sqrt draw pos wt
    .ok ⟨im, wt, n.1, 0, n.2⟩
  else
    let good := (List.range bad.length).filter (fun k => bad[k]? == some false)
    if good.length = 0 then .error .valueError
    else
      let medwt := Reject.median (good.filterMap (fun k => wt.flat[k]?))
      let wt' : Img ℚ := { wt with flat := wt.flat.mapIdx (fun k v => if bad[k]? = some true then medwt else v) }
      let n := makeNoiseImage sqrt draw pos wt'
      .ok ⟨doInterp interp good bad im, wt', doInterp interp good bad n.1, bad.count true, n.2⟩

/-- The observation of an epoch that passed all tests, its noise image, and the deviates drawn so far (/repo/meds/coadd.py:542-600). -/
def makeObsNoise (ext : Ext) (cfg : Cfg) (draw : Nat → ℚ) (m : MEDS) (iobj : Int) (pos i : Nat) (s : Slot) (im bm wt seg : Img ℚ) : Res (Obs × Img ℚ × Nat) := do
  let jac ← m.getJacobian iobj ((i + 1 : Nat) : Int)
  let psf ← ext.psfObs s.fileId s.origRow s.origCol
  let r ← interpNoise ext.sqrt ext.interp draw pos cfg.badFlags im bm wt
  .ok ({ icut := i + 1, image := r.image, weight := r.weight, bmask := bm, seg := seg, jac := jac,
         rowOffset := jac.row0 - ((im.nr : ℚ) - 1) / 2, colOffset := jac.col0 - ((im.nc : ℚ) - 1) / 2, psf := psf, ninterp := r.ninterp }, r.noise, r.pos)

/-- The variables of the loop over epochs: observations with their noise images, flags, deviates drawn. -/
structure NoiseState where
  obs : List (Obs × Img ℚ)
  flags : List Int
  pos : Nat

/-- One turn of the loop of `_get_obslist` (/repo/meds/coadd.py:491-600): an epoch that is left out draws nothing. -/
def epochStepNoise (ext : Ext) (cfg : Cfg) (draw : Nat → ℚ) (m : MEDS) (iobj : Int) (ls : Lists) (st : NoiseState) (i : Nat) : Res NoiseState := do
  let im ← pyGet ls.ims i
  let wt ← pyGet ls.wts i
  let seg ← pyGet ls.segs i
  let bm ← pyGet ls.bms i
  let s ← m.slot iobj ((i + 1 : Nat) : Int)
  let bw ← symmetrized cfg bm wt
  let flag ← epochFlag cfg bw.1 bw.2
  if flag ≠ 0 then .ok { st with flags := st.flags.set i flag }
  else do
    let o ← makeObsNoise ext cfg draw m iobj st.pos i s im bw.1 bw.2 seg
    .ok { st with obs := st.obs ++ [(o.1, o.2.1)], pos := o.2.2 }

/-- `_get_obslist` (/repo/meds/coadd.py:449-602): observations with noise images, `imflags`, deviates drawn afterwards. -/
def getObslistNoise (ext : Ext) (cfg : Cfg) (draw : Nat → ℚ) (m : MEDS) (pos : Nat) (iobj : Int) : Res (List (Obs × Img ℚ) × Option (List Int) × Nat) := do
  let ims ← m.getCutoutList iobj "image"
  if ims.length = 1 then .ok ([], none, pos)
  else do
    let wts ← m.getCutoutList iobj "weight"
    let bms ← m.getCutoutList iobj "bmask"
    let wts' ← rejected ext cfg (ims.drop 1) (wts.drop 1)
    let n := (ims.drop 1).length
    let segs ← mapRes (fun k : Nat => m.interpolateCoaddSeg iobj ((k + 1 : Nat) : Int)) (List.range n)
    let st ← foldRes (epochStepNoise ext cfg draw m iobj ⟨ims.drop 1, wts', bms.drop 1, segs⟩) ⟨[], List.replicate n 0, pos⟩ (List.range n)
    .ok (st.obs, some st.flags, st.pos)

/-- A coadder that has drawn `pos` deviates asked for several objects, one after the other (/repo/meds/coadd.py:119-135, 350-391): their observations with noise
images, and the deviates drawn afterwards. -/
def noiseRun (ext : Ext) (cfg : Cfg) (draw : Nat → ℚ) (m : MEDS) : Nat → List Int → Res (List (List (Obs × Img ℚ)) × Nat)
  | pos, [] => .ok ([], pos)
  | pos, i :: is => do
    let r ← getObslistNoise ext cfg draw m pos i
    let rest ← noiseRun ext cfg draw m r.2.2 is
    .ok (r.1 :: rest.1, rest.2)

end Meds.Coadd
