import Verif.Model.Coadd
import Verif.Model.PixelNaN

/-!
# Epochs of a coadd with pixels that are not numbers (/repo/meds/coadd.py:504-540, 604-809)

`Model/Coadd.lean` follows the tests of an epoch and the interpolation of its unusable pixels with weights that are numbers, for which `wt <= 0.0` and
`not (wt > 0.0)` are the same.  Weight maps are floating point arrays; here a weight or an image pixel may be NaN or infinite.  Masks are integers as before.
`reject_outliers` before these lines is the subject of `Model/RejectNaN.lean` and left out here.
-/

namespace Meds
open Compare

namespace Compare.Flt

/-- `x <= 0.0`. -/
def leZero : Flt → Bool
  | .num q => decide (q ≤ 0)
  | .nan => false
  | .inf s => s

/-- `x > 0.0`. -/
def gtZero : Flt → Bool
  | .num q => decide (0 < q)
  | .nan => false
  | .inf s => !s

/-- `x == 0.0`. -/
def eqZero : Flt → Bool
  | .num q => decide (q = 0)
  | _ => false

/-- `a + b`. -/
def add : Flt → Flt → Flt
  | .num a, .num b => .num (a + b)
  | .nan, _ => .nan
  | _, .nan => .nan
  | .inf s, .inf t => if s = t then .inf s else .nan
  | .inf s, .num _ => .inf s
  | .num _, .inf s => .inf s

/-- `x / 2`. -/
def half : Flt → Flt
  | .num a => .num (a / 2)
  | x => x

end Compare.Flt

namespace Coadd

/-- As `rot90`, for pixels of any type. -/
def rot90G {α : Type} (dflt : α) (im : Img α) : Img α := Img.ofFn im.nc im.nr (fun i j => (im.get? j (im.nc - 1 - i)).getD dflt)

/-- `_symmetrize_weight` (/repo/meds/coadd.py:633-643). -/
def symmetrizeWeightF (wt : Img Flt) : Res (Img Flt) :=
  if wt.nr ≠ wt.nc then .error .assertionError
  else .ok (Img.zipWith (fun w r => if r.eqZero then .num 0 else w) wt (rot90G .nan wt))

/-- Symmetrize weight and mask when configured (/repo/meds/coadd.py:504-506). -/
def symmetrizedF (cfg : Cfg) (bm : Img ℚ) (wt : Img Flt) : Res (Img ℚ × Img Flt) :=
  if cfg.symmetrizeMask then do
    let w ← symmetrizeWeightF wt
    let b ← symmetrizeBmask cfg.badFlags bm
    .ok (b, w)
  else .ok (bm, wt)

/-- `wt <= 0.0`, or a bad flag (/repo/meds/coadd.py:614-616, 738-741), pixel by pixel. -/
def badPixelsF (flags : Option Int) (bm : Img ℚ) (wt : Img Flt) : Img Bool := Img.zipWith (fun b w => w.leZero || flagged flags b) bm wt

/-- `wt > 0.0`, and no bad flag (/repo/meds/coadd.py:669-674), pixel by pixel. -/
def okPixelsF (flags : Option Int) (bm : Img ℚ) (wt : Img Flt) : Img Bool := Img.zipWith (fun b w => w.gtZero && !flagged flags b) bm wt

/-- `_get_mask_frac` (/repo/meds/coadd.py:613-631). -/
def maskFracF (flags : Option Int) (bm : Img ℚ) (wt : Img Flt) : Res ℚ :=
  if bm.flat.length = 0 then .error .zeroDivision
  else .ok (((badPixelsF flags bm wt).flat.count true : ℚ) / bm.flat.length)

/-- `_central_region_is_masked` (/repo/meds/coadd.py:660-679). -/
def centralMaskedF (cfg : Cfg) (bm : Img ℚ) (wt : Img Flt) : Bool :=
  if cfg.centralCheck then
    let r := centralRange wt.nr cfg.centralSize
    let rows := (List.range wt.nr).filter (fun i => decide (sliceEnd wt.nr r.1 ≤ i ∧ i < sliceEnd wt.nr r.2))
    let cols := (List.range wt.nc).filter (fun i => decide (sliceEnd wt.nc r.1 ≤ i ∧ i < sliceEnd wt.nc r.2))
    ! rows.all (fun i => cols.all (fun j => (okPixelsF cfg.badFlags bm wt).get? i j == some true))
  else false

/-- One of the four sides satisfies `f` throughout (/repo/meds/coadd.py:690-695), for pixels of any type. -/
def someSideG {α : Type} (f : α → Bool) (im : Img α) : Bool :=
  let row (i : Nat) := (List.range im.nc).all (fun j => ((im.get? i j).map f).getD false)
  let col (j : Nat) := (List.range im.nr).all (fun i => ((im.get? i j).map f).getD false)
  row 0 || row (im.nr - 1) || col 0 || col (im.nc - 1)

/-- `_ps_edge_pixels_are_masked` (/repo/meds/coadd.py:681-706). -/
def psEdgeMaskedF (cfg : Cfg) (bm : Img ℚ) (wt : Img Flt) : Res Bool :=
  if cfg.edgeCheck then
    if wt.nr = 0 then .error .indexError
    else if someSideG Flt.eqZero wt then .ok true
    else
      match cfg.badFlags with
      | none => .ok false
      | some f => .ok (someSideG (Maker.badBit f) bm)
  else .error .unboundLocal

/-- The tests of one epoch in `_get_obslist` (/repo/meds/coadd.py:511-540): the flag set, zero when the epoch is used. -/
def epochFlagF (cfg : Cfg) (bm : Img ℚ) (wt : Img Flt) : Res Int :=
  if hitsTheEdge cfg.edgeFlags bm then .ok 2
  else do
    let frac ← maskFracF cfg.badFlags bm wt
    if frac > cfg.maxMaskedFrac then .ok 4
    else if centralMaskedF cfg bm wt then .ok 8
    else do
      let e ← psEdgeMaskedF cfg bm wt
      if e then .ok 16
      else if wt.flat.all (fun w => !w.gtZero) then .ok 32
      else .ok 0

/-- `numpy.sort` of floats none of which is NaN. -/
def sortF (l : List Flt) : List Flt :=
  List.replicate (l.count (.inf true)) (.inf true) ++ ((l.filterMap Flt.num?).insertionSort (· ≤ ·)).map .num ++ List.replicate (l.count (.inf false)) (.inf false)

/-- `numpy.median` of a non-empty array: NaN if one of the values is. -/
def medianF (l : List Flt) : Flt :=
  if Flt.nan ∈ l then .nan
  else if l.length % 2 = 1 then (sortF l).getD (l.length / 2) .nan
  else (((sortF l).getD (l.length / 2 - 1) .nan).add ((sortF l).getD (l.length / 2) .nan)).half

/-- A `CloughTocher2DInterpolator` built on a list of points with values: its value at a point. -/
abbrev InterpF := List ((Nat × Nat) × Flt) → Nat × Nat → Flt

/-- The value of the interpolator at pixel `k` (/repo/meds/coadd.py:748-755, 792-807). -/
def interpAtF (interp : InterpF) (good : List Nat) (im : Img Flt) (k : Nat) : Flt :=
  interp (good.filterMap (fun g => (im.flat[g]?).map (fun v => ((g / im.nc, g % im.nc), v)))) (k / im.nc, k % im.nc)

/-- `_interp_bad_pixels` and `_do_interp` (/repo/meds/coadd.py:717-779, 792-809): new image, new weight, number of bad pixels.  Without any good pixel scipy raises.
The noise image is left out. -/
def interpBadPixelsF (interp : InterpF) (flags : Option Int) (im : Img Flt) (bm : Img ℚ) (wt : Img Flt) : Res (Img Flt × Img Flt × Nat) :=
  let bad := (badPixelsF flags bm wt).flat
  if bad.count true = 0 then .ok (im, wt, 0)
  else
    let good := (List.range bad.length).filter (fun k => bad[k]? == some false)
    if good.length = 0 then .error .valueError
    else
      let medwt := medianF (good.filterMap (fun k => wt.flat[k]?))
      .ok ({ im with flat := im.flat.mapIdx (fun k v => if bad[k]? = some true then interpAtF interp good im k else v) },
           { wt with flat := wt.flat.mapIdx (fun k v => if bad[k]? = some true then medwt else v) }, bad.count true)

/-- What one turn of the loop of `_get_obslist` (/repo/meds/coadd.py:504-585) makes of the planes of an epoch: the flag, and for an epoch that is used image and weight as
they are handed on, with the number of pixels replaced.  Jacobian, PSF and seg map do not depend on these pixels and are left out. -/
def epochStampF (interp : InterpF) (cfg : Cfg) (im : Img Flt) (bm : Img ℚ) (wt : Img Flt) : Res (Int × Option (Img Flt × Img Flt × Nat)) := do
  let bw ← symmetrizedF cfg bm wt
  let flag ← epochFlagF cfg bw.1 bw.2
  if flag ≠ 0 then .ok (flag, none)
  else do
    let r ← interpBadPixelsF interp cfg.badFlags im bw.1 bw.2
    .ok (0, some r)

end Coadd
end Meds
