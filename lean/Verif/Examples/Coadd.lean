import Verif.Examples.Composite
import Verif.Model.Coadd

/-! A small file to coadd (tests, not proofs): one object with the coadd and three epochs, of which the second hits the edge, and one object with two cutouts. -/

namespace Meds.Ex

/-- An 8 by 8 image with seg map and the given mask. -/
def srcMask (dx base : ℚ) (mask : Nat → Nat → ℚ) : SrcImage :=
  { srcSeg 8 dx base (fun _ _ => 1) with
    plane := fun t => if t = "bmask" then some (some (Img.ofFn 8 8 mask)) else (srcSeg 8 dx base (fun _ _ => 1)).plane t }

def coaddImages : List SrcImage :=
  [srcMask 0 100 (fun _ _ => 0), srcMask (1/2) 200 (fun _ _ => 0), srcMask 0 300 (fun i _ => if i = 6 then 4 else 0),
   srcMask (1/4) 400 (fun i j => if i = 3 ∧ j = 2 then 1 else if i = 4 ∧ j = 5 then 16 else 0)]

def coaddFile : Fits :=
  match run cfg [obj 10 4 5 5, obj 11 2 3 3] coaddImages (some [psf 0, psf 1, psf 1, psf 1]) with
  | .ok r => r.2
  | .error _ => ⟨[]⟩

def coaddMed : MEDS :=
  match MEDS.openFile coaddFile with
  | .ok m => m
  | .error _ => ⟨⟨[]⟩, ⟨⟨false, .absent, .absent⟩, []⟩, [], ""⟩

def coaddCfg : Coadd.Cfg := ⟨false, false, 1/2, true, 1, true, some 1, some 4⟩

def coaddExt : Coadd.Ext := ⟨fun x => x, 5, 1, fun f r c => .ok ⟨1, 1, [f + r + c]⟩, fun _ p => p.1 + p.2⟩

/-! A second file, of three objects; both epochs of the second object hit the edge. -/

def stampsFile : Fits :=
  match run cfg [obj 10 2 3 3, obj 11 4 5 5, obj 12 2 2 2]
      [srcMask 0 100 (fun _ _ => 0), srcMask 0 300 (fun i _ => if i = 6 then 4 else 0), srcMask (1/2) 200 (fun i _ => if i = 5 then 4 else 0)]
      (some [psf 0, psf 1, psf 1]) with
  | .ok r => r.2
  | .error _ => ⟨[]⟩

def stampsMed : MEDS :=
  match MEDS.openFile stampsFile with
  | .ok m => m
  | .error _ => ⟨⟨[]⟩, ⟨⟨false, .absent, .absent⟩, []⟩, [], ""⟩

/-- A stand-in for `psc`: the first epoch, with a PSF image as wide as there are epochs. -/
def combine (l : List Coadd.Obs) : Coadd.Stamp :=
  { image := (l.head?.map Coadd.Obs.image).getD ⟨0, 0, []⟩, weight := (l.head?.map Coadd.Obs.weight).getD ⟨0, 0, []⟩,
    noise := Img.map (fun _ => 0) ((l.head?.map Coadd.Obs.image).getD ⟨0, 0, []⟩), psf := Img.ofFn l.length l.length (fun i j => 7 + i * 10 + j),
    jac := ⟨1/2, 1/2, 1, 0, 0, 1⟩, psfRow := 1, psfCol := 1 }

def coadder (i : Nat) : Res (Option Coadd.CoaddObs × Int) := Coadd.getCoaddObs coaddExt coaddCfg combine ⟨1, 0, 0, 1⟩ stampsMed i

/-- A coadd maker for that file. -/
def coaddMaker : Res Coadd.CMaker := Coadd.CMaker.init ["weight", "seg", "bmask"] (fun _ v => v) coadder 100 "" stampsMed

/-! A third file, whose coadd seg map has a different value in every pixel. -/

def patchedImages : List SrcImage :=
  [{ srcMask 0 100 (fun _ _ => 0) with
      plane := fun t => if t = "seg" then some (some (Img.ofFn 8 8 (fun i j => 1 + i * 8 + j))) else (srcMask 0 100 (fun _ _ => 0)).plane t },
   srcMask (1/2) 200 (fun _ _ => 0)]

def patchedFile : Fits :=
  match run cfg [obj 10 4 5 5, obj 11 2 3 3] patchedImages (some [psf 0, psf 1]) with
  | .ok r => r.2
  | .error _ => ⟨[]⟩

def patchedMed : MEDS :=
  match MEDS.openFile patchedFile with
  | .ok m => m
  | .error _ => ⟨⟨[]⟩, ⟨⟨false, .absent, .absent⟩, []⟩, [], ""⟩

theorem patched_run : ∃ mk mk', Maker.init cfg true [obj 10 4 5 5, obj 11 2 3 3] patchedImages (some [psf 0, psf 1]) (some "pi") "meta" = .ok mk ∧
    mk.write = .ok (mk', patchedFile) := by
  have h : (match run cfg [obj 10 4 5 5, obj 11 2 3 3] patchedImages (some [psf 0, psf 1]) with | .ok _ => true | .error _ => false) = true := by
    decide +kernel
  have hf : patchedFile = match run cfg [obj 10 4 5 5, obj 11 2 3 3] patchedImages (some [psf 0, psf 1]) with | .ok r => r.2 | .error _ => ⟨[]⟩ := rfl
  unfold run at h hf
  cases hm : Maker.init cfg true [obj 10 4 5 5, obj 11 2 3 3] patchedImages (some [psf 0, psf 1]) (some "pi") "meta" with
  | error e => rw [hm] at h; cases h
  | ok mk =>
    rw [hm] at h hf
    cases hw : mk.write with
    | error e => simp only [bind, Except.bind, hw] at h; cases h
    | ok r => simp only [bind, Except.bind, hw] at hf; exact ⟨mk, r.1, rfl, by rw [hf, hw]⟩

/-- `combine` on the target grid. -/
def psc (j : MEDS.Mat2) (l : List Coadd.Obs) : Coadd.Stamp := { combine l with jac := ⟨3/2, 3/2, j.a, j.b, j.c, j.d⟩ }

end Meds.Ex
