import Verif.Examples.Maker
import Verif.Model.Composite

/-! A small file with seg maps, for the theorems on composite images (tests, not proofs). -/

namespace Meds.Ex

/-- An image of the first example with a seg map; the labels are a function of the pixel. -/
def srcSeg (n : Nat) (dx base : ℚ) (label : Nat → Nat → ℚ) : SrcImage :=
  { src n dx base 1 with
    plane := fun t => if t = "seg" then some (some (Img.ofFn n n label)) else (src n dx base 1).plane t }

/-- Objects 11 (rows up to 2, columns up to 3) and 12 (last columns) and sky in the rows from 3 on. -/
def label (i j : Nat) : ℚ := if 3 ≤ i then 0 else if j ≤ 2 then 11 else 12

def segImages : List SrcImage := [srcSeg 6 0 100 label, srcSeg 6 (1/2) 200 (fun _ _ => 7)]

def segObjs : List Maker.InputObj := [obj 10 4 3 3, obj 11 2 (9/2) 2]

def segFile : Fits :=
  match run cfg segObjs segImages (some [psf 0, psf 1]) with
  | .ok r => r.2
  | .error _ => ⟨[]⟩

/-- The file opened. -/
def segMed : MEDS :=
  match MEDS.openFile segFile with
  | .ok m => m
  | .error _ => ⟨⟨[]⟩, ⟨⟨false, .absent, .absent⟩, []⟩, [], ""⟩

/-- A file whose coadd seg map is sky but for one pixel, of an object that is not in the catalogue. -/
def skyMed : MEDS :=
  match run cfg segObjs [srcSeg 6 0 100 (fun i j => if i = 1 ∧ j = 1 then 5 else 0), srcSeg 6 (1/2) 200 (fun _ _ => 7)] (some [psf 0, psf 1]) with
  | .ok r =>
    match MEDS.openFile r.2 with
    | .ok m => m
    | .error _ => ⟨⟨[]⟩, ⟨⟨false, .absent, .absent⟩, []⟩, [], ""⟩
  | .error _ => ⟨⟨[]⟩, ⟨⟨false, .absent, .absent⟩, []⟩, [], ""⟩

end Meds.Ex
