import Verif.Model.Maker

/-! A small concrete input, used to show that the hypotheses of the theorems are met by real runs (these are tests, not proofs). -/

namespace Meds.Ex

/-- A trivial WCS: the sky coordinates are the pixel coordinates (column = ra - dx, row = dec). -/
def wcs (n : Nat) (dx : ℚ) : Wcs :=
  { ncol := n, nrow := n, sky2image := fun s => (s.ra - dx, s.dec),
    jacobian := fun _ x y => (1, x / 10, y / 10, 1), rough := fun _ => true }

/-- Test image with distinct pixels. -/
def pix (n : Nat) (base : ℚ) : Img ℚ := Img.ofFn n n (fun i j => base + 10 * i + j)

/-- An input image with position offset 1: image, weight, bit mask, background, no seg map. -/
def src (n : Nat) (dx base scale : ℚ) : SrcImage :=
  { wcs := wcs n dx,
    info := { imagePath := "im", imageFlags := 0, scale := scale, positionOffset := 1, rest := "" },
    plane := fun t =>
      if t = "image" then some (some (pix n base))
      else if t = "bkg" then some (some (Img.ofFn n n (fun _ _ => 1)))
      else if t = "weight" then some (some (Img.ofFn n n (fun _ _ => 4)))
      else if t = "bmask" then some (some (Img.ofFn n n (fun i j => (i + j : Nat))))
      else if t = "seg" then some none
      else none }

def cfg : MakerCfg :=
  { firstImageIsCoadd := true, checkInCoadd := true, forceIntoCoaddBounds := false, trimToCoadd := false, coaddBuffer := 0,
    ncutoutMax := none, cutoutTypes := ["weight", "image", "bmask", "seg"], unusableBmask := some 2, minWeightKey := false,
    cast := fun _ q => q }

def obj (id : Int) (box : Int) (x y : ℚ) : Maker.InputObj :=
  { id := id, boxSize := box, sky := { ra := x, dec := y, color := none, psfColor := none }, number := id + 1, extra := "x" }

def images : List SrcImage := [src 5 0 100 1, src 4 (1/2) 200 2, src 3 2 300 1]

def objs : List Maker.InputObj := [obj 10 3 (5/2) (7/3), obj 11 2 (9/2) 2]

/-- A PSF model whose images vary in shape. -/
def psf (k : Nat) : PsfModel :=
  { getRec := fun _ r _ => Img.ofFn (k + 1) 2 (fun i j => r + i + 2 * j), recShape := none, center := fun _ _ => (1, 1) }

def psfs : List PsfModel := [psf 0, psf 1, psf 2]

/-- Build and write. -/
def run (cfg : MakerCfg) (objs : List Maker.InputObj) (images : List SrcImage) (psf : Option (List PsfModel)) : Res (Maker × Fits) := do
  let mk ← Maker.init cfg true objs images psf (some "pi") "meta"
  mk.write

/-- The run completes and a test on the opened file holds. -/
def check (cfg : MakerCfg) (objs : List Maker.InputObj) (images : List SrcImage) (psf : Option (List PsfModel))
    (test : MEDS → Bool) : Bool :=
  match run cfg objs images psf with
  | .ok r =>
    match MEDS.openFile r.2 with
    | .ok m => test m
    | .error _ => false
  | .error _ => false

-- the run completes: two objects with 2 and 3 epochs, from images [0, 1] and [0, 1, 2]
example : check cfg objs images (some psfs) (fun m =>
    m.cat.rows.map (·.ncutout) = [2, 3] && m.cat.rows.map (·.boxSize) = [4, 2] &&
    m.cat.rows.map (fun o => o.slots.map (·.fileId)) = [[0, 1, -9999], [0, 1, 2]]) = true := by decide +kernel

end Meds.Ex

namespace Meds.Ex

/-- The file written by the example run. -/
def file : Fits :=
  match run cfg objs images (some psfs) with
  | .ok r => r.2
  | .error _ => ⟨[]⟩

/-- The example file opened. -/
def med : MEDS :=
  match MEDS.openFile file with
  | .ok m => m
  | .error _ => ⟨⟨[]⟩, ⟨⟨false, .absent, .absent⟩, []⟩, [], ""⟩

theorem run_file : ∃ mk mk', Maker.init cfg true objs images (some psfs) (some "pi") "meta" = .ok mk ∧ mk.write = .ok (mk', file) := by
  have h : (match run cfg objs images (some psfs) with | .ok _ => true | .error _ => false) = true := by decide +kernel
  have hf : file = match run cfg objs images (some psfs) with | .ok r => r.2 | .error _ => ⟨[]⟩ := rfl
  unfold run at h hf
  cases hm : Maker.init cfg true objs images (some psfs) (some "pi") "meta" with
  | error e => rw [hm] at h; cases h
  | ok mk =>
    rw [hm] at h hf
    cases hw : mk.write with
    | error e => simp only [bind, Except.bind, hw] at h; cases h
    | ok r => simp only [bind, Except.bind, hw] at hf; exact ⟨mk, r.1, rfl, by rw [hf, hw]⟩

theorem open_file : MEDS.openFile file = .ok med := by decide +kernel

end Meds.Ex
