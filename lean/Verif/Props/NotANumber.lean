import Verif.Lemmas.NotANumber
import Verif.Examples.Maker

/-!
# C119: points of the sky for which a WCS has no position
-/

namespace Meds
namespace Maker
open Vec Spec Compare

variable {cfg : MakerCfg} {hn : Bool} {objs : List InputObj} {images : List SrcImageN} {psf : Option (List PsfModel)} {psfInfo : Option String} {md : String}
  {f : Fits} {m : MEDS}

/-- **C119** The file is exactly the one that would be written if the rough cut of each image also dropped the objects for which its WCS has no position;
in particular nothing that is not a number enters the file, and the conversion of NaN to an integer never happens. -/
theorem C119_same_file (cfg : MakerCfg) (hn : Bool) (objs : List InputObj) (images : List SrcImageN) (psf : Option (List PsfModel)) (psfInfo : Option String)
    (md : String) :
    makeN cfg hn objs images psf psfInfo md =
      (do
        let mk ← Maker.init cfg hn objs (images.map dropping) psf psfInfo md
        let r ← mk.write
        .ok r.2) := by
  unfold makeN
  rw [← init_images (images := images.map (·.im)) (images' := images.map dropping) (by simp)]
  cases hi : Maker.init cfg hn objs (images.map (·.im)) psf psfInfo md with
  | error e => rfl
  | ok mk =>
    simp only [Res.ok_bind, Except.map]
    unfold write
    rw [← buildLayoutN_eq]
    cases hb : buildLayoutN images mk with
    | error e => rfl
    | ok mk' =>
      simp only [Res.ok_bind, Except.map]
      have e : mk' = { mk' with images := images.map (·.im) } := by
        rw [← init_images_eq hi, ← buildLayoutN_images hb]
      rw [e, writeData_dropping images mk']
      cases ({ mk' with images := images.map dropping } : Maker).writeData <;> rfl

theorem covers_dropping (j : Nat) (im : SrcImageN) (sky : SkyPos) : Covers cfg j (dropping im) sky ↔ CoversN cfg j im sky := by
  unfold Covers CoversN rowIn colIn
  cases h : im.sky2image sky with
  | mk c r =>
    cases c <;> cases r <;> simp [dropping, number2, h]
    rename_i c r
    intro _
    constructor
    · rintro ⟨h1, h2, h3, h4⟩
      exact ⟨by linarith, by linarith, by linarith, by linarith⟩
    · rintro ⟨h1, h2, h3, h4⟩
      exact ⟨by linarith, by linarith, by linarith, by linarith⟩

/-- The maker and the write behind a file. -/
theorem makeN_ok (h : makeN cfg hn objs images psf psfInfo md = .ok f) :
    ∃ mk mk', Maker.init cfg hn objs (images.map dropping) psf psfInfo md = .ok mk ∧ mk.write = .ok (mk', f) := by
  rw [C119_same_file] at h
  obtain ⟨mk, h1, h⟩ := Res.bind_eq_ok.mp h
  obtain ⟨⟨mk', g⟩, h2, h⟩ := Res.bind_eq_ok.mp h
  injection h with h
  exact ⟨mk, mk', h1, by rw [h2]; exact congrArg _ (congrArg _ h)⟩

/-- **C119** An object has an epoch in an image exactly when the image covers it; an object for which the WCS of the image has no position has none there,
and its other epochs are those of the images that cover it. -/
theorem C119_epochs (h : makeN cfg hn objs images psf psfInfo md = .ok f) (ho : MEDS.openFile f = .ok m) {i : Nat} {o : ObjRow}
    (hr : m.cat.rows[i]? = some o) {j : Nat} {im : SrcImageN} (hj : images[j]? = some im) :
    ((∃ k s, Epoch m.cat.rows i k o s ∧ s.fileId = (j : Int)) ↔ CoversN cfg j im o.sky) ∧
    (∀ k k' s s', Epoch m.cat.rows i k o s → Epoch m.cat.rows i k' o s' → s.fileId = (j : Int) → s'.fileId = (j : Int) → k = k') := by
  obtain ⟨mk, mk', hi, hw⟩ := makeN_ok h
  obtain ⟨h1, h2, h3, h4⟩ := C04_epochs_are_covering_images hi hw ho hr
  have hc := h4 j (dropping im) (by rw [List.getElem?_map, hj]; rfl)
  rw [covers_dropping] at hc
  have at_ : ∀ k s, Epoch m.cat.rows i k o s → s.fileId = (j : Int) → (coveringImages cfg (images.map dropping) o.sky)[k]? = some j := by
    rintro k s ⟨_, hk, hs⟩ hf
    obtain ⟨s', j', e1, e2, e3⟩ := h2 k hk
    rw [hs] at e1
    injection e1 with e1
    subst e1
    have : j' = j := by omega
    rw [← this]; exact e2
  refine ⟨⟨?_, ?_⟩, ?_⟩
  · rintro ⟨k, s, he, hf⟩
    exact hc.mp (List.mem_of_getElem? (at_ k s he hf))
  · intro hcov
    obtain ⟨k, hk⟩ := List.mem_iff_getElem?.mp (hc.mpr hcov)
    have hlt := (List.getElem?_eq_some_iff.mp hk).1
    have hkn : (k : Int) < o.ncutout := by rw [h1]; exact_mod_cast hlt
    obtain ⟨s, j', e1, e2, e3⟩ := h2 k hkn
    rw [hk] at e2
    injection e2 with e2
    exact ⟨k, s, ⟨hr, hkn, e1⟩, by rw [e3, e2]⟩
  · intro k k' s s' e e' hf hf'
    have g1 := at_ k s e hf
    have g2 := at_ k' s' e' hf'
    obtain ⟨l1, e1⟩ := List.getElem?_eq_some_iff.mp g1
    obtain ⟨l2, e2⟩ := List.getElem?_eq_some_iff.mp g2
    rcases lt_trichotomy k k' with hlt | heq | hlt
    · have := List.pairwise_iff_getElem.mp h3 k k' l1 l2 hlt
      omega
    · exact heq
    · have := List.pairwise_iff_getElem.mp h3 k' k l2 l1 hlt
      omega

open Classical in
/-- **C119** Without `trim_to_coadd` every object of the catalogue is in the file, also those that no WCS has a position for; with it exactly the objects that
the coadd covers, none without a position in the coadd. -/
theorem C119_objects (h : makeN cfg hn objs images psf psfInfo md = .ok f) (ho : MEDS.openFile f = .ok m) :
    (¬ (cfg.firstImageIsCoadd = true ∧ cfg.trimToCoadd = true) → List.Forall₂ SameObject objs m.cat.rows) ∧
    (cfg.firstImageIsCoadd = true → cfg.trimToCoadd = true → ∀ im, images[0]? = some im →
      List.Forall₂ SameObject (objs.filter (fun a => decide (CoversN cfg 0 im a.sky))) m.cat.rows) := by
  obtain ⟨mk, mk', hi, hw⟩ := makeN_ok h
  have hc := C05_catalogue_is_input hi hw ho
  refine ⟨fun hn => ?_, fun h1 h2 im him => ?_⟩
  · rw [List.filter_eq_self.mpr] at hc
    · exact hc
    · intro a _
      unfold kept
      rw [if_neg (by simpa using hn)]
  · have e : objs.filter (fun a => kept cfg (images.map dropping) a.sky) = objs.filter (fun a => decide (CoversN cfg 0 im a.sky)) := by
      refine List.filter_congr fun a _ => ?_
      unfold kept
      rw [if_pos (by simp [h1, h2])]
      cases images with
      | nil => cases him
      | cons x rest =>
        injection him with him
        subst him
        simp only [List.map_cons]
        rw [decide_eq_decide]
        exact covers_dropping 0 x a.sky
    rw [e] at hc
    exact hc

/-- **C119** When every object must be in the coadd, an object for which the WCS of the coadd has no position prevents the file. -/
theorem C119_refused (hc : cfg.firstImageIsCoadd = true) (hk : cfg.checkInCoadd = true) (ht : cfg.trimToCoadd = false) {im : SrcImageN}
    (him : images[0]? = some im) {a : InputObj} (ha : a ∈ objs) (hpos : number2 (im.sky2image a.sky) = none) :
    ∀ f, makeN cfg hn objs images psf psfInfo md ≠ .ok f := by
  intro f h
  obtain ⟨mk, mk', hi, hw⟩ := makeN_ok h
  obtain ⟨_, _, W, _⟩ := written hi hw
  have ho := W.open
  have hin := (C119_objects h ho).1 (by simp [ht])
  obtain ⟨i, hlt, rfl⟩ := List.getElem_of_mem ha
  have hl := hin.length_eq
  have hb := (List.forall₂_iff_get.mp hin).2 i hlt (by omega)
  simp only [List.get_eq_getElem] at hb
  have hr : (openedOf mk' f).cat.rows[i]? = some ((openedOf mk' f).cat.rows[i]'(by omega)) := List.getElem?_eq_getElem _
  obtain ⟨h1, s, h2, h3⟩ := C05_coadd_is_cutout_zero hi hw ho hc hk (by cases images <;> simp_all) hr
  have he := ((C119_epochs h ho hr him).1).mp ⟨0, s, ⟨hr, by push_cast; omega, h2⟩, by simpa using h3⟩
  obtain ⟨_, c, r, hcr, _⟩ := he
  rw [hb.2.1] at hcr
  rw [hcr] at hpos
  cases hpos

namespace ExN

/-- A WCS of the example input that has no position for the object at `dec = 2`: NaN, infinite, or NaN in one coordinate only. -/
def broken (bad : Flt × Flt) (im : SrcImage) : SrcImageN :=
  { im := im, sky2image := fun s => if s.dec = 2 then bad else (.num (im.wcs.sky2image s).1, .num (im.wcs.sky2image s).2) }

/-- A WCS that works. -/
def whole (im : SrcImage) : SrcImageN :=
  { im := im, sky2image := fun s => (.num (im.wcs.sky2image s).1, .num (im.wcs.sky2image s).2) }

/-- The first image works; in the others the second object has no position. -/
def imagesHalf : List SrcImageN :=
  [whole (Ex.src 5 0 100 1), broken (.num 2, .nan) (Ex.src 4 (1/2) 200 2), broken (.inf false, .inf true) (Ex.src 3 2 300 1)]

/-- The file is written and a test on it holds. -/
def check (cfg : MakerCfg) (images : List SrcImageN) (test : MEDS → Bool) : Bool :=
  match makeN cfg true Ex.objs images (some Ex.psfs) (some "pi") "meta" with
  | .ok f =>
    match MEDS.openFile f with
    | .ok m => test m
    | .error _ => false
  | .error _ => false

-- the second object (three epochs with WCSs that work) is left with the epoch of the first image; the first keeps both of its own
example : check Ex.cfg imagesHalf (fun m =>
    m.cat.rows.map (·.ncutout) = [2, 1] && m.cat.rows.map (·.id) = [10, 11] &&
    m.cat.rows.map (fun o => o.slots.map (·.fileId)) = [[0, 1], [0, -9999]]) = true := by decide +kernel

/-- The coadd has no position for the second object. -/
def imagesBad : List SrcImageN := [broken (.nan, .nan) (Ex.src 5 0 100 1), whole (Ex.src 4 (1/2) 200 2), whole (Ex.src 3 2 300 1)]

-- refused when every object must be in the coadd; trimmed away when that is asked for; otherwise it has the epochs of the other images
example : makeN Ex.cfg true Ex.objs imagesBad (some Ex.psfs) (some "pi") "meta" = .error .creationError := by decide +kernel
example : check { Ex.cfg with trimToCoadd := true } imagesBad (fun m => m.cat.rows.map (·.id) = [10]) = true := by decide +kernel
example : check { Ex.cfg with checkInCoadd := false } imagesBad (fun m =>
    m.cat.rows.map (fun o => o.slots.map (·.fileId)) = [[0, 1], [1, 2]]) = true := by decide +kernel
example : ∃ a ∈ Ex.objs, number2 ((broken (.nan, .nan) (Ex.src 5 0 100 1)).sky2image a.sky) = none := ⟨Ex.obj 11 2 (9/2) 2, by simp [Ex.objs], by decide +kernel⟩

-- what clipping does with each of the values
example : (Flt.inf true).clip 0 5 = .num 0 ∧ (Flt.inf false).clip 0 5 = .num 5 ∧ Flt.nan.clip 0 5 = .nan ∧ (Flt.num 7).clip 0 5 = .num 5 := by decide +kernel
-- an empty range, of an image without pixels
example : (Flt.inf true).clip 0 (-1) = .num (-1) ∧ (Flt.inf false).clip 0 (-1) = .num (-1) ∧ (Flt.num 0).clip 0 (-1) = .num (-1) := by decide +kernel

end ExN

end Maker
end Meds
