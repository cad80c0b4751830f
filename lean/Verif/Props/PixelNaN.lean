import Verif.Lemmas.PixelNaNRead
import Verif.Props.RoundTrip
import Verif.Examples.Maker

/-!
# Pixels that are not numbers (C125)
-/

namespace Meds
open Spec Maker Compare

variable {cfg : MakerCfg} {hn : Bool} {objs : List InputObj} {images : List SrcImage} {psf : Option (List PsfModel)} {psfInfo : Option String} {md : String} {mk mk' : Maker}
  {fl fl' : Nat → FltPlanes} {g g' : FltFile}

/-- **C125** Every pixel of an image cutout, whatever kind of float the pixels are: the pixel of the image that it shows, less the background there, times the scale; off the image the stored zero. -/
theorem C125_image_pixels (hi : Maker.init cfg hn objs images psf psfInfo md = .ok mk) (hw : mk.writeN fl = .ok (mk', g)) (hwf : PlanesWF fl) {i k : Nat} {o : ObjRow} {s : Slot}
    (he : Epoch g.cat.rows i k o s) (hbox : 0 < o.boxSize) :
    ∃ (j : Nat) (im : SrcImage) (x : Img Flt) (bkg : Option (Img Flt)) (cut : Img Flt), s.fileId = (j : Int) ∧ images[j]? = some im ∧ fl j "image" = some (some x) ∧ fl j "bkg" = some bkg ∧
      g.getCutout i k "image" = .ok cut ∧ (cut.nr : Int) = o.boxSize ∧ (cut.nc : Int) = o.boxSize ∧
      ∀ a b : Nat, (a : Int) < o.boxSize → (b : Int) < o.boxSize →
        (∀ r c v, ShowsPixel s a b r c → x.get? r c = some v →
          ∃ u, Background bkg r c u ∧ cut.get? a b = some (((v.sub u).mul (.num im.info.scale)).convert (cfg.cast "image"))) ∧
        ((¬ ∃ r c, ShowsPixel s a b r c ∧ r < x.nr ∧ c < x.nc) → cut.get? a b = some (.num (cfg.cast "image" 0))) := by
  obtain ⟨j, im, r, h1, h2, h3, cut, h4, h5, h6, _, h8, _⟩ := getCutoutN_eq hi hw he hbox (t := "image") (.inl rfl)
  obtain ⟨x, bkg, src, e1, e2, rfl, e4, e5, e6⟩ := readImageN_image (hwf j "bkg") h3
  obtain ⟨fill, hf, rfl⟩ := h8 src rfl
  have hfill : fill = .num 0 := by
    have : defaultValueN "image" = .ok (.num 0) := rfl
    rw [this] at hf; injection hf with hf; exact hf.symm
  subst hfill
  refine ⟨j, im, x, bkg, _, h1, h2, e1, e2, h4, h5, h6, ?_⟩
  intro a b ha hb
  rw [Img.ofFn_get? _ (by omega) (by omega)]
  constructor
  · intro r c v hs hv
    obtain ⟨u, hu, hv'⟩ := e6 r c v hv
    exact ⟨u, hu, by rw [shows_pixel hs hv']⟩
  · intro hno
    rw [shows_nothing (by rw [e4, e5]; exact hno)]
    rfl

open Classical in
/-- **C125** Every pixel of a weight cutout: the weight that it shows, or zero if the mask makes the pixel unusable, divided by the square of the scale; off the image the stored zero. -/
theorem C125_weight_pixels (hi : Maker.init cfg hn objs images psf psfInfo md = .ok mk) (hw : mk.writeN fl = .ok (mk', g)) (ht : "weight" ∈ cfg.cutoutTypes) {i k : Nat} {o : ObjRow} {s : Slot}
    (he : Epoch g.cat.rows i k o s) (hbox : 0 < o.boxSize) :
    ∃ (j : Nat) (im : SrcImage) (x cut : Img Flt), s.fileId = (j : Int) ∧ images[j]? = some im ∧ fl j "weight" = some (some x) ∧
      g.getCutout i k "weight" = .ok cut ∧ (cut.nr : Int) = o.boxSize ∧ (cut.nc : Int) = o.boxSize ∧
      ∀ a b : Nat, (a : Int) < o.boxSize → (b : Int) < o.boxSize →
        (∀ r c v, ShowsPixel s a b r c → x.get? r c = some v →
          cut.get? a b = some (((if MaskedOut cfg im r c then .num 0 else v).mul (Flt.invSquare im.info.scale)).convert (cfg.cast "weight"))) ∧
        ((¬ ∃ r c, ShowsPixel s a b r c ∧ r < x.nr ∧ c < x.nc) → cut.get? a b = some (.num (cfg.cast "weight" 0))) := by
  obtain ⟨j, im, r, h1, h2, h3, cut, h4, h5, h6, _, h8, _⟩ := getCutoutN_eq hi hw he hbox (t := "weight") (.inr ht)
  obtain ⟨x, src, e1, rfl, e4, e5, e6⟩ := readImageN_weight h3
  obtain ⟨fill, hf, rfl⟩ := h8 src rfl
  have hfill : fill = .num 0 := by
    have : defaultValueN "weight" = .ok (.num 0) := rfl
    rw [this] at hf; injection hf with hf; exact hf.symm
  subst hfill
  refine ⟨j, im, x, _, h1, h2, e1, h4, h5, h6, ?_⟩
  intro a b ha hb
  rw [Img.ofFn_get? _ (by omega) (by omega)]
  constructor
  · intro r c v hs hv
    rw [shows_pixel hs (e6 r c v hv)]
  · intro hno
    rw [shows_nothing (by rw [e4, e5]; exact hno)]
    rfl

/-! ### which kind of float comes out -/

/-- **C125** For a scale other than zero and a background that is a number, the kind of float is that of the image: NaN gives NaN, an infinity an infinity (of the other sign for a
negative scale), a number the number that `C01` and `C02` speak of. -/
theorem C125_image_kinds (v : Flt) (q scale : ℚ) (f : ℚ → ℚ) (hs : scale ≠ 0) :
    (((v.sub (.num q)).mul (.num scale)).convert f = .nan ↔ v = .nan) ∧
    (∀ sgn, ((v.sub (.num q)).mul (.num scale)).convert f = .inf sgn ↔ v = .inf (sgn != decide (scale < 0))) ∧
    (∀ p, v = .num p → ((v.sub (.num q)).mul (.num scale)).convert f = .num (f ((p - q) * scale))) := by
  cases v with
  | num a => simp [Flt.sub, Flt.mul, Flt.convert]
  | nan => simp [Flt.sub, Flt.mul, Flt.convert]
  | inf s => 
    refine ⟨by simp [Flt.sub, Flt.mul, Flt.convert, hs], ?_, by simp⟩
    intro sgn
    cases s <;> cases sgn <;> by_cases h : scale < 0 <;> simp [Flt.sub, Flt.mul, Flt.convert, hs, h]

/-- **C125** The weights likewise. -/
theorem C125_weight_kinds (v : Flt) (scale : ℚ) (f : ℚ → ℚ) (hs : scale ≠ 0) :
    ((v.mul (Flt.invSquare scale)).convert f = .nan ↔ v = .nan) ∧
    (∀ sgn, (v.mul (Flt.invSquare scale)).convert f = .inf sgn ↔ v = .inf sgn) ∧
    (∀ p, v = .num p → (v.mul (Flt.invSquare scale)).convert f = .num (f (p * (1 / scale ^ 2)))) := by
  have hp : 0 < 1 / scale ^ 2 := by positivity
  have hn : ¬ (1 / scale ^ 2 < 0) := not_lt.mpr hp.le
  have h0 : 1 / scale ^ 2 ≠ 0 := hp.ne'
  have e : Flt.invSquare scale = .num (1 / scale ^ 2) := if_neg hs
  rw [e]
  generalize 1 / scale ^ 2 = w at *
  cases v with
  | num a => simp [Flt.mul, Flt.convert]
  | nan => simp [Flt.mul, Flt.convert]
  | inf s =>
    refine ⟨by simp [Flt.mul, Flt.convert, h0], ?_, by simp⟩
    intro sgn
    cases s <;> cases sgn <;> simp [Flt.mul, Flt.convert, h0, hn]

open Classical in
/-- **C125** With a scale of zero numbers of the image become zero and everything else NaN; weights become infinities by their sign, and a weight of zero (such as one that the mask made
zero) becomes NaN. -/
theorem C125_zero_scale (v : Flt) (q : ℚ) (f : ℚ → ℚ) :
    (((v.sub (.num q)).mul (.num 0)).convert f = if ∃ p, v = .num p then .num (f 0) else .nan) ∧
    ((v.mul (Flt.invSquare 0)).convert f = .nan ↔ v = .nan ∨ v = .num 0) ∧
    ((v.mul (Flt.invSquare 0)).convert f = .inf false ↔ v = .inf false ∨ ∃ p, 0 < p ∧ v = .num p) ∧
    ((v.mul (Flt.invSquare 0)).convert f = .inf true ↔ v = .inf true ∨ ∃ p, p < 0 ∧ v = .num p) := by
  have e : Flt.invSquare 0 = .inf false := if_pos rfl
  rw [e]
  cases v with
  | num a =>
    refine ⟨by simp [Flt.sub, Flt.mul, Flt.convert], ?_⟩
    rcases lt_trichotomy a 0 with h | h | h
    · simp [Flt.mul, Flt.convert, h, h.ne, h.not_gt]
    · subst h; simp [Flt.mul, Flt.convert]
    · simp [Flt.mul, Flt.convert, h, h.ne', h.not_gt]
  | nan => simp [Flt.sub, Flt.mul, Flt.convert]
  | inf s => cases s <;> simp [Flt.sub, Flt.mul, Flt.convert]

/-! ### a pixel that is not a number does no harm elsewhere -/

/-- **C125** Changing one pixel of one image (to NaN, say, or from it) changes neither whether and with which error `write` fails nor the catalogue. -/
theorem C125_outcome {j r c : Nat} (h : SameBut j r c fl fl') (h1 : PlanesWF fl) (h2 : PlanesWF fl') :
    (mk.writeN fl).map (fun w => (w.1, w.2.cat)) = (mk.writeN fl').map (fun w => (w.1, w.2.cat)) := by
  unfold writeN
  cases mk.buildLayout with
  | error e => rfl
  | ok m =>
    simp only [Res.ok_bind]
    have hpl : ∀ t, (m.writePlaneN fl t).map (List.map (fun _ => ())) = (m.writePlaneN fl' t).map (List.map (fun _ => ())) := by
      intro t
      unfold writePlaneN
      have hc : ∀ v : Flt, (fun u : Unit => u) ((fun _ => ()) v) = (fun _ => ()) (Flt.convert (m.cfg.cast t) v) := fun _ => rfl
      have key : ∀ fl : Nat → FltPlanes, (writeCutoutsG (fun j im => readImageN m.cfg (fl j) im t) (subImageG (Flt.convert (m.cfg.cast t)) (defaultValueN t)) m.images m.objs
          (List.replicate m.totalPixels.toNat (.num 0))).map (List.map (fun _ => ())) =
          writeCutoutsG (fun j im => (readImageN m.cfg (fl j) im t).map (Option.map (Img.map (fun _ => ())))) (subImageG (fun u : Unit => u) ((defaultValueN t).map (fun _ => ()))) m.images m.objs
            (List.replicate m.totalPixels.toNat ()) := by
        intro fl
        have := writeCutoutsG_map (images := m.images) (objs := m.objs) (fun _ : Flt => ()) (read := fun j im => readImageN m.cfg (fl j) im t)
          (read' := fun j im => (readImageN m.cfg (fl j) im t).map (Option.map (Img.map (fun _ => ()))))
          (sub := subImageG (Flt.convert (m.cfg.cast t)) (defaultValueN t)) (sub' := subImageG (fun u : Unit => u) ((defaultValueN t).map (fun _ => ())))
          (fun _ _ _ => rfl) (fun src o s => subImageG_map _ hc _ _ _ _) (List.replicate m.totalPixels.toNat (.num 0))
        rw [← this, List.map_replicate]
      rw [key fl, key fl']
      congr 1
      funext j' im
      exact (readImageN_alike (h.1 j') (alike_of_sameBut h h1 h2 j' t)).shape
    have hm := mapRes_unit (l := m.types) (f := fun t => m.writePlaneN fl t >>= fun pix => Except.ok (t ++ "_cutouts", pix)) (f' := fun t => m.writePlaneN fl' t >>= fun pix => Except.ok (t ++ "_cutouts", pix)) (by
      intro t
      have := hpl t
      cases e1 : m.writePlaneN fl t with
      | error e =>
        rw [e1] at this
        cases e2 : m.writePlaneN fl' t with
        | error e' => rw [e2] at this; injection this with this; subst this; rfl
        | ok _ => rw [e2] at this; cases this
      | ok p =>
        rw [e1] at this
        cases e2 : m.writePlaneN fl' t with
        | error e' => rw [e2] at this; cases this
        | ok _ => rfl)
    generalize mapRes (fun t => m.writePlaneN fl t >>= fun pix => Except.ok (t ++ "_cutouts", pix)) m.types = a at hm ⊢
    generalize mapRes (fun t => m.writePlaneN fl' t >>= fun pix => Except.ok (t ++ "_cutouts", pix)) m.types = b at hm ⊢
    cases a with
    | error e =>
      cases b with
      | error e' => injection hm with hm; subst hm; rfl
      | ok _ => cases hm
    | ok a =>
      cases b with
      | error e' => cases hm
      | ok _ => rfl

/-- **C125** Changing one pixel of one image changes, of all cutouts of all kinds, only the pixels that show it. -/
theorem C125_one_pixel (hi : Maker.init cfg hn objs images psf psfInfo md = .ok mk) (hw : mk.writeN fl = .ok (mk', g)) {mk'' : Maker} (hw' : mk.writeN fl' = .ok (mk'', g'))
    {j r c : Nat} (h : SameBut j r c fl fl') (h1 : PlanesWF fl) (h2 : PlanesWF fl')
    {i k : Nat} {o : ObjRow} {s : Slot} (he : Epoch g.cat.rows i k o s) (hbox : 0 < o.boxSize) {t : String} (ht : t = "image" ∨ t ∈ cfg.cutoutTypes) :
    Epoch g'.cat.rows i k o s ∧ ∃ x x', g.getCutout i k t = .ok x ∧ g'.getCutout i k t = .ok x' ∧ x.nr = x'.nr ∧ x.nc = x'.nc ∧
      ∀ a b, ¬ (s.fileId = (j : Int) ∧ ShowsPixel s a b r c) → x.get? a b = x'.get? a b := by
  have hout := C125_outcome (mk := mk) h h1 h2
  rw [hw, hw'] at hout
  injection hout with hout
  have hcat : g.cat = g'.cat := congrArg Prod.snd hout
  have he' : Epoch g'.cat.rows i k o s := hcat ▸ he
  refine ⟨he', ?_⟩
  obtain ⟨n, im, q, e1, e2, e3, x, e4, e5, e6, _, e8, e9⟩ := getCutoutN_eq hi hw he hbox ht
  obtain ⟨n', im', q', f1, f2, f3, x', f4, f5, f6, _, f8, f9⟩ := getCutoutN_eq hi hw' he' hbox ht
  obtain rfl : n = n' := by omega
  obtain rfl : im = im' := by rw [e2] at f2; injection f2
  have hal := readImageN_alike (cfg := cfg) (im := im) (h.1 n) (alike_of_sameBut h h1 h2 n t)
  rw [e3, f3] at hal
  refine ⟨x, x', e4, f4, by omega, by omega, ?_⟩
  intro a b hab
  cases hal with
  | none => rw [e9 rfl, f9 rfl]
  | @some y y' hy =>
    obtain ⟨fill, g1, rfl⟩ := e8 _ rfl
    obtain ⟨fill', g2, rfl⟩ := f8 _ rfl
    obtain rfl : fill = fill' := by rw [g1] at g2; injection g2
    by_cases hlt : a < o.boxSize.toNat ∧ b < o.boxSize.toNat
    · rw [Img.ofFn_get? _ hlt.1 hlt.2, Img.ofFn_get? _ hlt.1 hlt.2]
      congr 1
      obtain ⟨y1, y2, _, _, y5⟩ := hy
      unfold showsG pixelAt
      by_cases hnn : 0 ≤ s.origStartRow + (a : Int) ∧ 0 ≤ s.origStartCol + (b : Int)
      · rw [if_pos hnn, if_pos hnn, y5]
        rintro ⟨rfl, ha, hb⟩
        exact hab ⟨e1, by omega, by omega⟩
      · rw [if_neg hnn, if_neg hnn]
    · have e : ∀ w, (Img.ofFn o.boxSize.toNat o.boxSize.toNat w : Img Flt).get? a b = .none := fun w => by
        unfold Img.get?
        exact if_neg hlt
      rw [e, e]

/-! ### numbers only -/

/-- **C125** If all pixels are numbers and no scale is zero, the cutouts are those of the file with numbers that `C01` to `C12` speak of. -/
theorem C125_numbers {f : Fits} {m : MEDS} {mk'' : Maker} (hi : Maker.init cfg hn objs images psf psfInfo md = .ok mk) (hw : mk.write = .ok (mk', f)) (ho : MEDS.openFile f = .ok m)
    (hw' : mk.writeN fl = .ok (mk'', g))
    (hn : ∀ j im t, images[j]? = some im → fl j t = (im.plane t).map (Option.map (Img.map .num))) (hs : ∀ im ∈ images, im.info.scale ≠ 0)
    {i k : Nat} {o : ObjRow} {s : Slot} (he : Epoch m.cat.rows i k o s) (hbox : 0 < o.boxSize) {t : String} (ht : t = "image" ∨ t ∈ cfg.cutoutTypes) :
    g.cat = m.cat ∧ ∃ c, m.getCutout i k t = .ok c ∧ g.getCutout i k t = .ok (c.map .num) := by
  obtain ⟨hb, hcat, _⟩ := writeN_ok hw'
  obtain ⟨mb, hb', hf⟩ := Res.bind_eq_ok.mp hw
  obtain ⟨f', _, hf⟩ := Res.bind_eq_ok.mp hf
  injection hf with hf
  injection hf with hf1 hf2
  subst hf1
  rw [hb] at hb'
  injection hb' with hb'
  subst hb'
  have hmc : g.cat = m.cat := by
    obtain ⟨in0, w, W, rfl, _⟩ := opened_eq hi hw ho
    rw [hcat]
    rfl
  refine ⟨hmc, ?_⟩
  obtain ⟨j, im, q, e1, e2, e3, x, e4, e5, e6, ewf, e8, e9⟩ := getCutoutN_eq hi hw' (hmc ▸ he) hbox ht
  obtain ⟨j', im', c, g1, g2, g3, g4, g5, gwf, ⟨r, g7⟩, g8, g9⟩ := C01_cutouts_read_back hi hw ho he hbox ht
  obtain rfl : j = j' := by omega
  obtain rfl : im = im' := by rw [e2] at g2; injection g2
  refine ⟨c, g3, ?_⟩
  rw [e4]
  congr 1
  rw [readImageN_num (fun t => hn j im t e2) (hs im (List.mem_of_getElem? e2)), g7] at e3
  have hwf' : (c.map Flt.num).WF := by
    show (c.flat.map _).length = _
    rw [List.length_map]; exact gwf
  refine Img.ext_get ewf hwf' (by show x.nr = c.nr; omega) (by show x.nc = c.nc; omega) ?_
  intro a b ha hb
  rw [img_map_get?]
  cases r with
  | none =>
    injection e3 with e3
    rw [g9 g7 a b (by omega) (by omega), e9 e3.symm, Img.ofFn_get? _ (by omega) (by omega)]
    rfl
  | some src =>
    injection e3 with e3
    obtain ⟨fill, hd, hx⟩ := g8 src g7
    rw [hx a b (by omega) (by omega)]
    obtain ⟨fill', hd', rfl⟩ := e8 _ e3.symm
    rw [Img.ofFn_get? _ (by omega) (by omega)]
    show some _ = some _
    congr 1
    have hfill : fill' = .num fill := by
      unfold defaultValueN at hd'
      obtain ⟨v, hv, hd'⟩ := Res.bind_eq_ok.mp hd'
      injection hd' with hd'
      rw [← hd']
      have := defaultValue_documented hv
      rw [hd] at this
      injection this with this
      rw [this]
    subst hfill
    unfold showsG cutoutPixel pixelAt
    by_cases hnn : 0 ≤ s.origStartRow + (a : Int) ∧ 0 ≤ s.origStartCol + (b : Int)
    · rw [if_pos hnn, if_pos hnn, img_map_get?]
      cases src.get? (s.origStartRow + (a : Int)).toNat (s.origStartCol + (b : Int)).toNat <;> rfl
    · rw [if_neg hnn, if_neg hnn]
      rfl

/-! ### examples -/

namespace ExNaN

/-- Put `v` at pixel `(r, c)`. -/
def put (v : Flt) (r c : Nat) (x : Img Flt) : Img Flt := Img.ofFn x.nr x.nc (fun a b => if a = r ∧ b = c then v else (x.get? a b).getD (.num 0))

/-- The planes of the example images. -/
def planes (images : List SrcImage) : Nat → FltPlanes := fun j t => match images[j]? with
  | none => none
  | some im => (im.plane t).map (Option.map (Img.map .num))

/-- The planes of the example images with `v` at pixel `(r, c)` of plane `t` of image `j`. -/
def planesWith (images : List SrcImage) (j : Nat) (t : String) (v : Flt) (r c : Nat) : Nat → FltPlanes := fun j' t' =>
  if j' = j ∧ t' = t then (planes images j' t').map (Option.map (put v r c)) else planes images j' t'

/-- A cutout of the example run with these planes. -/
def cutout (images : List SrcImage) (fl : Nat → FltPlanes) (i k : Int) (t : String) : Option (List Flt) :=
  match Maker.init Ex.cfg true Ex.objs images none none "meta" with
  | .error _ => none
  | .ok mk => match mk.writeN fl with
    | .error _ => none
    | .ok (_, g) => match g.getCutout i k t with
      | .error _ => none
      | .ok c => some c.flat

/-- Numbers. -/
def nums (l : List ℚ) : List Flt := l.map .num

-- without special pixels
example : cutout Ex.images (planes Ex.images) 0 0 "image" = some (nums [99, 100, 101, 102, 109, 110, 111, 112, 119, 120, 121, 122, 129, 130, 131, 132]) := by decide +kernel
example : cutout Ex.images (planes Ex.images) 0 0 "weight" = some (nums [4, 4, 0, 0, 4, 0, 0, 4, 0, 0, 4, 4, 0, 4, 4, 0]) := by decide +kernel
-- a NaN of the first image appears in the cutout from that image, at its place, and not in the one from the second image
example : cutout Ex.images (planesWith Ex.images 0 "image" .nan 2 2) 0 0 "image" = some (nums [99, 100, 101, 102, 109, 110, 111, 112, 119, 120] ++ [.nan] ++ nums [122, 129, 130, 131, 132]) := by decide +kernel
example : cutout Ex.images (planesWith Ex.images 0 "image" .nan 2 2) 0 1 "image" = cutout Ex.images (planes Ex.images) 0 1 "image" := by decide +kernel
example : cutout Ex.images (planesWith Ex.images 0 "image" .nan 2 2) 0 0 "weight" = cutout Ex.images (planes Ex.images) 0 0 "weight" := by decide +kernel
-- a NaN of the background too
example : cutout Ex.images (planesWith Ex.images 0 "bkg" .nan 2 2) 0 0 "image" = cutout Ex.images (planesWith Ex.images 0 "image" .nan 2 2) 0 0 "image" := by decide +kernel
-- a NaN of the weight map: kept where the mask does not make the pixel unusable, else replaced by zero
example : cutout Ex.images (planesWith Ex.images 0 "weight" .nan 2 2) 0 0 "weight" = some (nums [4, 4, 0, 0, 4, 0, 0, 4, 0, 0] ++ [.nan] ++ nums [4, 0, 4, 4, 0]) := by decide +kernel
example : cutout Ex.images (planesWith Ex.images 0 "weight" .nan 1 1) 0 0 "weight" = cutout Ex.images (planes Ex.images) 0 0 "weight" := by decide +kernel
-- a negative box size: numpy cannot make the array
example : subImageG id (.ok (Flt.num 0)) (Img.mk 1 1 [Flt.num 1]) (fullRow 1 { Ex.obj 11 2 2 2 with boxSize := -1 }) Slot.dflt = .error .valueError := by decide +kernel
-- a negative scale turns the sign of an infinity
example : cutout [Ex.src 5 0 100 (-2)] (planesWith [Ex.src 5 0 100 (-2)] 0 "image" (.inf true) 2 2) 0 0 "image" =
    some (nums [-198, -200, -202, -204, -218, -220, -222, -224, -238, -240] ++ [.inf false] ++ nums [-244, -258, -260, -262, -264]) := by decide +kernel
-- a scale of zero
example : cutout [Ex.src 5 0 100 0] (planesWith [Ex.src 5 0 100 0] 0 "image" (.inf true) 2 2) 0 0 "image" = some (List.replicate 10 (.num 0) ++ [.nan] ++ List.replicate 5 (.num 0)) := by decide +kernel
example : cutout [Ex.src 5 0 100 0] (planes [Ex.src 5 0 100 0]) 0 0 "weight" =
    some ([4, 4, 0, 0, 4, 0, 0, 4, 0, 0, 4, 4, 0, 4, 4, 0].map (fun q : ℚ => if q = 0 then .nan else .inf false)) := by decide +kernel

-- these planes meet the conditions of `C125_one_pixel`
theorem planes_one : SameBut 0 2 2 (planes Ex.images) (planesWith Ex.images 0 "image" .nan 2 2) := by
  refine ⟨fun j' => ?_, fun j' t => ?_⟩
  · unfold planesWith
    rw [if_neg (by rintro ⟨_, h⟩; revert h; decide)]
  · unfold planesWith
    by_cases h : j' = 0 ∧ t = "image"
    · rw [if_pos h, h.1, h.2]
      refine ⟨rfl, rfl, ?_⟩
      intro r' c' h
      by_cases hlt : r' < 5 ∧ c' < 5
      · unfold put
        rw [Img.ofFn_get? (nr := (Img.map Flt.num (Ex.pix 5 100)).nr) (nc := (Img.map Flt.num (Ex.pix 5 100)).nc) _ hlt.1 hlt.2, if_neg (fun h' => h ⟨rfl, h'⟩)]
        obtain ⟨v, hv⟩ := img_get?_wf (x := (Ex.pix 5 100).map Flt.num) (by rfl) (r := r') (c := c') hlt.1 hlt.2
        rw [hv]
        rfl
      · rw [Img.get?_none (im := Img.map Flt.num (Ex.pix 5 100)) hlt, Img.get?_none hlt]
    · rw [if_neg h]
      generalize planes Ex.images j' t = a
      match a with
      | none => trivial
      | some none => trivial
      | some (some x) => exact ⟨rfl, rfl, fun _ _ _ => rfl⟩

end ExNaN

end Meds
