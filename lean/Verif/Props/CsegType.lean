import Verif.Model.CsegType
import Verif.Props.StoredMasks
import Verif.Props.Composite
import Verif.Props.CompositeMosaic
import Verif.Props.UbersegLabels

/-!
# Numbers of objects that the type of the seg maps does not have (C121)
-/

namespace Meds
open Spec Maker
namespace MEDS

variable {m : MEDS} {np2 : Bool} {ty : IntType} {i k : Nat} {o : ObjRow} {sc se : Slot}

theorem has_iff {n : Int} : ty.has n = true ↔ Holds ty n := by
  unfold IntType.has Holds
  split <;> simp

theorem getNumber_ok (hr : m.cat.rows[i]? = some o) : ∃ n, m.getNumber i = .ok n := by
  unfold getNumber
  rw [show m.row (i : Int) = .ok o from pyGet_nat_some hr]
  split
  · exact ⟨_, rfl⟩
  · exact ⟨_, rfl⟩

/-- Nothing is written if the number is refused; what is written if not. -/
theorem numberAs_eq {iobj : Int} {n : Int} (hn : m.getNumber iobj = .ok n) :
    m.numberAs np2 ty iobj = if np2 = true ∧ m.cat.dtype.hasNumber = false ∧ ¬ Holds ty n then .error .overflowError else .ok (ty.wrap n) := by
  unfold numberAs
  rw [hn]; simp only [Res.ok_bind]
  have := has_iff (ty := ty) (n := n)
  by_cases h : Holds ty n
  · rw [this.mpr h]
    simp [h]
  · rw [Bool.eq_false_iff.mpr (fun h' => h (this.mp h'))]
    cases np2 <;> cases m.cat.dtype.hasNumber <;> simp [h]

/-- **C121** If the type has the number of the object, the calls give what they give with unbounded integers (C26, C27). -/
theorem C121_number_fits {iobj : Int} {n : Int} (hn : m.getNumber iobj = .ok n) (hty : Holds ty n) :
    (∀ icut, m.getCsegCutoutT np2 ty iobj icut = m.getCsegCutout iobj icut) ∧ m.getCsegMosaicT np2 ty iobj = m.getCsegMosaic iobj ∧
      m.getCsegCutoutListT np2 ty iobj = m.getCsegCutoutList iobj := by
  have h : m.numberAs np2 ty iobj = .ok n := by
    rw [numberAs_eq hn, if_neg (fun h => h.2.2 hty), IntType.wrap_of_holds hty]
  have h2 : m.getCsegMosaicT np2 ty iobj = m.getCsegMosaic iobj := by
    unfold getCsegMosaicT getCsegMosaic
    rw [h, hn]
  refine ⟨?_, h2, ?_⟩
  · intro icut
    unfold getCsegCutoutT getCsegCutout
    rw [h, hn]
  · unfold getCsegCutoutListT getCsegCutoutList
    rw [h2]

/-- **C121 (partial)** What `get_cseg_cutout` gives for a seg map of any integer type: the region of the object has one number of the type, which differs from the object's by a multiple of
`2^bits`; so it is the object's number exactly if the type has that.  The documentation says the object's number; `C121_counterexample` shows two objects that get the same one. -/
theorem C121_cseg_pixels_partial (hr : m.cat.rows[i]? = some o) (hsc : o.slots[0]? = some sc) (hse : o.slots[k]? = some se) (hdet : k = 0 ∨ det sc ≠ 0)
    {sk seg : Img ℚ} (hw : m.getCutout i k "seg" = .ok sk) (hs : m.getCutout i 0 "seg" = .ok seg) {own : ℚ}
    (hc0 : 0 ≤ sc.cutoutRow) (hc1 : 0 ≤ sc.cutoutCol) (hown : seg.get? ⌊sc.cutoutRow⌋.toNat ⌊sc.cutoutCol⌋.toNat = some own)
    (hb : 0 < ty.bits) (hnp : np2 = false ∨ m.cat.dtype.hasNumber = true) :
    ∃ n n' cim, m.getNumber i = .ok n ∧ m.getCsegCutoutT np2 ty i k = .ok cim ∧ Holds ty n' ∧ (2 ^ ty.bits : Int) ∣ n - n' ∧ (n' = n ↔ Holds ty n) ∧
      cim.nr = sk.nr ∧ cim.nc = sk.nc ∧ cim.WF ∧
      ∀ a b, a < sk.nr → b < sk.nc → ∃ a' b' s, CoaddPixel seg.nr seg.nc k sc se a b a' b' ∧ seg.get? a' b' = some s ∧
        cim.get? a b = some (if s = own ∨ s = 0 then (n' : ℚ) else 0) := by
  obtain ⟨o1, p1, p2, p3, p4, p5⟩ := getCutout_shape (by decide) hw
  obtain ⟨o2, q1, q2, q3, q4, q5⟩ := getCutout_shape (by decide) hs
  rw [p1] at q1
  injection q1 with q1
  subst q1
  obtain ⟨n, hn⟩ := getNumber_ok hr
  obtain ⟨cim, c1, c2, c3, c4, c5⟩ := composite_pixels hr hsc hse hdet (im := sk.map (fun _ => (ty.wrap n : ℚ))) (Img.map_WF p5 _) q5 (by omega) (by omega)
    (show sk.nr = seg.nr by omega) (show sk.nc = seg.nc by omega) hc0 hc1 hown false
  have hh := ty.wrap_holds hb n
  refine ⟨n, ty.wrap n, cim, hn, ?_, hh, ?_, ⟨fun h => h ▸ hh, fun h => IntType.wrap_of_holds h⟩, c2, c3, c4, ?_⟩
  · unfold getCsegCutoutT
    rw [hw]; simp only [Res.ok_bind]
    rw [numberAs_eq hn, if_neg (by rintro ⟨h1, h2, _⟩; rcases hnp with h | h; exacts [absurd (h1.symm.trans h) (by decide), absurd (h2.symm.trans h) (by decide)])]
    simp only [Res.ok_bind]
    rw [hs]; simp only [Res.ok_bind]
    exact c1
  · obtain ⟨q, hq⟩ := ty.wrap_congr n
    exact ⟨q, by linarith⟩
  · intro a b ha hb
    obtain ⟨v, hv⟩ := Img.get?_some_of_WF p5 ha hb
    obtain ⟨a', b', s, d1, d2, d3⟩ := c5 a b (ty.wrap n) (by rw [Img.map_get?, hv]; rfl)
    refine ⟨a', b', s, d1, d2, ?_⟩
    rw [d3]
    congr 1
    unfold Foreign
    by_cases h1 : s = own
    · simp [h1]
    · by_cases h2 : s = 0 <;> simp [h1, h2]

/-- **C121** With seg maps of any integer type, mosaic and list of `get_cseg_mosaic` and `get_cseg_cutout_list` are made of what `get_cseg_cutout` gives. -/
theorem C121_cseg_mosaic_is_stack {pix : List ℚ} {s0 : Slot} (hr : m.cat.rows[i]? = some o) (hf : m.fits.find "seg_cutouts" = some (.image pix)) (hn : 0 < o.ncutout)
    (hbox : 0 < o.boxSize) (hslots : o.ncutout ≤ o.slots.length) (hs0 : o.slots[0]? = some s0) (hpos : 0 ≤ s0.startRow)
    (hfit : s0.startRow + o.boxSize ^ 2 * o.ncutout ≤ pix.length) (hc : ObjContig o) :
    m.getCsegMosaicT np2 ty i =
      (mapRes (fun k : Nat => m.getCsegCutoutT np2 ty i k) (List.range o.ncutout.toNat) >>= fun l => Except.ok (vstack o.boxSize.toNat l)) ∧
    m.getCsegCutoutListT np2 ty i = mapRes (fun k : Nat => m.getCsegCutoutT np2 ty i k) (List.range o.ncutout.toNat) := by
  obtain ⟨l, hlen, hmos, hcut, hl⟩ := stack_of_cutouts (t := "seg") hr (by decide) hf hn hbox hslots hs0 hpos hfit hc
  rw [← hlen]
  have hs : m.getCutout i 0 "seg" = .ok l[0] := hcut 0 _ (List.getElem?_eq_getElem (by omega))
  cases hnum : m.numberAs np2 ty (i : Int) with
  | error e =>
    have h1 : m.getCsegMosaicT np2 ty i = .error e := by
      unfold getCsegMosaicT
      rw [hmos]; simp only [Res.ok_bind]
      rw [hnum]; rfl
    have h2 : mapRes (fun k : Nat => m.getCsegCutoutT np2 ty i k) (List.range l.length) = .error e := by
      obtain ⟨n, hn'⟩ : ∃ n, l.length = n + 1 := ⟨l.length - 1, by omega⟩
      rw [hn', List.range_succ_eq_map]
      unfold mapRes
      have : m.getCsegCutoutT np2 ty i ((0 : Nat) : Int) = .error e := by
        unfold getCsegCutoutT
        rw [show ((0 : Nat) : Int) = 0 from rfl, hs]; simp only [Res.ok_bind]
        rw [hnum]; rfl
      rw [this]
    unfold getCsegCutoutListT
    rw [h1, h2]
    exact ⟨rfl, rfl⟩
  | ok n =>
    have hmain : m.getCsegMosaicT np2 ty i =
        (mapRes (fun k : Nat => m.getCsegCutoutT np2 ty i k) (List.range l.length) >>= fun l => Except.ok (vstack o.boxSize.toNat l)) ∧
        ∀ r, mapRes (fun k : Nat => m.getCsegCutoutT np2 ty i k) (List.range l.length) = .ok r →
          ∀ im ∈ r, im.nr = o.boxSize.toNat ∧ im.nc = o.boxSize.toNat ∧ im.WF := by
      unfold getCsegMosaicT
      rw [hmos]; simp only [Res.ok_bind]
      rw [hnum, hs]; simp only [Res.ok_bind]
      rw [map_vstack]
      have hl' : ∀ im ∈ l.map (·.map fun _ => (n : ℚ)), im.nr = o.boxSize.toNat ∧ im.nc = o.boxSize.toNat ∧ im.WF := by
        intro im him
        obtain ⟨x, hx, rfl⟩ := List.mem_map.mp him
        obtain ⟨b1, b2, b3⟩ := hl x hx
        exact ⟨b1, b2, Img.map_WF b3 _⟩
      have := mosaic_loop (b := o.boxSize.toNat) (by omega) hl' (f := fun x => m.makeComposite i x.2 x.1 l[0] false) (g := fun k : Nat => m.getCsegCutoutT np2 ty i k) (by
        intro k x hx
        rw [List.getElem?_map] at hx
        obtain ⟨y, hy, rfl⟩ := Option.map_eq_some_iff.mp hx
        unfold getCsegCutoutT
        rw [hcut k y hy, hnum, hs]
        rfl) (by
        intro k x y hx hy
        obtain ⟨a1, a2, a3⟩ := makeComposite_shape hy
        obtain ⟨b1, b2, b3⟩ := hl' x (List.mem_of_getElem? hx)
        exact ⟨by rw [a1, b1], by rw [a2, b2], a3 b3⟩)
      rw [List.length_map] at this
      exact this
    refine ⟨hmain.1, ?_⟩
    unfold getCsegCutoutListT
    rw [hmain.1]
    cases hz : mapRes (fun k : Nat => m.getCsegCutoutT np2 ty i k) (List.range l.length) with
    | error e => rfl
    | ok r =>
      simp only [Res.ok_bind]
      exact C35_split_inverts_stack (by omega) r (hmain.2 r hz)

/-- **C121** A catalogue without the column `number`: NumPy 2 refuses the number `iobj + 1` if the type does not have it. -/
theorem C121_refused (hnum : m.cat.dtype.hasNumber = false) (hty : ¬ Holds ty ((i : Int) + 1)) {sk : Img ℚ} (hw : m.getCutout i k "seg" = .ok sk) :
    m.getCsegCutoutT true ty i k = .error .overflowError := by
  have hn : m.getNumber i = .ok ((i : Int) + 1) := by
    unfold getNumber
    rw [hnum]
    rfl
  unfold getCsegCutoutT
  rw [hw]; simp only [Res.ok_bind]
  rw [numberAs_eq hn, if_pos ⟨rfl, hnum, hty⟩]
  rfl

/-- **C121** (limits) A seg map whose labels are of a type that does not have the number of the object: the slow version of `get_uberseg` sets all weights to zero, unless the map has no
label or exactly two values. -/
theorem C121_uberseg_all_zero (hr : m.cat.rows[i]? = some o) (hnum : m.cat.dtype.hasNumber = true) {seg cim s : Img ℚ} (hs : m.getCutout i 0 "seg" = .ok seg)
    (hlab : ∀ v ∈ seg.flat, ∃ l : Int, v = l ∧ Holds ty l) (hno : ¬ Holds ty o.number) (hsc : o.slots[0]? = some sc) (hse : o.slots[k]? = some se) (hdet : k = 0 ∨ det sc ≠ 0)
    (hcw : m.getCweightCutout i k false = .ok cim) (hi : m.interpolateCoaddSeg i k = .ok s) (hex : ∃ c d l, Labelled s c d l) (h2 : nUnique s ≠ 2) :
    ∃ u, m.getUbersegSlow i k = .ok u ∧ u.nr = cim.nr ∧ u.nc = cim.nc ∧ u.WF ∧ ∀ a b, a < cim.nr → b < cim.nc → u.get? a b = some 0 := by
  obtain ⟨im, e1, _, _, _, e5, _⟩ := C28_interpolated_labels hr hsc hse hdet hs
  rw [hi] at e1
  injection e1 with e1
  subst e1
  obtain ⟨u, u1, u2, u3, u4, u5⟩ := C30_slow_rule_partial hr hnum hcw hi hex h2
  obtain ⟨_, _, w3, _⟩ := uberseg_shapes hcw hi
  refine ⟨u, u1, u2, u3, u4, ?_⟩
  intro a b ha hb
  obtain ⟨w, hw⟩ := Img.get?_some_of_WF w3 ha hb
  obtain ⟨c, d, l, f1, f2⟩ := u5 a b w hw
  rw [f2, if_neg]
  intro hl
  obtain ⟨l', hl', hh⟩ := hlab l (e5 l (Img.get?_mem_flat f1.1.1.1))
  refine hno ?_
  rw [hl] at hl'
  have : o.number = l' := by exact_mod_cast hl'
  rw [this]
  exact hh

end MEDS

open MEDS

variable {cfg : MakerCfg} {hn : Bool} {objs : List InputObj} {images : List SrcImage} {psf : Option (List PsfModel)} {psfInfo : Option String} {md : String}
  {mk mk' : Maker} {f : Fits} {m : MEDS} {i k : Nat} {o : ObjRow} {s : Slot} {ty : IntType}

/-- **C121** Files of the maker: whatever the labels of the seg maps, those stored are numbers of `seg_dtype`.  So the condition on the labels in `C121_uberseg_all_zero` holds for every
object of such a file. -/
theorem C121_stored_labels (hi : Maker.init cfg hn objs images psf psfInfo md = .ok mk) (hw : mk.write = .ok (mk', f)) (ho : MEDS.openFile f = .ok m)
    (he : Epoch m.cat.rows i k o s) (hbox : 0 < o.boxSize) (ht : "seg" ∈ cfg.cutoutTypes) (hty : cfg.cast "seg" = ty.cast) (hb : 0 < ty.bits) {j : Nat} {im : SrcImage}
    (hj : s.fileId = (j : Int)) (him : images[j]? = some im) {raw : Img ℚ} (hp : im.plane "seg" = some (some raw)) :
    ∃ c, m.getCutout i k "seg" = .ok c ∧ ∀ v ∈ c.flat, ∃ l : Int, v = l ∧ Holds ty l := by
  obtain ⟨c, fill, h1, h2, h3⟩ := stored_pixel hi hw ho he hbox ht (by decide) (by decide) hj him hp
  refine ⟨c, h1, ?_⟩
  intro v hv
  obtain ⟨o1, p1, p2, p3, p4, p5⟩ := getCutout_shape (by decide) h1
  obtain ⟨r, q, hg⟩ := Img.flat_mem_get? p5 hv
  obtain ⟨hr, hq⟩ := Img.get?_lt hg
  have hrow : m.row (i : Int) = .ok o := pyGet_nat_some he.1
  rw [hrow] at p1
  injection p1 with p1
  subst p1
  have := h3 r q (by omega) (by omega)
  rw [hg, hty] at this
  injection this with this
  have hcast : ∀ x : ℚ, ∃ l : Int, ty.cast x = l ∧ Holds ty l := fun x => ⟨_, rfl, ty.wrap_holds hb _⟩
  unfold cutoutPixel at this
  split at this <;> rw [this] <;> exact hcast _

/-! ### Concrete cases -/

namespace ExT

/-- Seg maps stored as `i2`. -/
def i2 : IntType := ⟨16, true⟩

/-- A file with two objects, of the numbers 11 and 2^16 + 11, and the labels of the coadd seg map. -/
def run (label : Nat → Nat → ℚ) (test : MEDS → Bool) : Bool :=
  Ex.check (Ex.maskCfg i2 0) [Ex.obj 10 4 3 3, Ex.obj (2 ^ 16 + 10) 4 (9/2) 2] [Ex.srcSeg 6 0 100 label, Ex.srcSeg 6 (1/2) 200 (fun _ _ => 7)] (some [Ex.psf 0, Ex.psf 1]) test

/-- The first object has the first three columns, a third one with the number 5 a pixel of the last row, the second object the rest. -/
def labels (i j : Nat) : ℚ := if j ≤ 2 then 11 else if i = 5 then 5 else 2 ^ 16 + 11

end ExT

/-- **C121** (counterexample) Two objects, of the numbers 11 and 2^16 + 11, in a file with seg maps of `i2`: `get_cseg_cutout` gives the number 11 for both.  `get_uberseg` sets all weights of
the second to zero. -/
theorem C121_counterexample : ExT.run ExT.labels (fun m =>
    decide (m.getNumber 0 = .ok 11) && decide (m.getNumber 1 = .ok (2 ^ 16 + 11)) &&
    decide (m.getCsegCutoutT true ExT.i2 0 0 = .ok ⟨4, 4, List.replicate 16 11⟩) && decide (m.getCsegCutoutT true ExT.i2 1 0 = .ok ⟨4, 4, List.replicate 16 11⟩) &&
    decide (m.getUbersegSlow 0 0 = .ok ⟨4, 4, List.replicate 16 4⟩) && decide (m.getUbersegSlow 1 0 = .ok ⟨4, 4, List.replicate 16 0⟩)) = true ∧
    Holds ExT.i2 11 ∧ ¬ Holds ExT.i2 (2 ^ 16 + 11) := by decide +kernel

/-- A test of the hypotheses of `C121_uberseg_all_zero` and `C121_cseg_pixels_partial` for the second object. -/
def ExT.hypotheses (m : MEDS) : Bool :=
  match m.cat.rows[1]?, m.getCutout 1 0 "seg", m.interpolateCoaddSeg 1 0, m.getCweightCutout 1 0 false with
  | some o, .ok seg, .ok s, .ok _ => m.cat.dtype.hasNumber && decide (¬ Holds ExT.i2 o.number) && seg.flat.all (fun v => decide (v = (v.num : ℚ) ∧ Holds ExT.i2 v.num)) &&
      decide (s.get? 0 0 = some 12) && decide (nUnique s ≠ 2)
  | _, _, _, _ => false

example : ExT.run (fun i j => if j ≤ 2 then 2 ^ 16 + 12 else if i = 2 then 0 else 11) ExT.hypotheses = true := by decide +kernel

/-- A file of 256 objects without the column `number`. -/
def ExT.many : MEDS := { Ex.segMed with cat := ⟨{ Ex.segMed.cat.dtype with hasNumber := false }, (Ex.segMed.cat.rows.take 1).flatMap (List.replicate 256)⟩ }

-- the hypotheses of C121_refused: seg maps of u1, the last object
example : ∃ sk, ExT.many.getCutout 255 1 "seg" = .ok sk ∧ ExT.many.cat.dtype.hasNumber = false ∧ ¬ Holds ⟨8, false⟩ (255 + 1) ∧
    ExT.many.getCsegCutoutT true ⟨8, false⟩ 255 1 = .error .overflowError := by
  have h : (ExT.many.getCutout 255 1 "seg").toOption.isSome = true := by decide +kernel
  cases hc : ExT.many.getCutout 255 1 "seg" with
  | error e => rw [hc] at h; cases h
  | ok sk =>
    exact ⟨sk, rfl, rfl, by decide +kernel, C121_refused (i := 255) (k := 1) rfl (by decide +kernel) hc⟩

end Meds
