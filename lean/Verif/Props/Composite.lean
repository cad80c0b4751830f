import Verif.Spec.Composite
import Verif.Lemmas.Composite
import Verif.Props.Mosaic
import Verif.Props.Access
import Mathlib.Tactic.LinearCombination

/-!
# Composite weights, composite seg maps and interpolated seg maps (C25 - C28)
-/

namespace Meds
open Spec

namespace MEDS

/-- What a successful `get_cutout` returns: a square, well-formed, non-empty image. -/
theorem getCutout_shape {m : MEDS} {i k : Int} {t : String} {im : Img ℚ} (ht : t ≠ "psf") (h : m.getCutout i k t = .ok im) :
    ∃ o, m.row i = .ok o ∧ 0 < o.boxSize ∧ im.nr = o.boxSize.toNat ∧ im.nc = o.boxSize.toNat ∧ im.WF := by
  unfold getCutout at h
  rw [if_neg ht] at h
  obtain ⟨_, _, h⟩ := Res.bind_eq_ok.mp h
  obtain ⟨o, ho, h⟩ := Res.bind_eq_ok.mp h
  obtain ⟨s, _, h⟩ := Res.bind_eq_ok.mp h
  obtain ⟨ext, _, h⟩ := Res.bind_eq_ok.mp h
  obtain ⟨fl, hf, h⟩ := Res.bind_eq_ok.mp h
  obtain ⟨h1, _, h3, rfl⟩ := reshape_ok h
  have hb : o.boxSize ≠ 0 := by
    intro hb
    rw [hb] at hf
    unfold Fits.imageSlice readSlice at hf
    split at hf
    · simp at hf
      split at hf <;> cases hf
    · cases hf
  refine ⟨o, ho, by omega, rfl, rfl, ?_⟩
  show fl.length = o.boxSize.toNat * o.boxSize.toNat
  have : (fl.length : Int) = ((o.boxSize.toNat * o.boxSize.toNat : Nat) : Int) := by
    rw [h3]; push_cast; rw [Int.toNat_of_nonneg h1]
  exact_mod_cast this

theorem coaddLabel_nearest {seg : Img ℚ} (hw : seg.WF) (hr : 0 < seg.nr) (hc : 0 < seg.nc) (p : ℚ × ℚ) :
    ∃ a b s, NearestPixel seg.nr seg.nc p a b ∧ seg.get? a b = some s ∧ coaddLabel seg p = .ok s := by
  obtain ⟨a, ha, ea, na⟩ := clip_round_nearest (x := p.1) hr
  obtain ⟨b, hb, eb, nb⟩ := clip_round_nearest (x := p.2) hc
  obtain ⟨s, hs⟩ := Img.get?_some_of_WF hw ha hb
  refine ⟨a, b, s, ⟨ha, hb, na, nb⟩, hs, ?_⟩
  unfold coaddLabel
  rw [ea, eb]
  exact Img.pyGet2_nat hs

theorem toCoadd_tangent {sc se : Slot} {cj : Mat2} (hj : Mat2.inv ⟨sc.dudrow, sc.dudcol, sc.dvdrow, sc.dvdcol⟩ = .ok cj) (i j : Nat) :
    tangent sc (toCoadd cj ⟨se.dudrow, se.dudcol, se.dvdrow, se.dvdcol⟩ (sc.cutoutRow, sc.cutoutCol) (se.cutoutRow, se.cutoutCol) i j) = tangent se (i, j) := by
  unfold Mat2.inv at hj
  dsimp only at hj
  split at hj
  · cases hj
  · rename_i hd
    injection hj with hj
    subst hj
    unfold toCoadd tangent
    dsimp only
    rw [Prod.mk.injEq]
    have hd' : sc.dudrow * sc.dvdcol - sc.dudcol * sc.dvdrow ≠ 0 := hd
    generalize hD : sc.dudrow * sc.dvdcol - sc.dudcol * sc.dvdrow = D at hd'
    constructor
    · field_simp
      rw [← hD]; ring
    · field_simp
      rw [← hD]; ring

theorem inv_ok {sc : Slot} (hd : det sc ≠ 0) : ∃ cj, Mat2.inv ⟨sc.dudrow, sc.dudcol, sc.dvdrow, sc.dvdcol⟩ = .ok cj := by
  unfold Mat2.inv
  dsimp only
  rw [if_neg (show ¬ (sc.dudrow * sc.dvdcol - sc.dudcol * sc.dvdrow = 0) from hd)]
  exact ⟨_, rfl⟩

/-- Exactly the label positions and values used for epoch `k`. -/
theorem otherObject_iff {r : Bool} {own l : ℚ} : otherObject r own l = true ↔ Foreign r own l := by
  unfold otherObject Foreign
  cases r <;> simp

theorem maskBy_ok {r : Bool} {own : ℚ} {labels im : Img ℚ} (hw : im.WF) (hr : labels.nr = im.nr) (hc : labels.nc = im.nc) :
    ∃ cim, maskBy r own labels im = .ok cim ∧ cim.nr = im.nr ∧ cim.nc = im.nc ∧ cim.WF ∧
      ∀ i j v l, im.get? i j = some v → labels.get? i j = some l → cim.get? i j = some (if Foreign r own l then 0 else v) := by
  unfold maskBy
  rw [if_pos ⟨hr, hc⟩]
  refine ⟨_, rfl, rfl, rfl, Img.mapPix_WF hw _, ?_⟩
  intro i j v l hv hl
  rw [Img.mapPix_get?, hv, Option.map_some, hl]
  dsimp only
  by_cases h : Foreign r own l
  · rw [if_pos h, if_pos (otherObject_iff.mpr h)]
  · rw [if_neg h, if_neg (by rw [otherObject_iff]; exact h)]

variable {m : MEDS} {i k : Nat} {o : ObjRow} {sc se : Slot}

theorem slot_nat (hr : m.cat.rows[i]? = some o) (hs : o.slots[k]? = some se) : m.slot i k = .ok se := by
  unfold slot
  rw [show m.row (i : Int) = .ok o from pyGet_nat_some hr]
  exact pyGet_nat_some hs

/-- The pixels of a composite image: foreign pixels are zero, all others unchanged. -/
theorem composite_pixels (hr : m.cat.rows[i]? = some o) (hsc : o.slots[0]? = some sc) (hse : o.slots[k]? = some se) (hdet : k = 0 ∨ det sc ≠ 0)
    {im seg : Img ℚ} (him : im.WF) (hseg : seg.WF) (hs0 : 0 < seg.nr) (hs1 : 0 < seg.nc) (h0 : im.nr = seg.nr) (h1 : im.nc = seg.nc) {own : ℚ}
    (hc0 : 0 ≤ sc.cutoutRow) (hc1 : 0 ≤ sc.cutoutCol) (hown : seg.get? ⌊sc.cutoutRow⌋.toNat ⌊sc.cutoutCol⌋.toNat = some own) (restrict : Bool) :
    ∃ cim, m.makeComposite i k im seg restrict = .ok cim ∧ cim.nr = im.nr ∧ cim.nc = im.nc ∧ cim.WF ∧
      ∀ a b v, im.get? a b = some v → ∃ a' b' s, CoaddPixel seg.nr seg.nc k sc se a b a' b' ∧ seg.get? a' b' = some s ∧
        cim.get? a b = some (if Foreign restrict own s then 0 else v) := by
  have e0 : m.getCutoutRowcol i 0 = .ok (sc.cutoutRow, sc.cutoutCol) := by
    unfold getCutoutRowcol; rw [show m.slot (i : Int) 0 = .ok sc from slot_nat (k := 0) hr hsc]; rfl
  have e1 : m.getCutoutRowcol i k = .ok (se.cutoutRow, se.cutoutCol) := by
    unfold getCutoutRowcol; rw [slot_nat hr hse]; rfl
  have e2 : seg.pyGet2 (truncZ sc.cutoutRow) (truncZ sc.cutoutCol) = .ok own := by
    have := Img.pyGet2_nat hown
    rw [Int.toNat_of_nonneg (Int.floor_nonneg.mpr hc0), Int.toNat_of_nonneg (Int.floor_nonneg.mpr hc1)] at this
    unfold truncZ
    rw [if_pos hc0, if_pos hc1]
    exact this
  unfold makeComposite
  rw [e0]; simp only [Res.ok_bind]
  rw [e1]; simp only [Res.ok_bind]
  rw [e2]; simp only [Res.ok_bind]
  by_cases hk : k = 0
  · subst hk
    rw [if_pos (by rfl)]
    obtain ⟨cim, c1, c2, c3, c4, c5⟩ := maskBy_ok (r := restrict) (own := own) him h0.symm h1.symm
    refine ⟨cim, c1, c2, c3, c4, ?_⟩
    intro a b v hv
    obtain ⟨ha, hb⟩ := Img.get?_lt hv
    obtain ⟨s, hs⟩ := Img.get?_some_of_WF hseg (i := a) (j := b) (by omega) (by omega)
    exact ⟨a, b, s, .inl ⟨rfl, rfl, rfl⟩, hs, c5 a b v s hv hs⟩
  · have hd := hdet.resolve_left hk
    rw [if_neg (by omega)]
    have e3 : m.getJacobianMatrix i k = .ok ⟨se.dudrow, se.dudcol, se.dvdrow, se.dvdcol⟩ := by
      unfold getJacobianMatrix; rw [slot_nat hr hse]; rfl
    have e4 : m.getJacobianMatrix i 0 = .ok ⟨sc.dudrow, sc.dudcol, sc.dvdrow, sc.dvdcol⟩ := by
      unfold getJacobianMatrix; rw [show m.slot (i : Int) 0 = .ok sc from slot_nat (k := 0) hr hsc]; rfl
    rw [e3]; simp only [Res.ok_bind]
    rw [e4]; simp only [Res.ok_bind]
    obtain ⟨cj, hcj⟩ := inv_ok hd
    rw [hcj]
    dsimp only
    obtain ⟨labels, hl⟩ := Img.ofFnRes_of_forall (nr := im.nr) (nc := im.nc)
      (f := fun i j => coaddLabel seg (toCoadd cj ⟨se.dudrow, se.dudcol, se.dvdrow, se.dvdcol⟩ (sc.cutoutRow, sc.cutoutCol) (se.cutoutRow, se.cutoutCol) i j)) (by
        intro a b _ _
        obtain ⟨_, _, s, _, _, hs⟩ := coaddLabel_nearest hseg hs0 hs1 (toCoadd cj ⟨se.dudrow, se.dudcol, se.dvdrow, se.dvdcol⟩ (sc.cutoutRow, sc.cutoutCol) (se.cutoutRow, se.cutoutCol) a b)
        exact ⟨s, hs⟩)
    rw [hl]; simp only [Res.ok_bind]
    obtain ⟨l1, l2, l3, l4⟩ := Img.ofFnRes_ok hl
    obtain ⟨cim, c1, c2, c3, c4, c5⟩ := maskBy_ok (r := restrict) (own := own) him l1 l2
    refine ⟨cim, c1, c2, c3, c4, ?_⟩
    intro a b v hv
    obtain ⟨ha, hb⟩ := Img.get?_lt hv
    obtain ⟨l, hll, hlf⟩ := l4 a b ha hb
    obtain ⟨a', b', s, hn, hs, hc⟩ := coaddLabel_nearest hseg hs0 hs1 (toCoadd cj ⟨se.dudrow, se.dudcol, se.dvdrow, se.dvdcol⟩ (sc.cutoutRow, sc.cutoutCol) (se.cutoutRow, se.cutoutCol) a b)
    rw [hc] at hlf
    injection hlf with hlf
    subst hlf
    exact ⟨a', b', s, .inr ⟨hk, _, toCoadd_tangent hcj a b, hn⟩, hs, c5 a b v s hv hll⟩

/-- **C25** For an object whose centre pixel in the coadd seg map has label `own`, and an invertible coadd jacobian, `get_cweight_cutout` completes.
It equals the weight except at the pixels whose coadd pixel (the one nearest to the same tangent-plane position) has a foreign label, which are zero. -/
theorem C25_cweight_zeroes_foreign (hr : m.cat.rows[i]? = some o) (hsc : o.slots[0]? = some sc) (hse : o.slots[k]? = some se) (hdet : k = 0 ∨ det sc ≠ 0)
    {wt seg : Img ℚ} (hw : m.getCutout i k "weight" = .ok wt) (hs : m.getCutout i 0 "seg" = .ok seg) {own : ℚ}
    (hc0 : 0 ≤ sc.cutoutRow) (hc1 : 0 ≤ sc.cutoutCol) (hown : seg.get? ⌊sc.cutoutRow⌋.toNat ⌊sc.cutoutCol⌋.toNat = some own) (restrict : Bool) :
    ∃ cim, m.getCweightCutout i k restrict = .ok cim ∧ cim.nr = wt.nr ∧ cim.nc = wt.nc ∧ cim.WF ∧
      ∀ a b w, wt.get? a b = some w → ∃ a' b' s, CoaddPixel seg.nr seg.nc k sc se a b a' b' ∧ seg.get? a' b' = some s ∧
        cim.get? a b = some (if Foreign restrict own s then 0 else w) := by
  obtain ⟨o1, p1, p2, p3, p4, p5⟩ := getCutout_shape (by decide) hw
  obtain ⟨o2, q1, q2, q3, q4, q5⟩ := getCutout_shape (by decide) hs
  rw [p1] at q1
  injection q1 with q1
  subst q1
  obtain ⟨cim, c⟩ := composite_pixels hr hsc hse hdet p5 q5 (by omega) (by omega) (by omega) (by omega) hc0 hc1 hown restrict
  refine ⟨cim, ?_, c.2⟩
  unfold getCweightCutout
  rw [hw]; simp only [Res.ok_bind]
  rw [hs]; simp only [Res.ok_bind]
  exact c.1

/-- **C25** Masking twice is the same as masking once. -/
theorem C25_masking_twice {iobj icut : Int} {im seg cim : Img ℚ} {restrict : Bool} (h : m.makeComposite iobj icut im seg restrict = .ok cim) :
    m.makeComposite iobj icut cim seg restrict = .ok cim := by
  have hmask : ∀ {own : ℚ} {labels x y : Img ℚ}, maskBy restrict own labels x = .ok y → (y.nr = x.nr ∧ y.nc = x.nc) ∧ maskBy restrict own labels y = .ok y := by
    intro own labels x y hy
    unfold maskBy at hy
    split at hy
    · rename_i hsh
      injection hy with hy
      subst hy
      refine ⟨⟨rfl, rfl⟩, ?_⟩
      unfold maskBy
      rw [if_pos (show labels.nr = (x.mapPix _).nr ∧ labels.nc = (x.mapPix _).nc from hsh)]
      congr 1
      unfold Img.mapPix
      dsimp only
      congr 1
      rw [List.mapIdx_mapIdx]
      congr 1
      funext p v
      dsimp only [Function.comp]
      cases labels.get? (p / x.nc) (p % x.nc) with
      | none => rfl
      | some l => dsimp only; split <;> rfl
    · cases hy
  unfold makeComposite at h ⊢
  obtain ⟨ccen, h1, h⟩ := Res.bind_eq_ok.mp h
  obtain ⟨cen, h2, h⟩ := Res.bind_eq_ok.mp h
  obtain ⟨own, h3, h⟩ := Res.bind_eq_ok.mp h
  rw [h1]; simp only [Res.ok_bind]
  rw [h2]; simp only [Res.ok_bind]
  rw [h3]; simp only [Res.ok_bind]
  split at h
  · rename_i hk
    rw [if_pos hk]
    exact (hmask h).2
  · rename_i hk
    rw [if_neg hk]
    obtain ⟨a, h4, h⟩ := Res.bind_eq_ok.mp h
    obtain ⟨b, h5, h⟩ := Res.bind_eq_ok.mp h
    rw [h4]; simp only [Res.ok_bind]
    rw [h5]; simp only [Res.ok_bind]
    cases hc : Mat2.inv b with
    | error e =>
      rw [hc] at h
      injection h with h
      subst h
      dsimp only
      congr 1
      unfold Img.mapPix
      dsimp only
      congr 1
      rw [List.mapIdx_mapIdx]
      rfl
    | ok cj =>
      rw [hc] at h
      dsimp only at h ⊢
      obtain ⟨labels, h6, h⟩ := Res.bind_eq_ok.mp h
      obtain ⟨⟨e1, e2⟩, e3⟩ := hmask h
      rw [e1, e2, h6]; simp only [Res.ok_bind]
      exact e3

/-- **C25** A singular coadd jacobian: the weight of every epoch but the coadd is zero everywhere. -/
theorem C25_singular_jacobian (hr : m.cat.rows[i]? = some o) (hsc : o.slots[0]? = some sc) (hse : o.slots[k]? = some se) (hk : k ≠ 0) (hdet : det sc = 0)
    {wt seg : Img ℚ} (hw : m.getCutout i k "weight" = .ok wt) (hs : m.getCutout i 0 "seg" = .ok seg) {own : ℚ}
    (hc0 : 0 ≤ sc.cutoutRow) (hc1 : 0 ≤ sc.cutoutCol) (hown : seg.get? ⌊sc.cutoutRow⌋.toNat ⌊sc.cutoutCol⌋.toNat = some own) (restrict : Bool) :
    ∃ cim, m.getCweightCutout i k restrict = .ok cim ∧ cim.nr = wt.nr ∧ cim.nc = wt.nc ∧ ∀ v ∈ cim.flat, v = 0 := by
  have e0 : m.getCutoutRowcol i 0 = .ok (sc.cutoutRow, sc.cutoutCol) := by
    unfold getCutoutRowcol; rw [show m.slot (i : Int) 0 = .ok sc from slot_nat (k := 0) hr hsc]; rfl
  have e1 : m.getCutoutRowcol i k = .ok (se.cutoutRow, se.cutoutCol) := by
    unfold getCutoutRowcol; rw [slot_nat hr hse]; rfl
  have e2 : seg.pyGet2 (truncZ sc.cutoutRow) (truncZ sc.cutoutCol) = .ok own := by
    have := Img.pyGet2_nat hown
    rw [Int.toNat_of_nonneg (Int.floor_nonneg.mpr hc0), Int.toNat_of_nonneg (Int.floor_nonneg.mpr hc1)] at this
    unfold truncZ
    rw [if_pos hc0, if_pos hc1]
    exact this
  have e3 : m.getJacobianMatrix i k = .ok ⟨se.dudrow, se.dudcol, se.dvdrow, se.dvdcol⟩ := by
    unfold getJacobianMatrix; rw [slot_nat hr hse]; rfl
  have e4 : m.getJacobianMatrix i 0 = .ok ⟨sc.dudrow, sc.dudcol, sc.dvdrow, sc.dvdcol⟩ := by
    unfold getJacobianMatrix; rw [show m.slot (i : Int) 0 = .ok sc from slot_nat (k := 0) hr hsc]; rfl
  have e5 : Mat2.inv ⟨sc.dudrow, sc.dudcol, sc.dvdrow, sc.dvdcol⟩ = .error .linAlgError := by
    unfold Mat2.inv
    dsimp only
    rw [if_pos (show sc.dudrow * sc.dvdcol - sc.dudcol * sc.dvdrow = 0 from hdet)]
  refine ⟨wt.mapPix (fun _ _ _ => 0), ?_, rfl, rfl, ?_⟩
  · unfold getCweightCutout
    rw [hw]; simp only [Res.ok_bind]
    rw [hs]; simp only [Res.ok_bind]
    unfold makeComposite
    rw [e0]; simp only [Res.ok_bind]
    rw [e1]; simp only [Res.ok_bind]
    rw [e2]; simp only [Res.ok_bind]
    rw [if_neg (by omega), e3]; simp only [Res.ok_bind]
    rw [e4]; simp only [Res.ok_bind]
    rw [e5]
  · intro v hv
    unfold Img.mapPix at hv
    simp only [List.mem_mapIdx] at hv
    obtain ⟨_, _, h⟩ := hv
    exact h.symm

/-- **C26 (partial)** What `get_cseg_cutout` really returns: the object's number at pixels whose coadd label is that of the centre pixel, and also at sky
pixels; zero at pixels of other objects.  The documentation says zero everywhere outside the object's region; `C26_counterexample` shows a sky pixel. -/
theorem C26_cseg_pixels_partial (hr : m.cat.rows[i]? = some o) (hsc : o.slots[0]? = some sc) (hse : o.slots[k]? = some se) (hdet : k = 0 ∨ det sc ≠ 0)
    {sk seg : Img ℚ} (hw : m.getCutout i k "seg" = .ok sk) (hs : m.getCutout i 0 "seg" = .ok seg) {own : ℚ}
    (hc0 : 0 ≤ sc.cutoutRow) (hc1 : 0 ≤ sc.cutoutCol) (hown : seg.get? ⌊sc.cutoutRow⌋.toNat ⌊sc.cutoutCol⌋.toNat = some own) :
    ∃ n cim, m.getNumber i = .ok n ∧ m.getCsegCutout i k = .ok cim ∧ cim.nr = sk.nr ∧ cim.nc = sk.nc ∧ cim.WF ∧
      ∀ a b, a < sk.nr → b < sk.nc → ∃ a' b' s, CoaddPixel seg.nr seg.nc k sc se a b a' b' ∧ seg.get? a' b' = some s ∧
        cim.get? a b = some (if s = own ∨ s = 0 then (n : ℚ) else 0) := by
  obtain ⟨o1, p1, p2, p3, p4, p5⟩ := getCutout_shape (by decide) hw
  obtain ⟨o2, q1, q2, q3, q4, q5⟩ := getCutout_shape (by decide) hs
  rw [p1] at q1
  injection q1 with q1
  subst q1
  have hnum : ∃ n, m.getNumber i = .ok n := by
    unfold getNumber
    rw [p1]
    split
    · exact ⟨_, rfl⟩
    · exact ⟨_, rfl⟩
  obtain ⟨n, hn⟩ := hnum
  obtain ⟨cim, c1, c2, c3, c4, c5⟩ := composite_pixels hr hsc hse hdet (im := sk.map (fun _ => (n : ℚ))) (Img.map_WF p5 _) q5 (by omega) (by omega)
    (show sk.nr = seg.nr by omega) (show sk.nc = seg.nc by omega) hc0 hc1 hown false
  refine ⟨n, cim, hn, ?_, c2, c3, c4, ?_⟩
  · unfold getCsegCutout
    rw [hw]; simp only [Res.ok_bind]
    rw [hn]; simp only [Res.ok_bind]
    rw [hs]; simp only [Res.ok_bind]
    exact c1
  · intro a b ha hb
    obtain ⟨v, hv⟩ := Img.get?_some_of_WF p5 ha hb
    obtain ⟨a', b', s, d1, d2, d3⟩ := c5 a b n (by rw [Img.map_get?, hv]; rfl)
    refine ⟨a', b', s, d1, d2, ?_⟩
    rw [d3]
    congr 1
    unfold Foreign
    by_cases h1 : s = own
    · simp [h1]
    · by_cases h2 : s = 0 <;> simp [h1, h2]

/-- **C28** `interpolate_coadd_seg` for an epoch other than the coadd: every pixel is the label of the coadd pixel nearest to the same tangent-plane position,
so only labels of the coadd seg map occur. -/
theorem C28_interpolated_labels (hr : m.cat.rows[i]? = some o) (hsc : o.slots[0]? = some sc) (hse : o.slots[k]? = some se) (hdet : k = 0 ∨ det sc ≠ 0)
    {seg : Img ℚ} (hs : m.getCutout i 0 "seg" = .ok seg) :
    ∃ im, m.interpolateCoaddSeg i k = .ok im ∧ im.nr = seg.nr ∧ im.nc = seg.nc ∧ im.WF ∧ (∀ v ∈ im.flat, v ∈ seg.flat) ∧
      ∀ a b, a < seg.nr → b < seg.nc → ∃ a' b' s, CoaddPixel seg.nr seg.nc k sc se a b a' b' ∧ seg.get? a' b' = some s ∧ im.get? a b = some s := by
  obtain ⟨o2, q1, q2, q3, q4, q5⟩ := getCutout_shape (by decide) hs
  unfold interpolateCoaddSeg
  rw [hs]; simp only [Res.ok_bind]
  by_cases hk : k = 0
  · subst hk
    rw [if_pos (by rfl)]
    refine ⟨seg, rfl, rfl, rfl, q5, fun v h => h, ?_⟩
    intro a b ha hb
    obtain ⟨s, h⟩ := Img.get?_some_of_WF q5 ha hb
    exact ⟨a, b, s, .inl ⟨rfl, rfl, rfl⟩, h, h⟩
  · have hd := hdet.resolve_left hk
    rw [if_neg (by omega)]
    have e0 : m.getCutoutRowcol i 0 = .ok (sc.cutoutRow, sc.cutoutCol) := by
      unfold getCutoutRowcol; rw [show m.slot (i : Int) 0 = .ok sc from slot_nat (k := 0) hr hsc]; rfl
    have e1 : m.getCutoutRowcol i k = .ok (se.cutoutRow, se.cutoutCol) := by
      unfold getCutoutRowcol; rw [slot_nat hr hse]; rfl
    have e3 : m.getJacobianMatrix i k = .ok ⟨se.dudrow, se.dudcol, se.dvdrow, se.dvdcol⟩ := by
      unfold getJacobianMatrix; rw [slot_nat hr hse]; rfl
    have e4 : m.getJacobianMatrix i 0 = .ok ⟨sc.dudrow, sc.dudcol, sc.dvdrow, sc.dvdcol⟩ := by
      unfold getJacobianMatrix; rw [show m.slot (i : Int) 0 = .ok sc from slot_nat (k := 0) hr hsc]; rfl
    rw [e3]; simp only [Res.ok_bind]
    rw [e1]; simp only [Res.ok_bind]
    unfold interpolateImage
    rw [hs]; simp only [Res.ok_bind]
    rw [e4]; simp only [Res.ok_bind]
    rw [e0]; simp only [Res.ok_bind]
    obtain ⟨cj, hcj⟩ := inv_ok hd
    rw [hcj]; simp only [Res.ok_bind]
    simp only [Option.getD_some]
    have hlab := fun p => coaddLabel_nearest q5 (by omega) (by omega) p
    obtain ⟨im, him⟩ := Img.ofFnRes_of_forall (nr := seg.nr) (nc := seg.nc)
      (f := fun i j => coaddLabel seg (toCoadd cj ⟨se.dudrow, se.dudcol, se.dvdrow, se.dvdcol⟩ (sc.cutoutRow, sc.cutoutCol) (se.cutoutRow, se.cutoutCol) i j)) (by
        intro a b _ _
        obtain ⟨_, _, s, _, _, hs⟩ := hlab (toCoadd cj ⟨se.dudrow, se.dudcol, se.dvdrow, se.dvdcol⟩ (sc.cutoutRow, sc.cutoutCol) (se.cutoutRow, se.cutoutCol) a b)
        exact ⟨s, hs⟩)
    obtain ⟨l1, l2, l3, l4⟩ := Img.ofFnRes_ok him
    have hpix : ∀ a b, a < seg.nr → b < seg.nc → ∃ a' b' s, CoaddPixel seg.nr seg.nc k sc se a b a' b' ∧ seg.get? a' b' = some s ∧ im.get? a b = some s := by
      intro a b ha hb
      obtain ⟨v, hv, hf⟩ := l4 a b ha hb
      obtain ⟨a', b', s, hn, hs', hc⟩ := hlab (toCoadd cj ⟨se.dudrow, se.dudcol, se.dvdrow, se.dvdcol⟩ (sc.cutoutRow, sc.cutoutCol) (se.cutoutRow, se.cutoutCol) a b)
      rw [hc] at hf
      injection hf with hf
      subst hf
      exact ⟨a', b', s, .inr ⟨hk, _, toCoadd_tangent hcj a b, hn⟩, hs', hv⟩
    refine ⟨im, him, l1, l2, l3, ?_, hpix⟩
    intro v hv
    obtain ⟨a, b, hab⟩ := Img.flat_mem_get? l3 hv
    obtain ⟨ha, hb⟩ := Img.get?_lt hab
    obtain ⟨a', b', s, _, hs', hv'⟩ := hpix a b (by omega) (by omega)
    rw [hab] at hv'
    injection hv' with hv'
    rw [hv']
    exact Img.get?_mem_flat hs'

theorem tangent_inj {s : Slot} (hd : det s ≠ 0) {p q : ℚ × ℚ} (h : tangent s p = tangent s q) : p = q := by
  unfold tangent at h
  rw [Prod.mk.injEq] at h
  obtain ⟨h1, h2⟩ := h
  unfold det at hd
  have e1 : (s.dudrow * s.dvdcol - s.dudcol * s.dvdrow) * (p.1 - q.1) = 0 := by linear_combination s.dvdcol * h1 - s.dudcol * h2
  have e2 : (s.dudrow * s.dvdcol - s.dudcol * s.dvdrow) * (p.2 - q.2) = 0 := by linear_combination s.dudrow * h2 - s.dvdrow * h1
  have f1 := (mul_eq_zero.mp e1).resolve_left hd
  have f2 := (mul_eq_zero.mp e2).resolve_left hd
  exact Prod.ext (by linarith) (by linarith)

/-- **C28** If the epoch has the coadd's jacobian and centre, the interpolated map is the coadd seg map. -/
theorem C28_same_geometry (hr : m.cat.rows[i]? = some o) (hsc : o.slots[0]? = some sc) (hse : o.slots[k]? = some se) (hdet : det sc ≠ 0)
    (hgeo : ∀ p, tangent se p = tangent sc p) {seg : Img ℚ} (hs : m.getCutout i 0 "seg" = .ok seg) :
    m.interpolateCoaddSeg i k = .ok seg := by
  obtain ⟨im, h1, h2, h3, h4, _, h6⟩ := C28_interpolated_labels hr hsc hse (.inr hdet) hs
  obtain ⟨_, _, _, _, _, q5⟩ := getCutout_shape (by decide) hs
  rw [h1]
  congr 1
  refine Img.ext_get h4 q5 h2 h3 ?_
  intro a b ha hb
  obtain ⟨a', b', s, d1, d2, d3⟩ := h6 a b (by omega) (by omega)
  rw [d3]
  rcases d1 with ⟨_, rfl, rfl⟩ | ⟨_, p, hp, n1, n2, n3, n4⟩
  · exact d2.symm
  · rw [hgeo] at hp
    have := tangent_inj hdet hp
    subst this
    have m1 := n3 a (by omega)
    have m2 := n4 b (by omega)
    dsimp only at m1 m2
    rw [sub_self, abs_zero] at m1 m2
    have z1 := abs_nonpos_iff.mp m1
    have z2 := abs_nonpos_iff.mp m2
    have y1 : a' = a := by have : (a' : ℚ) = a := by linarith
                           exact_mod_cast this
    have y2 : b' = b := by have : (b' : ℚ) = b := by linarith
                           exact_mod_cast this
    rw [← d2, y1, y2]

/-- **C28** A singular coadd jacobian is reported. -/
theorem C28_singular_jacobian (hr : m.cat.rows[i]? = some o) (hsc : o.slots[0]? = some sc) (hse : o.slots[k]? = some se) (hk : k ≠ 0) (hdet : det sc = 0)
    {seg : Img ℚ} (hs : m.getCutout i 0 "seg" = .ok seg) : m.interpolateCoaddSeg i k = .error .linAlgError := by
  unfold interpolateCoaddSeg
  rw [hs]; simp only [Res.ok_bind]
  rw [if_neg (by omega)]
  have e0 : m.getCutoutRowcol i 0 = .ok (sc.cutoutRow, sc.cutoutCol) := by
    unfold getCutoutRowcol; rw [show m.slot (i : Int) 0 = .ok sc from slot_nat (k := 0) hr hsc]; rfl
  have e1 : m.getCutoutRowcol i k = .ok (se.cutoutRow, se.cutoutCol) := by
    unfold getCutoutRowcol; rw [slot_nat hr hse]; rfl
  have e3 : m.getJacobianMatrix i k = .ok ⟨se.dudrow, se.dudcol, se.dvdrow, se.dvdcol⟩ := by
    unfold getJacobianMatrix; rw [slot_nat hr hse]; rfl
  have e4 : m.getJacobianMatrix i 0 = .ok ⟨sc.dudrow, sc.dudcol, sc.dvdrow, sc.dvdcol⟩ := by
    unfold getJacobianMatrix; rw [show m.slot (i : Int) 0 = .ok sc from slot_nat (k := 0) hr hsc]; rfl
  rw [e3]; simp only [Res.ok_bind]
  rw [e1]; simp only [Res.ok_bind]
  unfold interpolateImage
  rw [hs]; simp only [Res.ok_bind]
  rw [e4]; simp only [Res.ok_bind]
  rw [e0]; simp only [Res.ok_bind]
  unfold Mat2.inv
  dsimp only
  rw [if_pos (show sc.dudrow * sc.dvdcol - sc.dudcol * sc.dvdrow = 0 from hdet)]
  rfl

end MEDS
end Meds
