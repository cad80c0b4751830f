import Verif.Props.Noise
import Verif.Props.Reject
import Verif.Lemmas.PixelTypes

/-!
# Values of unusable pixels and the coadd (C104)
-/

namespace Meds.Spec

/-- Two files that differ in the pixels of the images only: same catalogue, and the same weights, masks, seg maps and so on. -/
structure SameButImages (m m' : MEDS) : Prop where
  cat : m'.cat = m.cat
  others : ∀ n, n ≠ "image_cutouts" → m'.fits.find n = m.fits.find n

/-- The single epochs of an object (not the coadd, which is epoch 0) have the same image values at every pixel that can be used: positive weight and no bad flag. -/
def SameUsable (flags : Option Int) (ims ims' wts bms : List (Img ℚ)) : Prop :=
  ∀ k im im' wt bm, 1 ≤ k → ims[k]? = some im → ims'[k]? = some im' → wts[k]? = some wt → bms[k]? = some bm →
    ∀ a b, a < wt.nr → b < wt.nc → ¬ BadAt flags bm wt a b → im.get? a b = im'.get? a b

end Meds.Spec

namespace Meds.Coadd
open Spec

/-- Two images that agree where `bad` does not hold give the same interpolated image. -/
theorem interpNoise_congr {sqrt : ℚ → ℚ} {interp : Interp} {draw : Nat → ℚ} {pos : Nat} {flags : Option Int} {im im' bm wt : Img ℚ}
    (hs : SameShape bm wt) (him : SameShape im wt) (him' : SameShape im' wt)
    (h : ∀ a b, a < wt.nr → b < wt.nc → ¬ BadAt flags bm wt a b → im.get? a b = im'.get? a b) :
    interpNoise sqrt interp draw pos flags im bm wt = interpNoise sqrt interp draw pos flags im' bm wt := by
  obtain ⟨hlen, hnc, hnr⟩ := badPixels_flat (flags := flags) hs
  have l1 : im.flat.length = wt.nr * wt.nc := by rw [him.1, him.2.2.1, him.2.2.2]
  have l2 : im'.flat.length = wt.nr * wt.nc := by rw [him'.1, him'.2.2.1, him'.2.2.2]
  have hr : im'.nr = im.nr := by rw [him.2.2.1, him'.2.2.1]
  have hc : im'.nc = im.nc := by rw [him.2.2.2, him'.2.2.2]
  have hfl : ∀ k : Nat, k < wt.nr * wt.nc → (badPixels flags bm wt).flat[k]? ≠ some true → im.flat[k]? = im'.flat[k]? := by
    intro k hk hb
    have hc0 : 0 < wt.nc := Nat.pos_of_ne_zero (fun h => by rw [h] at hk; omega)
    have hi : k / wt.nc < wt.nr := Nat.div_lt_of_lt_mul (by rw [Nat.mul_comm]; exact hk)
    have hj : k % wt.nc < wt.nc := Nat.mod_lt _ hc0
    have e : k / wt.nc * wt.nc + k % wt.nc = k := by rw [Nat.mul_comm]; exact Nat.div_add_mod _ _
    have hn : ¬ BadAt flags bm wt (k / wt.nc) (k % wt.nc) := by
      intro hbad
      obtain ⟨v, e1, hv⟩ := badPixels_flat_iff (flags := flags) hs hi hj
      rw [e] at e1
      exact hb (by rw [e1, hv.mpr hbad])
    have := h _ _ hi hj hn
    rw [get?_flat (by rw [him.2.2.1]; exact hi) (by rw [him.2.2.2]; exact hj), get?_flat (by rw [him'.2.2.1]; exact hi) (by rw [him'.2.2.2]; exact hj),
      him.2.2.2, him'.2.2.2, e] at this
    exact this
  have hext : ∀ {x y : Img ℚ}, x.nr = y.nr → x.nc = y.nc → x.flat = y.flat → x = y := by
    rintro ⟨_, _, _⟩ ⟨_, _, _⟩ rfl rfl rfl
    rfl
  unfold interpNoise
  simp only
  by_cases h0 : (badPixels flags bm wt).flat.count true = 0
  · rw [if_pos h0, if_pos h0]
    have : im = im' := by
      refine hext hr.symm hc.symm (List.ext_getElem? fun k => ?_)
      by_cases hk : k < wt.nr * wt.nc
      · exact hfl k hk (fun e => List.count_eq_zero.mp h0 (List.mem_of_getElem? e))
      · rw [List.getElem?_eq_none (by omega), List.getElem?_eq_none (by omega)]
    rw [this]
  · rw [if_neg h0, if_neg h0]
    split
    · rfl
    · congr 2
      unfold doInterp
      refine hext hr.symm hc.symm (List.ext_getElem? fun k => ?_)
      simp only [List.getElem?_mapIdx]
      by_cases hk : k < wt.nr * wt.nc
      · by_cases hb : (badPixels flags bm wt).flat[k]? = some true
        · simp only [if_pos hb]
          have hat : interpAt interp ((List.range (badPixels flags bm wt).flat.length).filter (fun k => (badPixels flags bm wt).flat[k]? == some false)) im k =
              interpAt interp ((List.range (badPixels flags bm wt).flat.length).filter (fun k => (badPixels flags bm wt).flat[k]? == some false)) im' k := by
            unfold interpAt
            rw [hc]
            congr 1
            apply List.filterMap_congr
            intro g hg
            rw [List.mem_filter, List.mem_range, hlen, beq_iff_eq] at hg
            rw [hfl g hg.1 (by rw [hg.2]; simp)]
          rw [List.getElem?_eq_getElem (show k < im.flat.length by omega), List.getElem?_eq_getElem (show k < im'.flat.length by omega), Option.map_some,
            Option.map_some, hat]
        · simp only [if_neg hb]
          rw [hfl k hk hb]
      · rw [List.getElem?_eq_none (show im.flat.length ≤ k by omega), List.getElem?_eq_none (show im'.flat.length ≤ k by omega)]
        rfl

/-- Symmetrizing makes no unusable pixel usable. -/
theorem bad_symmetrized {cfg : Cfg} {bm wt : Img ℚ} {bw : Img ℚ × Img ℚ} {n : Nat} (hb : Square n bm) (hw : Square n wt) (h : symmetrized cfg bm wt = .ok bw) {a b : Nat}
    (hbad : BadAt cfg.badFlags bm wt a b) : BadAt cfg.badFlags bw.1 bw.2 a b := by
  obtain ⟨v, w, ev, ew, hor⟩ := hbad
  unfold symmetrized at h
  split at h
  · obtain ⟨w', h1, h⟩ := Res.bind_eq_ok.mp h
    obtain ⟨b', h2, h⟩ := Res.bind_eq_ok.mp h
    injection h with h
    subst h
    have hl := Img.get?_lt ew
    have hl' := Img.get?_lt ev
    -- the weight
    have hwt : ∃ x, w'.get? a b = some x ∧ (w ≤ 0 → x ≤ 0) := by
      unfold symmetrizeWeight at h1
      rw [if_neg (by rw [hw.1, hw.2.1]; simp)] at h1
      injection h1 with h1
      obtain ⟨r, er⟩ := Img.get?_some_of_WF (show (rot90 wt).WF from Img.ofFn_WF _ _ _) (show a < (rot90 wt).nr by show a < wt.nc; rw [hw.2.1, ← hw.1]; exact hl.1)
        (show b < (rot90 wt).nc by show b < wt.nr; rw [hw.1, ← hw.2.1]; exact hl.2)
      refine ⟨_, by rw [← h1]; exact Img.zipWith_get? (show wt.nr = wt.nc by rw [hw.1, hw.2.1]) (show wt.nc = wt.nr by rw [hw.1, hw.2.1]) _ a b ew er, ?_⟩
      intro h0
      split
      · exact le_refl _
      · exact h0
    obtain ⟨x, ex, hx⟩ := hwt
    obtain ⟨sb, sw⟩ : Square n b' ∧ Square n w' := symmetrized_square (cfg := { cfg with symmetrizeMask := true }) (bw := (b', w')) hb hw (by
      unfold symmetrized
      simp only [if_true]
      rw [h1, Res.ok_bind, h2, Res.ok_bind])
    rcases hor with hor | hor
    · obtain ⟨y, ey⟩ := Img.get?_some_of_WF sb.2.2 (show a < b'.nr by rw [sb.1, ← hb.1]; exact hl'.1) (show b < b'.nc by rw [sb.2.1, ← hb.2.1]; exact hl'.2)
      exact ⟨y, x, ey, ex, .inl (hx hor)⟩
    · obtain ⟨f, hf, hfl⟩ := hor
      rw [hf] at h2
      have := (C58_flags_kept_partial (g := f) hb.1 hb.2.1 hb.2.2 h2).1 a b ⟨v, ev, f, rfl, hfl⟩
      obtain ⟨y, ey, hy⟩ := this
      rw [hf]
      exact ⟨y, x, ey, ex, .inr hy⟩
  · injection h with h
    subst h
    exact ⟨v, w, ev, ew, hor⟩

/-- Outlier rejection makes no unusable pixel usable. -/
theorem rejected_unusable {ext : Ext} {cfg : Cfg} {ims wts wts' : List (Img ℚ)} {n : Nat} (hi : ∀ im ∈ ims, Square n im) (hw : ∀ wt ∈ wts, Square n wt)
    (h : rejected ext cfg ims wts = .ok wts') :
    ∀ (k : Nat) wt', wts'[k]? = some wt' → ∃ wt, wts[k]? = some wt ∧ ∀ a b w, wt.get? a b = some w → w ≤ 0 → ∃ w', wt'.get? a b = some w' ∧ w' ≤ 0 := by
  unfold rejected at h
  split at h
  · obtain ⟨r, h1, h⟩ := Res.bind_eq_ok.mp h
    injection h with h
    subst h
    unfold Reject.rejectOutliers at h1
    split at h1
    · injection h1 with h1
      subst h1
      exact fun k wt' e => ⟨wt', e, fun a b w ew h0 => ⟨w, ew, h0⟩⟩
    · cases ims with
      | nil => cases h1
      | cons im0 rest =>
        simp only at h1
        split at h1
        · cases h1
        · have h0 := hi im0 (by simp)
          refine (foldRes_inv (P := fun st : Reject.Rejected ℚ => (∀ im ∈ st.ims, Square n im) ∧ (∀ wt ∈ st.wts, Square n wt) ∧
            ∀ (k : Nat) wt', st.wts[k]? = some wt' → ∃ wt, wts[k]? = some wt ∧ ∀ a b w, wt.get? a b = some w → w ≤ 0 → ∃ w', wt'.get? a b = some w' ∧ w' ≤ 0)
            ⟨hi, hw, fun k wt' e => ⟨wt', e, fun a b w ew h0 => ⟨w, ew, h0⟩⟩⟩ ?_ h1).2.2
          intro t t' k _ hP hstep
          unfold Reject.step at hstep
          obtain ⟨im, g1, hstep⟩ := Res.bind_eq_ok.mp hstep
          obtain ⟨wt, g2, hstep⟩ := Res.bind_eq_ok.mp hstep
          dsimp only at hstep
          split at hstep
          · cases hstep
          · injection hstep with hstep
            subst hstep
            have s1 := hP.1 im (pyGet_ok g1)
            have s2 := hP.2.1 wt (pyGet_ok g2)
            have e1 : im.flat.length = n * n := by rw [s1.2.2, s1.1, s1.2.1]
            have e2 : wt.flat.length = n * n := by rw [s2.2.2, s2.1, s2.2.1]
            have e3 : (Reject.medianImage (im0.nr, im0.nc) (im0 :: rest)).flat.length = n * n := by
              rw [show (Reject.medianImage (im0.nr, im0.nc) (im0 :: rest)).flat.length = im0.nr * im0.nc from Img.ofFn_WF _ _ _, h0.1, h0.2.1]
            refine ⟨hP.1, ?_, ?_⟩
            · intro w' hw'
              rcases List.mem_or_eq_of_mem_set hw' with hw' | rfl
              · exact hP.2.1 w' hw'
              · exact ⟨s1.1, s1.2.1, by simp [Img.WF, Reject.outlier, Img.zipWith, Img.map, e1, e2, e3, s1.1, s1.2.1]⟩
            · intro k' wt' he
              by_cases hkk : k = k'
              · subst hkk
                have g2' := pyGet_ok_nonneg g2 (by omega)
                rw [Int.toNat_natCast] at g2'
                have hlt : k < t.wts.length := (List.getElem?_eq_some_iff.mp g2').1
                rw [List.getElem?_set_self hlt] at he
                injection he with he
                obtain ⟨wt0, hw0, hle⟩ := hP.2.2 k wt g2'
                refine ⟨wt0, hw0, ?_⟩
                intro a b w ew hw0
                obtain ⟨w1, ew1, hw1⟩ := hle a b w ew hw0
                have hl := Img.get?_lt ew1
                have hW : (Reject.outlier ext.sqrt ext.nsigma ext.amp (Reject.medianImage (im0.nr, im0.nc) (im0 :: rest)) im (wt.map (max · 0))).WF := by
                  simp [Img.WF, Reject.outlier, Img.zipWith, Img.map, e1, e2, e3, s1.1, s1.2.1]
                obtain ⟨o, eo⟩ := Img.get?_some_of_WF hW (show a < im.nr by rw [s1.1, ← s2.1]; exact hl.1) (show b < im.nc by rw [s1.2.1, ← s2.2.1]; exact hl.2)
                have ew2 : (wt.map (max · 0)).get? a b = some (max w1 0) := by rw [Img.map_get?, ew1]; rfl
                have hz := Img.zipWith_get? (a := Reject.outlier ext.sqrt ext.nsigma ext.amp (Reject.medianImage (im0.nr, im0.nc) (im0 :: rest)) im (wt.map (max · 0)))
                  (b := wt.map (max · 0)) (show im.nr = wt.nr by rw [s1.1, s2.1]) (show im.nc = wt.nc by rw [s1.2.1, s2.2.1])
                  (fun bad v => if bad = true then 0 else v) a b eo ew2
                rw [he] at hz
                refine ⟨_, hz, ?_⟩
                split
                · exact le_refl _
                · rw [max_eq_right hw1]
              · rw [List.getElem?_set_ne hkk] at he
                exact hP.2.2 k' wt' he
  · injection h with h
    subst h
    exact fun k wt' e => ⟨wt', e, fun a b w ew h0 => ⟨w, ew, h0⟩⟩

/-! ### What is read from the file -/

theorem row_same {m m' : MEDS} (h : SameButImages m m') (i : Int) : m'.row i = m.row i := by
  unfold MEDS.row
  rw [h.cat]

theorem slot_same {m m' : MEDS} (h : SameButImages m m') (i k : Int) : m'.slot i k = m.slot i k := by
  unfold MEDS.slot
  rw [row_same h]

theorem checkIndices_same {m m' : MEDS} (h : SameButImages m m') (i : Int) (k : Option Int) : m'.checkIndices i k = m.checkIndices i k := by
  unfold MEDS.checkIndices MEDS.size
  rw [row_same h, h.cat]

theorem getJacobian_same {m m' : MEDS} (h : SameButImages m m') (i k : Int) : m'.getJacobian i k = m.getJacobian i k := by
  unfold MEDS.getJacobian MEDS.getCutoutRowcol
  rw [slot_same h, checkIndices_same h]

theorem imageSlice_same {m m' : MEDS} (h : SameButImages m m') {n : String} (hn : n ≠ "image_cutouts") (a b : Int) :
    m'.fits.imageSlice n a b = m.fits.imageSlice n a b := by
  unfold Fits.imageSlice
  rw [h.others n hn]

theorem extensionName_ok {m : MEDS} {t n : String} (h : m.extensionName t = .ok n) : n = t ++ "_cutouts" := by
  unfold MEDS.extensionName at h
  simp only at h
  split at h
  · injection h with h
    exact h.symm
  · cases h

theorem extensionName_same {m m' : MEDS} (h : SameButImages m m') {t : String} (ht : t ++ "_cutouts" ≠ "image_cutouts") : m'.extensionName t = m.extensionName t := by
  unfold MEDS.extensionName Fits.has
  simp only [h.others _ ht]

theorem mosaic_same {m m' : MEDS} (h : SameButImages m m') {t : String} (ht : t ++ "_cutouts" ≠ "image_cutouts") (i : Int) : m'.getMosaic i t = m.getMosaic i t := by
  unfold MEDS.getMosaic
  rw [checkIndices_same h, row_same h, slot_same h, extensionName_same h ht]
  cases m.checkIndices i none with
  | error e => rfl
  | ok _ =>
    cases m.row i with
    | error e => rfl
    | ok o =>
      cases m.slot i 0 with
      | error e => rfl
      | ok s =>
        cases he : m.extensionName t with
        | error e => rfl
        | ok n => simp only [Res.ok_bind, imageSlice_same h (show n ≠ "image_cutouts" by rw [extensionName_ok he]; exact ht)]

theorem cutoutList_same {m m' : MEDS} (h : SameButImages m m') {t : String} (hp : t ≠ "psf") (ht : t ++ "_cutouts" ≠ "image_cutouts") (i : Int) :
    m'.getCutoutList i t = m.getCutoutList i t := by
  unfold MEDS.getCutoutList
  rw [if_neg hp, if_neg hp, mosaic_same h ht]

theorem seg_same {m m' : MEDS} (h : SameButImages m m') (i : Int) : m'.getCutout i 0 "seg" = m.getCutout i 0 "seg" := by
  unfold MEDS.getCutout
  rw [if_neg (by decide), if_neg (by decide), checkIndices_same h, row_same h, slot_same h, extensionName_same h (by decide)]
  cases m.checkIndices i (some 0) with
  | error e => rfl
  | ok _ =>
    cases m.row i with
    | error e => rfl
    | ok o =>
      cases m.slot i 0 with
      | error e => rfl
      | ok s =>
        cases he : m.extensionName "seg" with
        | error e => rfl
        | ok n => simp only [Res.ok_bind, imageSlice_same h (show n ≠ "image_cutouts" by rw [extensionName_ok he]; decide)]

theorem interpolateImage_same {m m' : MEDS} (h : SameButImages m m') (i : Int) (j : MEDS.Mat2) (c : Option (ℚ × ℚ)) :
    m'.interpolateImage i j c = m.interpolateImage i j c := by
  unfold MEDS.interpolateImage MEDS.getJacobianMatrix MEDS.getCutoutRowcol
  rw [seg_same h, slot_same h]

theorem interpolateCoaddSeg_same {m m' : MEDS} (h : SameButImages m m') (i k : Int) : m'.interpolateCoaddSeg i k = m.interpolateCoaddSeg i k := by
  unfold MEDS.interpolateCoaddSeg MEDS.getJacobianMatrix MEDS.getCutoutRowcol
  simp only [seg_same h, slot_same h, interpolateImage_same h]

/-- The number of images of an object comes from the catalogue. -/
theorem cutoutList_length {m : MEDS} {t : String} (hp : t ≠ "psf") {i : Int} {l : List (Img ℚ)} (h : m.getCutoutList i t = .ok l) :
    ∃ o, m.row i = .ok o ∧ l.length = (o.ncutout * o.boxSize).toNat / o.boxSize.toNat := by
  unfold MEDS.getCutoutList at h
  rw [if_neg hp] at h
  obtain ⟨mo, hm, h⟩ := Res.bind_eq_ok.mp h
  unfold MEDS.getMosaic at hm
  obtain ⟨_, _, hm⟩ := Res.bind_eq_ok.mp hm
  obtain ⟨o, ho, hm⟩ := Res.bind_eq_ok.mp hm
  obtain ⟨_, _, hm⟩ := Res.bind_eq_ok.mp hm
  obtain ⟨_, _, hm⟩ := Res.bind_eq_ok.mp hm
  obtain ⟨fl, _, hm⟩ := Res.bind_eq_ok.mp hm
  obtain ⟨_, _, _, q4⟩ := reshape_ok hm
  refine ⟨o, ho, ?_⟩
  unfold splitMosaic at h
  simp only at h
  split at h
  · cases h
  · injection h with h
    rw [← h, List.length_map, List.length_range, q4]

/-! ### The loop -/

theorem epochStep_same {ext : Ext} {cfg : Cfg} {draw : Nat → ℚ} {m m' : MEDS} {iobj : Int} {ims ims' wts bms segs : List (Img ℚ)} {n : Nat} (hm : SameButImages m m')
    (hi : ∀ im ∈ ims, Square n im) (hi' : ∀ im ∈ ims', Square n im) (hw : ∀ im ∈ wts, Square n im) (hb : ∀ im ∈ bms, Square n im)
    (hu : ∀ (k : Nat) im im' wt bm, ims[k]? = some im → ims'[k]? = some im' → wts[k]? = some wt → bms[k]? = some bm →
      ∀ a b, a < n → b < n → ¬ BadAt cfg.badFlags bm wt a b → im.get? a b = im'.get? a b)
    (hl : ims'.length = ims.length) (st : NoiseState) {k : Nat} (hk : k < ims.length) :
    epochStepNoise ext cfg draw m' iobj ⟨ims', wts, bms, segs⟩ st k = epochStepNoise ext cfg draw m iobj ⟨ims, wts, bms, segs⟩ st k := by
  unfold epochStepNoise
  dsimp only
  rw [pyGet_nat hk, pyGet_nat (show k < ims'.length by omega), Res.ok_bind, Res.ok_bind, slot_same hm]
  cases hwt : pyGet wts k with
  | error e => rfl
  | ok wt =>
    cases pyGet segs k with
    | error e => rfl
    | ok seg =>
      cases hbm : pyGet bms k with
      | error e => rfl
      | ok bm =>
        cases m.slot iobj ((k + 1 : Nat) : Int) with
        | error e => rfl
        | ok s =>
          simp only [Res.ok_bind]
          cases hs : symmetrized cfg bm wt with
          | error e => rfl
          | ok bw =>
            simp only [Res.ok_bind]
            have q1 := hi _ (List.getElem_mem hk)
            have q1' := hi' _ (List.getElem_mem (show k < ims'.length by omega))
            have q2 := hw wt (pyGet_ok hwt)
            have q3 := hb bm (pyGet_ok hbm)
            obtain ⟨sb, sw⟩ := symmetrized_square q3 q2 hs
            have e1 := pyGet_ok_nonneg hwt (by omega)
            have e2 := pyGet_ok_nonneg hbm (by omega)
            rw [Int.toNat_natCast] at e1 e2
            have hI : ∀ pos, interpNoise ext.sqrt ext.interp draw pos cfg.badFlags ims'[k] bw.1 bw.2 = interpNoise ext.sqrt ext.interp draw pos cfg.badFlags ims[k] bw.1 bw.2 := by
              intro pos
              refine interpNoise_congr ⟨sb.2.2, sw.2.2, by rw [sb.1, sw.1], by rw [sb.2.1, sw.2.1]⟩ ⟨q1'.2.2, sw.2.2, by rw [q1'.1, sw.1], by rw [q1'.2.1, sw.2.1]⟩
                ⟨q1.2.2, sw.2.2, by rw [q1.1, sw.1], by rw [q1.2.1, sw.2.1]⟩ ?_
              intro a b ha hb' hn
              exact (hu k _ _ wt bm (List.getElem?_eq_getElem hk) (List.getElem?_eq_getElem _) e1 e2 a b (by rw [← sw.1]; exact ha) (by rw [← sw.2.1]; exact hb')
                (fun hbad => hn (bad_symmetrized q3 q2 hs hbad))).symm
            unfold makeObsNoise
            rw [getJacobian_same hm]
            simp only [hI, q1.1, q1.2.1, q1'.1, q1'.2.1]

/-- **C104** (part) With outlier rejection: two files that differ in image values of unusable pixels only give the same observations, with the same noise images, whenever
the rejection leaves the same weights for both. -/
theorem C104_same_rejection_partial {ext : Ext} {cfg : Cfg} {draw : Nat → ℚ} {m m' : MEDS} {pos : Nat} {iobj : Int} {ims ims' wts bms : List (Img ℚ)} (hm : SameButImages m m')
    (h1 : m.getCutoutList iobj "image" = .ok ims) (h1' : m'.getCutoutList iobj "image" = .ok ims') (h2 : m.getCutoutList iobj "weight" = .ok wts)
    (h3 : m.getCutoutList iobj "bmask" = .ok bms) (hu : SameUsable cfg.badFlags ims ims' wts bms)
    (hr : rejected ext cfg (ims'.drop 1) (wts.drop 1) = rejected ext cfg (ims.drop 1) (wts.drop 1)) :
    getObslistNoise ext cfg draw m' pos iobj = getObslistNoise ext cfg draw m pos iobj := by
  have hl : ims'.length = ims.length := by
    obtain ⟨o, q, e⟩ := cutoutList_length (by decide) h1
    obtain ⟨o', q', e'⟩ := cutoutList_length (by decide) h1'
    rw [row_same hm, q] at q'
    injection q' with q'
    rw [e, e', q']
  obtain ⟨r1, q1, s1⟩ := cutoutList_shape (by decide) h1
  obtain ⟨r1', q1', s1'⟩ := cutoutList_shape (by decide) h1'
  obtain ⟨r2, q2, s2⟩ := cutoutList_shape (by decide) h2
  obtain ⟨r3, q3, s3⟩ := cutoutList_shape (by decide) h3
  rw [row_same hm] at q1'
  rw [q1] at q1' q2 q3
  injection q1' with q1'
  injection q2 with q2
  injection q3 with q3
  subst q1' q2 q3
  unfold getObslistNoise
  rw [cutoutList_same hm (t := "weight") (by decide) (by decide), cutoutList_same hm (t := "bmask") (by decide) (by decide), h1, h1', h2, h3]
  simp only [Res.ok_bind, hl, hr, List.length_drop, interpolateCoaddSeg_same hm]
  split
  · rfl
  · cases hw' : rejected ext cfg (ims.drop 1) (wts.drop 1) with
    | error e => rfl
    | ok wts' =>
      simp only [Res.ok_bind]
      cases mapRes (fun k : Nat => m.interpolateCoaddSeg iobj ((k + 1 : Nat) : Int)) (List.range (ims.length - 1)) with
      | error e => rfl
      | ok segs =>
        simp only [Res.ok_bind]
        have d1 : ∀ im ∈ ims.drop 1, Square r1.boxSize.toNat im := fun im hm => s1 im (List.mem_of_mem_drop hm)
        have d2 : ∀ im ∈ wts.drop 1, Square r1.boxSize.toNat im := fun im hm => s2 im (List.mem_of_mem_drop hm)
        rw [Maker.foldRes_congr_mem (g := epochStepNoise ext cfg draw m iobj ⟨ims.drop 1, wts', bms.drop 1, segs⟩)]
        intro st k hk
        rw [List.mem_range] at hk
        refine epochStep_same hm d1 (fun im hm => s1' im (List.mem_of_mem_drop hm)) (rejected_square d1 d2 hw') (fun im hm => s3 im (List.mem_of_mem_drop hm)) ?_ (by simp [hl]) st
          (by simp only [List.length_drop]; exact hk)
        intro k im im' wt' bm g1 g2 g3 g4 a b ha hb hn
        rw [List.getElem?_drop] at g1 g2 g4
        obtain ⟨wt, gw, hle⟩ := rejected_unusable d1 d2 hw' k wt' g3
        rw [List.getElem?_drop] at gw
        have sw := s2 _ (List.mem_of_getElem? gw)
        refine hu (1 + k) im im' wt bm (by omega) g1 g2 gw g4 a b (by rw [sw.1]; exact ha) (by rw [sw.2.1]; exact hb) ?_
        rintro ⟨v, w, ev, ew, hor⟩
        have sw' := rejected_square d1 d2 hw' _ (List.mem_of_getElem? g3)
        rcases hor with hor | hor
        · obtain ⟨w', ew', h0⟩ := hle a b w ew hor
          exact hn ⟨v, w', ev, ew', .inl h0⟩
        · obtain ⟨w', ew'⟩ := Img.get?_some_of_WF sw'.2.2 (show a < wt'.nr by rw [sw'.1]; exact ha) (show b < wt'.nc by rw [sw'.2.1]; exact hb)
          exact hn ⟨v, w', ev, ew', .inr hor⟩

/-- The weights after rejection do not depend on the images when nothing is rejected. -/
theorem rejected_off {ext : Ext} {cfg : Cfg} {ims wts : List (Img ℚ)} (h : cfg.rejectOutliers = false ∨ ims.length < 3) : rejected ext cfg ims wts = .ok wts := by
  unfold rejected
  rcases h with h | h
  · rw [h]
    rfl
  · rw [Reject.C33_few_images _ _ _ _ _ h]
    split <;> rfl

/-- **C104** (part) Change the image of a MEDS file only at pixels of single epochs that cannot be used, those with a weight of zero or less or a bad flag, and in the
coadd's own cutouts.  Then the coadder makes the same observations with the same noise images, and the same coadd, provided outlier rejection is off or the object has
fewer than three epochs.  (What is missing: with rejection the median includes the unusable pixels, see `C104_counterexample`.) -/
theorem C104_unusable_values_partial {ext : Ext} {cfg : Cfg} {m m' : MEDS} {iobj : Int} {ims ims' wts bms : List (Img ℚ)} (hm : SameButImages m m')
    (h1 : m.getCutoutList iobj "image" = .ok ims) (h1' : m'.getCutoutList iobj "image" = .ok ims') (h2 : m.getCutoutList iobj "weight" = .ok wts)
    (h3 : m.getCutoutList iobj "bmask" = .ok bms) (hu : SameUsable cfg.badFlags ims ims' wts bms) (hr : cfg.rejectOutliers = false ∨ ims.length < 4) :
    (∀ draw pos, getObslistNoise ext cfg draw m' pos iobj = getObslistNoise ext cfg draw m pos iobj) ∧
    ∀ psc, coaddObject ext cfg psc m' iobj = coaddObject ext cfg psc m iobj := by
  have hl : ims'.length = ims.length := by
    obtain ⟨o, q, e⟩ := cutoutList_length (by decide) h1
    obtain ⟨o', q', e'⟩ := cutoutList_length (by decide) h1'
    rw [row_same hm, q] at q'
    injection q' with q'
    rw [e, e', q']
  have key : ∀ draw pos, getObslistNoise ext cfg draw m' pos iobj = getObslistNoise ext cfg draw m pos iobj := fun draw pos => C104_same_rejection_partial hm h1 h1' h2 h3 hu (by
    rw [rejected_off (by rcases hr with hr | hr; exacts [.inl hr, .inr (by simp; omega)]), rejected_off (by rcases hr with hr | hr; exacts [.inl hr, .inr (by simp; omega)])])
  refine ⟨key, fun psc => ?_⟩
  have hobs : getObslist ext cfg m' iobj = getObslist ext cfg m iobj := by
    rw [← C84_data_unaffected ext cfg (fun _ => 0) m' 0 iobj, ← C84_data_unaffected ext cfg (fun _ => 0) m 0 iobj, key]
  unfold coaddObject targetJacobian getCoaddObs
  rw [hm.cat, hobs]
  simp only [interpolateImage_same hm]

/-! ### Concrete cases -/

/-- Coadd and three epochs; in the third, pixel (3, 3) is flagged and has the value `x`. -/
def maskedImages (x : ℚ) : List SrcImage :=
  let third := Ex.srcMask 0 210 (fun i j => if i = 3 ∧ j = 3 then 1 else 0)
  [Ex.srcMask 0 100 (fun _ _ => 0), Ex.srcMask 0 200 (fun _ _ => 0), Ex.srcMask 0 220 (fun _ _ => 0),
   { third with plane := fun t => if t = "image" then some (some (Img.ofFn 8 8 (fun i j => if i = 3 ∧ j = 3 then x else 210 + 10 * i + j))) else third.plane t }]

/-- The file made of them. -/
def maskedMed (x : ℚ) : MEDS :=
  match Ex.run Ex.cfg [Ex.obj 10 4 5 5] (maskedImages x) (some [Ex.psf 0, Ex.psf 1, Ex.psf 1, Ex.psf 1]) with
  | .ok r =>
    match MEDS.openFile r.2 with
    | .ok m => m
    | .error _ => ⟨⟨[]⟩, ⟨⟨false, .absent, .absent⟩, []⟩, [], ""⟩
  | .error _ => ⟨⟨[]⟩, ⟨⟨false, .absent, .absent⟩, []⟩, [], ""⟩

/-- A check of one pixel. -/
def badHere (flags : Option Int) : Option ℚ → Option ℚ → Bool
  | some v, some w => decide (w ≤ 0) || flagged flags v
  | _, _ => false

/-- A check of the hypotheses on concrete lists. -/
def checkUsable (flags : Option Int) (ims ims' wts bms : List (Img ℚ)) : Bool :=
  (List.range ims.length).all (fun k =>
    match ims[k]?, ims'[k]?, wts[k]?, bms[k]? with
    | some im, some im', some wt, some bm =>
      decide (k = 0) || (List.range wt.nr).all (fun a => (List.range wt.nc).all (fun b => badHere flags (bm.get? a b) (wt.get? a b) || im.get? a b == im'.get? a b))
    | _, _, _, _ => true)

theorem sameUsable_of_check {flags : Option Int} {ims ims' wts bms : List (Img ℚ)} (h : checkUsable flags ims ims' wts bms = true) : SameUsable flags ims ims' wts bms := by
  intro k im im' wt bm hk e1 e2 e3 e4 a b ha hb hn
  unfold checkUsable at h
  have := List.all_eq_true.mp h k (List.mem_range.mpr (List.getElem?_eq_some_iff.mp e1).1)
  rw [e1, e2, e3, e4] at this
  simp only [Bool.or_eq_true, decide_eq_true_eq, List.all_eq_true, List.mem_range, beq_iff_eq] at this
  rcases this with h0 | h0
  · omega
  · rcases h0 a ha b hb with h1 | h1
    · exfalso
      refine hn ?_
      cases ev : bm.get? a b with
      | none => rw [ev] at h1; simp [badHere] at h1
      | some v =>
        cases ew : wt.get? a b with
        | none => rw [ev, ew] at h1; simp [badHere] at h1
        | some w =>
          rw [ev, ew] at h1
          simp only [badHere, Bool.or_eq_true, decide_eq_true_eq, flagged_iff] at h1
          exact ⟨v, w, ev, ew, h1⟩
    · exact h1

theorem lookup_filter (n : String) (hn : n ≠ "image_cutouts") : ∀ l : List (String × Hdu), Fits.lookup (l.filter (fun x => x.1 ≠ "image_cutouts")) n = Fits.lookup l n
  | [] => rfl
  | (a, h) :: t => by
    by_cases ha : a = "image_cutouts"
    · rw [List.filter_cons_of_neg (by simp [ha]), lookup_filter n hn t]
      show _ = if a = n then some h else Fits.lookup t n
      rw [if_neg (fun e : a = n => hn (by rw [← e, ha]))]
    · rw [List.filter_cons_of_pos (by simp [ha])]
      show (if a = n then some h else Fits.lookup _ n) = if a = n then some h else Fits.lookup t n
      rw [lookup_filter n hn t]

theorem sameButImages_of {m m' : MEDS} (h1 : m'.cat = m.cat)
    (h2 : m'.fits.hdus.filter (fun x => x.1 ≠ "image_cutouts") = m.fits.hdus.filter (fun x => x.1 ≠ "image_cutouts")) : SameButImages m m' :=
  ⟨h1, fun n hn => by unfold Fits.find; rw [← lookup_filter n hn, h2, lookup_filter n hn]⟩

/-- A coadder's external parts with the rejection at 15 sigma. -/
def maskedExt : Ext := ⟨fun x => x, 30, 0, fun f r c => .ok ⟨1, 1, [f + r + c]⟩, fun l p => p.1 + p.2 + l.length⟩

/-- The two files meet the hypotheses. -/
theorem masked_same : SameButImages (maskedMed 243) (maskedMed 400) ∧ ∃ ims ims' wts bms, (maskedMed 243).getCutoutList 0 "image" = .ok ims ∧
    (maskedMed 400).getCutoutList 0 "image" = .ok ims' ∧ (maskedMed 243).getCutoutList 0 "weight" = .ok wts ∧ (maskedMed 243).getCutoutList 0 "bmask" = .ok bms ∧
    SameUsable (some 1) ims ims' wts bms ∧ ims ≠ ims' := by
  refine ⟨sameButImages_of (by decide +kernel) (by decide +kernel), ?_⟩
  have h : (match (maskedMed 243).getCutoutList 0 "image", (maskedMed 400).getCutoutList 0 "image", (maskedMed 243).getCutoutList 0 "weight",
      (maskedMed 243).getCutoutList 0 "bmask" with
    | .ok a, .ok a', .ok b, .ok c => checkUsable (some 1) a a' b c && decide (a ≠ a')
    | _, _, _, _ => false) = true := by decide +kernel
  split at h
  · rename_i a a' b c e1 e2 e3 e4
    rw [Bool.and_eq_true, decide_eq_true_eq] at h
    exact ⟨a, a', b, c, e1, e2, e3, e4, sameUsable_of_check h.1, h.2⟩
  · cases h

-- without rejection the coadds are equal, and all three epochs are used
example : coaddObject maskedExt Ex.coaddCfg Ex.psc (maskedMed 400) 0 = coaddObject maskedExt Ex.coaddCfg Ex.psc (maskedMed 243) 0 := by
  obtain ⟨hm, ims, ims', wts, bms, h1, h2, h3, h4, h5, _⟩ := masked_same
  exact (C104_unusable_values_partial hm h1 h2 h3 h4 h5 (.inl rfl)).2 Ex.psc

example : (match coaddObject maskedExt Ex.coaddCfg Ex.psc (maskedMed 400) 0 with
    | .ok (some o, 0) => decide (o.ncoadd = 3)
    | _ => false) = true := by decide +kernel

-- with rejection, a small change of the flagged pixel leaves the same weights (243 and 245), a large one does not (243 and 400)
example : (match (maskedMed 243).getCutoutList 0 "image", (maskedMed 245).getCutoutList 0 "image", (maskedMed 243).getCutoutList 0 "weight",
      (maskedMed 243).getCutoutList 0 "bmask" with
    | .ok a, .ok a', .ok b, .ok c => checkUsable (some 1) a a' b c && decide (a ≠ a') &&
        (match rejected maskedExt { Ex.coaddCfg with rejectOutliers := true } (a'.drop 1) (b.drop 1), rejected maskedExt { Ex.coaddCfg with rejectOutliers := true } (a.drop 1) (b.drop 1) with
         | .ok x, .ok y => decide (x.map (·.flat) = y.map (·.flat))
         | _, _ => false)
    | _, _, _, _ => false) = true := by decide +kernel

/-- **C104** is false with outlier rejection: the value of a flagged pixel of the third epoch decides whether the same pixel of the first epoch is rejected, so the first
epoch goes into the coadd with another value. -/
theorem C104_counterexample : ∃ (ext : Ext) (cfg : Cfg) (m m' : MEDS) (ims ims' wts bms : List (Img ℚ)) (o o' : Obs) (os os' : List Obs) (fl : Option (List Int)),
    SameButImages m m' ∧ m.getCutoutList 0 "image" = .ok ims ∧ m'.getCutoutList 0 "image" = .ok ims' ∧ m.getCutoutList 0 "weight" = .ok wts ∧
      m.getCutoutList 0 "bmask" = .ok bms ∧ SameUsable cfg.badFlags ims ims' wts bms ∧ cfg.rejectOutliers = true ∧ getObslist ext cfg m 0 = .ok (o :: os, fl) ∧
      getObslist ext cfg m' 0 = .ok (o' :: os', fl) ∧ o.icut = 1 ∧ o'.icut = 1 ∧ o.ninterp = 0 ∧ o'.ninterp = 1 ∧ o.image ≠ o'.image := by
  obtain ⟨hm, ims, ims', wts, bms, h1, h2, h3, h4, h5, _⟩ := masked_same
  have h : (match getObslist maskedExt { Ex.coaddCfg with rejectOutliers := true } (maskedMed 243) 0, getObslist maskedExt { Ex.coaddCfg with rejectOutliers := true } (maskedMed 400) 0 with
    | .ok (o :: _, fl), .ok (o' :: _, fl') => decide (fl' = fl ∧ o.icut = 1 ∧ o'.icut = 1 ∧ o.ninterp = 0 ∧ o'.ninterp = 1 ∧ o.image ≠ o'.image)
    | _, _ => false) = true := by decide +kernel
  split at h
  · rename_i o os fl o' os' fl' e1 e2
    obtain ⟨rfl, hh⟩ := of_decide_eq_true h
    exact ⟨maskedExt, { Ex.coaddCfg with rejectOutliers := true }, _, _, ims, ims', wts, bms, o, o', os, os', _, hm, h1, h2, h3, h4, h5, rfl, e1, e2, hh⟩
  · cases h

end Meds.Coadd
