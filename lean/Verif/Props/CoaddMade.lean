import Verif.Props.CoaddEpochs
import Verif.Props.CoaddMask
import Verif.Props.CoaddObs

/-!
# What an epoch hands to the coadding code (C75), and the central region test as a whole (C57)
-/

namespace Meds.Coadd
open Spec

/-! ### The central region test (C57) -/

/-- **C57** (part) For a region not larger than the (square) stamp: an epoch with an unusable pixel within `(size - 1) / 2` of the centre is rejected, and
one is rejected only for an unusable pixel within `(size + 1) / 2` of it. -/
theorem C57_test_partial {cfg : Cfg} {bm wt : Img ℚ} (hs : SameShape bm wt) (hsq : wt.nr = wt.nc) (hc : cfg.centralCheck = true) (h0 : 0 ≤ cfg.centralSize)
    (hn : cfg.centralSize ≤ wt.nr) :
    ((∃ i j : Nat, |(i : ℚ) - ((wt.nr : ℚ) - 1) / 2| ≤ (cfg.centralSize - 1) / 2 ∧ |(j : ℚ) - ((wt.nr : ℚ) - 1) / 2| ≤ (cfg.centralSize - 1) / 2 ∧
        BadAt cfg.badFlags bm wt i j) → centralMasked cfg bm wt = true) ∧
    (centralMasked cfg bm wt = true →
      ∃ i j : Nat, |(i : ℚ) - ((wt.nr : ℚ) - 1) / 2| ≤ (cfg.centralSize + 1) / 2 ∧ |(j : ℚ) - ((wt.nr : ℚ) - 1) / 2| ≤ (cfg.centralSize + 1) / 2 ∧
        BadAt cfg.badFlags bm wt i j) := by
  constructor
  · rintro ⟨i, j, hi, hj, hb⟩
    obtain ⟨_, _, _, hw, _⟩ := id hb
    obtain ⟨l1, l2⟩ := Img.get?_lt hw
    rw [← hsq] at l2
    exact (centralMasked_iff hs hsq hc).mpr ⟨i, j, l1, l2, (C57_central_partial h0 hn l1).1 hi, (C57_central_partial h0 hn l2).1 hj, hb⟩
  · intro h
    obtain ⟨i, j, l1, l2, c1, c2, hb⟩ := (centralMasked_iff hs hsq hc).mp h
    exact ⟨i, j, (C57_central_partial h0 hn l1).2 c1, (C57_central_partial h0 hn l2).2 c2, hb⟩

example : centralMasked ⟨false, false, 1, true, 2, true, none, none⟩ (Img.ofFn 6 6 (fun _ _ => 0)) (Img.ofFn 6 6 (fun i j => if i = 2 ∧ j = 3 then 0 else 1)) = true ∧
    centralMasked ⟨false, false, 1, true, 2, true, none, none⟩ (Img.ofFn 6 6 (fun _ _ => 0)) (Img.ofFn 6 6 (fun i j => if i = 1 ∧ j = 3 then 0 else 1)) = false := by
  decide +kernel

/-! ### The observations (C75) -/

/-- The shape of the images of a list of cutouts. -/
theorem cutoutList_shape {m : MEDS} {iobj : Int} {t : String} (ht : t ≠ "psf") {l : List (Img ℚ)} (h : m.getCutoutList iobj t = .ok l) :
    ∃ o, m.row iobj = .ok o ∧ ∀ im ∈ l, im.nr = o.boxSize.toNat ∧ im.nc = o.boxSize.toNat ∧ im.WF := by
  unfold MEDS.getCutoutList at h
  rw [if_neg ht] at h
  obtain ⟨mo, hm, h⟩ := Res.bind_eq_ok.mp h
  unfold MEDS.getMosaic at hm
  obtain ⟨_, _, hm⟩ := Res.bind_eq_ok.mp hm
  obtain ⟨o, ho, hm⟩ := Res.bind_eq_ok.mp hm
  obtain ⟨_, _, hm⟩ := Res.bind_eq_ok.mp hm
  obtain ⟨_, _, hm⟩ := Res.bind_eq_ok.mp hm
  obtain ⟨fl, _, hm⟩ := Res.bind_eq_ok.mp hm
  obtain ⟨q1, q2, q3, q4⟩ := reshape_ok hm
  refine ⟨o, ho, ?_⟩
  have hnc : mo.nc = o.boxSize.toNat := by rw [q4]
  have hwf : mo.flat.length = mo.nr * mo.nc := by
    rw [q4]
    simp only
    rw [← Int.natCast_inj, q3, Int.natCast_mul, Int.toNat_of_nonneg q1, Int.toNat_of_nonneg q2]
  unfold splitMosaic at h
  simp only at h
  split at h
  · cases h
  · rename_i hb
    injection h with h
    subst h
    intro im him
    obtain ⟨i, hi, rfl⟩ := List.mem_map.mp him
    have hi := List.mem_range.mp hi
    have hle : (i + 1) * mo.nc ≤ mo.nr := le_trans (Nat.mul_le_mul_right _ hi) (Nat.div_mul_le_self _ _)
    have hmin : min ((i + 1) * mo.nc) mo.nr = (i + 1) * mo.nc := by omega
    have hsub : (i + 1) * mo.nc - i * mo.nc = mo.nc := by rw [Nat.add_mul]; omega
    refine ⟨?_, hnc, ?_⟩
    · unfold Img.rowSlice
      simp only [hmin, hsub]
      exact hnc
    · unfold Img.WF Img.rowSlice
      simp only [hmin, hsub]
      rw [List.length_drop, List.length_take, hwf, Nat.min_eq_left (Nat.mul_le_mul_right _ hle), ← Nat.sub_mul, hsub]

/-- **C75** Everything in an observation belongs to its own epoch: the planes it was made from, the jacobian, the offset from the centre of the stamp, the seg
map and the PSF, which is asked for at that epoch's file and position.  (`wts'` are the weights after outlier rejection, which counts from epoch 1;
`bw` the mask and weight after symmetrizing, when configured.) -/
theorem C75_own_epoch {ext : Ext} {cfg : Cfg} {m : MEDS} {iobj : Int} {obs : List Obs} {flags : List Int}
    (h : getObslist ext cfg m iobj = .ok (obs, some flags)) {o : Obs} (ho : o ∈ obs) :
    ∃ ims wts bms wts' im wt bm bw s, m.getCutoutList iobj "image" = .ok ims ∧ m.getCutoutList iobj "weight" = .ok wts ∧ m.getCutoutList iobj "bmask" = .ok bms ∧
      rejected ext cfg (ims.drop 1) (wts.drop 1) = .ok wts' ∧ 1 ≤ o.icut ∧ ims[o.icut]? = some im ∧ wts'[o.icut - 1]? = some wt ∧ bms[o.icut]? = some bm ∧
      symmetrized cfg bm wt = .ok bw ∧ o.bmask = bw.1 ∧ interpBadPixels ext.interp cfg.badFlags im bw.1 bw.2 = .ok (o.image, o.weight, o.ninterp) ∧
      m.interpolateCoaddSeg iobj (o.icut : Int) = .ok o.seg ∧ m.getJacobian iobj (o.icut : Int) = .ok o.jac ∧
      o.rowOffset = o.jac.row0 - ((im.nr : ℚ) - 1) / 2 ∧ o.colOffset = o.jac.col0 - ((im.nc : ℚ) - 1) / 2 ∧
      m.slot iobj (o.icut : Int) = .ok s ∧ ext.psfObs s.fileId s.origRow s.origCol = .ok o.psf := by
  unfold getObslist at h
  obtain ⟨ims, h1, h⟩ := Res.bind_eq_ok.mp h
  split at h
  · injection h with h; injection h with _ h; cases h
  · obtain ⟨wts, h2, h⟩ := Res.bind_eq_ok.mp h
    obtain ⟨bms, h3, h⟩ := Res.bind_eq_ok.mp h
    obtain ⟨wts', h4, h⟩ := Res.bind_eq_ok.mp h
    dsimp only at h
    obtain ⟨segs, h5, h⟩ := Res.bind_eq_ok.mp h
    obtain ⟨st, h6, h⟩ := Res.bind_eq_ok.mp h
    injection h with h
    injection h with e1 e2
    subst e1
    have key : ∀ o ∈ st.obs, ∃ i im wt bm seg bw s, o.icut = i + 1 ∧ (ims.drop 1)[i]? = some im ∧ wts'[i]? = some wt ∧ segs[i]? = some seg ∧
        (bms.drop 1)[i]? = some bm ∧ m.slot iobj ((i + 1 : Nat) : Int) = .ok s ∧ symmetrized cfg bm wt = .ok bw ∧
        makeObs ext cfg m iobj i s im bw.1 bw.2 seg = .ok o := by
      refine foldRes_inv (P := fun st : EpochState => ∀ o ∈ st.obs, ∃ i im wt bm seg bw s, o.icut = i + 1 ∧ (ims.drop 1)[i]? = some im ∧ wts'[i]? = some wt ∧
        segs[i]? = some seg ∧ (bms.drop 1)[i]? = some bm ∧ m.slot iobj ((i + 1 : Nat) : Int) = .ok s ∧ symmetrized cfg bm wt = .ok bw ∧
        makeObs ext cfg m iobj i s im bw.1 bw.2 seg = .ok o) (by simp) ?_ h6
      intro t t' k _ hP hstep
      unfold epochStep at hstep
      obtain ⟨im, g1, hstep⟩ := Res.bind_eq_ok.mp hstep
      obtain ⟨wt, g2, hstep⟩ := Res.bind_eq_ok.mp hstep
      obtain ⟨seg, g3, hstep⟩ := Res.bind_eq_ok.mp hstep
      obtain ⟨bm, g4, hstep⟩ := Res.bind_eq_ok.mp hstep
      obtain ⟨s, g5, hstep⟩ := Res.bind_eq_ok.mp hstep
      obtain ⟨bw, g6, hstep⟩ := Res.bind_eq_ok.mp hstep
      obtain ⟨f, g7, hstep⟩ := Res.bind_eq_ok.mp hstep
      split at hstep
      · injection hstep with hstep
        subst hstep
        exact hP
      · obtain ⟨o, g8, hstep⟩ := Res.bind_eq_ok.mp hstep
        injection hstep with hstep
        subst hstep
        intro o' ho'
        rcases List.mem_append.mp ho' with ho' | ho'
        · exact hP o' ho'
        · rw [List.mem_singleton] at ho'
          subst ho'
          refine ⟨k, im, wt, bm, seg, bw, s, ?_, pyGet_ok_nonneg g1 (by omega), pyGet_ok_nonneg g2 (by omega), pyGet_ok_nonneg g3 (by omega),
            pyGet_ok_nonneg g4 (by omega), g5, g6, g8⟩
          unfold makeObs at g8
          obtain ⟨_, _, g8⟩ := Res.bind_eq_ok.mp g8
          obtain ⟨_, _, g8⟩ := Res.bind_eq_ok.mp g8
          obtain ⟨_, _, g8⟩ := Res.bind_eq_ok.mp g8
          injection g8 with g8
          rw [← g8]
    obtain ⟨i, im, wt, bm, seg, bw, s, hic, k1, k2, k3, k4, k5, k6, k7⟩ := key o ho
    unfold makeObs at k7
    obtain ⟨jac, j1, k7⟩ := Res.bind_eq_ok.mp k7
    obtain ⟨psf, j2, k7⟩ := Res.bind_eq_ok.mp k7
    obtain ⟨r, j3, k7⟩ := Res.bind_eq_ok.mp k7
    injection k7 with k7
    rw [List.getElem?_drop, Nat.add_comm] at k1 k4
    have hseg : m.interpolateCoaddSeg iobj ((i + 1 : Nat) : Int) = .ok seg := by
      have hlt := (List.getElem?_eq_some_iff.mp k3).1
      have hlen := mapRes_length h5
      rw [List.length_range] at hlen
      obtain ⟨y, y1, y2⟩ := mapRes_getElem? h5 (List.getElem?_range (by omega : i < _))
      rw [k3] at y1
      injection y1 with y1
      rw [y1]
      exact y2
    refine ⟨ims, wts, bms, wts', im, wt, bm, bw, s, h1, h2, h3, h4, by omega, by rw [hic]; exact k1, by rw [hic]; exact k2, by rw [hic]; exact k4, k6, ?_, ?_, ?_, ?_, ?_, ?_,
      by rw [hic]; exact k5, ?_⟩
    all_goals subst k7
    · rfl
    · exact j3
    · exact hseg
    · exact j1
    · rfl
    · rfl
    · exact j2

/-- **C75** Without outlier rejection and symmetrizing: mask and usable pixels, with their weights, are handed over as they are in the file. -/
theorem C75_good_pixels {ext : Ext} {cfg : Cfg} (hrej : cfg.rejectOutliers = false) (hsym : cfg.symmetrizeMask = false) {m : MEDS} {iobj : Int} {obs : List Obs}
    {flags : List Int} (h : getObslist ext cfg m iobj = .ok (obs, some flags)) {o : Obs} (ho : o ∈ obs) :
    ∃ ims wts bms im wt, m.getCutoutList iobj "image" = .ok ims ∧ m.getCutoutList iobj "weight" = .ok wts ∧ m.getCutoutList iobj "bmask" = .ok bms ∧
      ims[o.icut]? = some im ∧ wts[o.icut]? = some wt ∧ bms[o.icut]? = some o.bmask ∧
      ∀ a b v w k, im.get? a b = some v → wt.get? a b = some w → o.bmask.get? a b = some k → 0 < w → ¬ HasFlag cfg.badFlags k →
        o.image.get? a b = some v ∧ o.weight.get? a b = some w := by
  obtain ⟨ims, wts, bms, wts', im, wt, bm, bw, s, h1, h2, h3, h4, h5, h6, h7, h8, h9, h10, h11, _⟩ := C75_own_epoch h ho
  unfold rejected at h4
  rw [hrej] at h4
  simp only [Bool.false_eq_true, if_false, Except.ok.injEq] at h4
  subst h4
  unfold symmetrized at h9
  rw [hsym] at h9
  simp only [Bool.false_eq_true, if_false, Except.ok.injEq] at h9
  subst h9
  rw [List.getElem?_drop, show 1 + (o.icut - 1) = o.icut by omega] at h7
  simp only at h10 h11
  subst h10
  refine ⟨ims, wts, bms, im, wt, h1, h2, h3, h6, h7, h8, ?_⟩
  intro a b v w k ha hb hk hw hnf
  obtain ⟨r1, e1, s1⟩ := cutoutList_shape (by decide) h1
  obtain ⟨r2, e2, s2⟩ := cutoutList_shape (by decide) h2
  obtain ⟨r3, e3, s3⟩ := cutoutList_shape (by decide) h3
  rw [e1] at e2 e3
  injection e2 with e2
  injection e3 with e3
  subst e2 e3
  have t1 := s1 _ (List.mem_of_getElem? h6)
  have t2 := s2 _ (List.mem_of_getElem? h7)
  have t3 := s3 _ (List.mem_of_getElem? h8)
  have hs : SameShape o.bmask wt := ⟨t3.2.2, t2.2.2, by rw [t3.1, t2.1], by rw [t3.2.1, t2.2.1]⟩
  have him : SameShape im wt := ⟨t1.2.2, t2.2.2, by rw [t1.1, t2.1], by rw [t1.2.1, t2.2.1]⟩
  obtain ⟨l1, l2⟩ := Img.get?_lt hb
  have hng : ¬ BadAt cfg.badFlags o.bmask wt a b := by
    rintro ⟨k', w', x1, x2, x3⟩
    rw [hk] at x1
    rw [hb] at x2
    injection x1 with x1
    injection x2 with x2
    subst x1 x2
    rcases x3 with x3 | x3
    · linarith
    · exact hnf x3
  obtain ⟨im', wt', n, y1, _, _, _, y2, _⟩ := C59_interpolated (interp := ext.interp) hs him ⟨a, b, l1, l2, hng⟩
  rw [h11] at y1
  injection y1 with y1
  injection y1 with y1 y3
  injection y3 with y3 _
  rw [y1, y3, (y2 a b l1 l2 hng).1, (y2 a b l1 l2 hng).2]
  exact ⟨ha, hb⟩

-- the second observation of the example is epoch 3 of the object: its offset, PSF and weights
example : (match getObslist Ex.coaddExt Ex.coaddCfg Ex.coaddMed 0, Ex.coaddMed.getJacobian 0 3, Ex.coaddMed.slot 0 3 with
    | .ok r, .ok j, .ok s => decide ((r.1.map (fun o => (o.icut, o.rowOffset, o.psf.flat)))[1]? = some (3, j.row0 - 3 / 2, [s.fileId + s.origRow + s.origCol]))
    | _, _, _ => false) = true := by decide +kernel

end Meds.Coadd
