import Verif.Model.Noise
import Verif.Props.CoaddMade

/-!
# Noise images of a coadder (C84, C85)
-/

namespace Meds.Spec
open Coadd

/-- Pixels of all stamps of a list. -/
def stampSizes (l : List (Obs × Img ℚ)) : Nat := (l.map (fun o => o.1.weight.nr * o.1.weight.nc)).sum

/-- `nz` is noise for the observation `o`, made with the deviates `draw p`, `draw (p + 1)`, ..., one for each pixel, row by row.  `wt` is the weight map before its
bad pixels were replaced; at those the noise is interpolated, like the image, with the other pixels of `raw`. -/
def NoiseOf (sqrt : ℚ → ℚ) (interp : Interp) (flags : Option Int) (draw : Nat → ℚ) (p : Nat) (wt : Img ℚ) (o : Obs) (nz : Img ℚ) : Prop :=
  SameShape nz o.weight ∧ SameShape wt o.weight ∧ ∃ raw : Img ℚ, SameShape raw o.weight ∧ ∃ pts, GoodPoints flags o.bmask wt raw pts ∧
    ∀ i j, i < wt.nr → j < wt.nc → ∃ w, o.weight.get? i j = some w ∧ 0 < w ∧ raw.get? i j = some (draw (p + (i * wt.nc + j)) * sqrt (1 / w)) ∧
      (¬ BadAt flags o.bmask wt i j → wt.get? i j = some w ∧ nz.get? i j = raw.get? i j) ∧
      (BadAt flags o.bmask wt i j → nz.get? i j = some (interp pts (i, j)))

end Meds.Spec

namespace Meds.Coadd
open Spec

/-! ### The observations do not depend on the generator -/

theorem interpNoise_eq {sqrt : ℚ → ℚ} {interp : Interp} {draw : Nat → ℚ} {pos : Nat} {flags : Option Int} {im bm wt : Img ℚ} :
    (interpNoise sqrt interp draw pos flags im bm wt).map (fun r => (r.image, r.weight, r.ninterp)) = interpBadPixels interp flags im bm wt := by
  unfold interpNoise interpBadPixels
  simp only
  split
  · rfl
  · split
    · rfl
    · rfl

theorem makeObsNoise_eq {ext : Ext} {cfg : Cfg} {draw : Nat → ℚ} {m : MEDS} {iobj : Int} {pos i : Nat} {s : Slot} {im bm wt seg : Img ℚ} :
    (makeObsNoise ext cfg draw m iobj pos i s im bm wt seg).map (·.1) = makeObs ext cfg m iobj i s im bm wt seg := by
  unfold makeObsNoise makeObs
  cases m.getJacobian iobj ((i + 1 : Nat) : Int) with
  | error e => rfl
  | ok jac =>
    simp only [Res.ok_bind]
    cases ext.psfObs s.fileId s.origRow s.origCol with
    | error e => rfl
    | ok psf =>
      simp only [Res.ok_bind]
      rw [← interpNoise_eq (sqrt := ext.sqrt) (draw := draw) (pos := pos)]
      cases interpNoise ext.sqrt ext.interp draw pos cfg.badFlags im bm wt with
      | error e => rfl
      | ok r => rfl

/-- The loop's variables without the generator. -/
def NoiseState.erase (st : NoiseState) : EpochState := ⟨st.obs.map (·.1), st.flags⟩

theorem epochStepNoise_eq {ext : Ext} {cfg : Cfg} {draw : Nat → ℚ} {m : MEDS} {iobj : Int} {ls : Lists} (st : NoiseState) (i : Nat) :
    (epochStepNoise ext cfg draw m iobj ls st i).map NoiseState.erase = epochStep ext cfg m iobj ls st.erase i := by
  unfold epochStepNoise epochStep
  cases pyGet ls.ims i with
  | error e => rfl
  | ok im =>
  cases pyGet ls.wts i with
  | error e => rfl
  | ok wt =>
  cases pyGet ls.segs i with
  | error e => rfl
  | ok seg =>
  cases pyGet ls.bms i with
  | error e => rfl
  | ok bm =>
  cases m.slot iobj ((i + 1 : Nat) : Int) with
  | error e => rfl
  | ok s =>
  simp only [Res.ok_bind]
  cases symmetrized cfg bm wt with
  | error e => rfl
  | ok bw =>
  simp only [Res.ok_bind]
  cases epochFlag cfg bw.1 bw.2 with
  | error e => rfl
  | ok f =>
  simp only [Res.ok_bind]
  split
  · rfl
  · rw [← makeObsNoise_eq (draw := draw) (pos := st.pos)]
    cases makeObsNoise ext cfg draw m iobj st.pos i s im bw.1 bw.2 seg with
    | error e => rfl
    | ok o =>
      show Except.ok _ = Except.ok _
      simp [NoiseState.erase]

theorem foldNoise_eq {ext : Ext} {cfg : Cfg} {draw : Nat → ℚ} {m : MEDS} {iobj : Int} {ls : Lists} (l : List Nat) (st : NoiseState) :
    (foldRes (epochStepNoise ext cfg draw m iobj ls) st l).map NoiseState.erase = foldRes (epochStep ext cfg m iobj ls) st.erase l := by
  induction l generalizing st with
  | nil => rfl
  | cons x xs ih =>
    simp only [foldRes]
    rw [← epochStepNoise_eq (draw := draw)]
    cases epochStepNoise ext cfg draw m iobj ls st x with
    | error e => rfl
    | ok t => exact ih t

/-- **C84** Images, weights, masks and flags of the observations do not depend on the generator, nor on what was drawn before: they are those of the coadder
without noise. -/
theorem C84_data_unaffected (ext : Ext) (cfg : Cfg) (draw : Nat → ℚ) (m : MEDS) (pos : Nat) (iobj : Int) :
    (getObslistNoise ext cfg draw m pos iobj).map (fun r => (r.1.map Prod.fst, r.2.1)) = getObslist ext cfg m iobj := by
  unfold getObslistNoise getObslist
  cases m.getCutoutList iobj "image" with
  | error e => rfl
  | ok ims =>
  simp only [Res.ok_bind]
  split
  · rfl
  cases m.getCutoutList iobj "weight" with
  | error e => rfl
  | ok wts =>
  cases m.getCutoutList iobj "bmask" with
  | error e => rfl
  | ok bms =>
  simp only [Res.ok_bind]
  cases rejected ext cfg (ims.drop 1) (wts.drop 1) with
  | error e => rfl
  | ok wts' =>
  simp only [Res.ok_bind]
  cases mapRes (fun k : Nat => m.interpolateCoaddSeg iobj ((k + 1 : Nat) : Int)) (List.range (ims.drop 1).length) with
  | error e => rfl
  | ok segs =>
  simp only [Res.ok_bind]
  have := foldNoise_eq (ext := ext) (cfg := cfg) (draw := draw) (m := m) (iobj := iobj) (ls := ⟨ims.drop 1, wts', bms.drop 1, segs⟩) (List.range (ims.drop 1).length)
    ⟨[], List.replicate (ims.drop 1).length 0, pos⟩
  rw [show NoiseState.erase ⟨[], List.replicate (ims.drop 1).length 0, pos⟩ = ⟨[], List.replicate (ims.drop 1).length 0⟩ from rfl] at this
  rw [← this]
  cases foldRes (epochStepNoise ext cfg draw m iobj ⟨ims.drop 1, wts', bms.drop 1, segs⟩) ⟨[], List.replicate (ims.drop 1).length 0, pos⟩
      (List.range (ims.drop 1).length) with
  | error e => rfl
  | ok st => rfl

/-! ### Shapes -/

theorem rejected_square {ext : Ext} {cfg : Cfg} {ims wts wts' : List (Img ℚ)} {b : Nat} (hi : ∀ im ∈ ims, Square b im) (hw : ∀ wt ∈ wts, Square b wt)
    (h : rejected ext cfg ims wts = .ok wts') : ∀ wt ∈ wts', Square b wt := by
  unfold rejected at h
  split at h
  · obtain ⟨r, h1, h⟩ := Res.bind_eq_ok.mp h
    injection h with h
    subst h
    unfold Reject.rejectOutliers at h1
    split at h1
    · injection h1 with h1
      subst h1
      exact hw
    · cases ims with
      | nil => cases h1
      | cons im0 rest =>
        simp only at h1
        split at h1
        · cases h1
        · have h0 := hi im0 (by simp)
          refine (foldRes_inv (P := fun st : Reject.Rejected ℚ => (∀ im ∈ st.ims, Square b im) ∧ ∀ wt ∈ st.wts, Square b wt) ⟨hi, hw⟩ ?_ h1).2
          intro t t' k _ hP hstep
          unfold Reject.step at hstep
          obtain ⟨im, g1, hstep⟩ := Res.bind_eq_ok.mp hstep
          obtain ⟨wt, g2, hstep⟩ := Res.bind_eq_ok.mp hstep
          dsimp only at hstep
          split at hstep
          · cases hstep
          · injection hstep with hstep
            subst hstep
            refine ⟨hP.1, ?_⟩
            intro w' hw'
            rcases List.mem_or_eq_of_mem_set hw' with hw' | rfl
            · exact hP.2 w' hw'
            · have s1 := hP.1 im (pyGet_ok g1)
              have s2 := hP.2 wt (pyGet_ok g2)
              refine ⟨s1.1, s1.2.1, ?_⟩
              have e1 : im.flat.length = b * b := by rw [s1.2.2, s1.1, s1.2.1]
              have e2 : wt.flat.length = b * b := by rw [s2.2.2, s2.1, s2.2.1]
              have e3 : (Reject.medianImage (im0.nr, im0.nc) (im0 :: rest)).flat.length = b * b := by
                rw [show (Reject.medianImage (im0.nr, im0.nc) (im0 :: rest)).flat.length = im0.nr * im0.nc from Img.ofFn_WF _ _ _, h0.1, h0.2.1]
              simp [Img.WF, Reject.outlier, Img.zipWith, Img.map, e1, e2, e3, s1.1, s1.2.1]
  · injection h with h
    subst h
    exact hw

theorem symmetrized_square {cfg : Cfg} {bm wt : Img ℚ} {bw : Img ℚ × Img ℚ} {b : Nat} (hb : Square b bm) (hw : Square b wt) (h : symmetrized cfg bm wt = .ok bw) :
    Square b bw.1 ∧ Square b bw.2 := by
  unfold symmetrized at h
  split at h
  · obtain ⟨w, h1, h⟩ := Res.bind_eq_ok.mp h
    obtain ⟨b1, h2, h⟩ := Res.bind_eq_ok.mp h
    injection h with h
    subst h
    obtain ⟨q1, q2, q3, _⟩ := symmetrizeWeight_get? hw.1 hw.2.1 hw.2.2 h1
    refine ⟨?_, q1, q2, q3⟩
    cases hf : cfg.badFlags with
    | none =>
      rw [hf] at h2
      unfold symmetrizeBmask at h2
      injection h2 with h2
      rw [← h2]
      exact hb
    | some f =>
      rw [hf] at h2
      obtain ⟨b2, q3, s1, s2, s3, _⟩ := C47_bmask_partial (f := f) hb.1 hb.2.1 hb.2.2
      rw [h2] at q3
      injection q3 with q3
      subst q3
      exact ⟨s1, s2, s3⟩
  · injection h with h
    subst h
    exact ⟨hb, hw⟩

/-! ### One stamp -/

theorem badPixels_flat_iff {flags : Option Int} {bm wt : Img ℚ} (hs : SameShape bm wt) {i j : Nat} (hi : i < wt.nr) (hj : j < wt.nc) :
    ∃ v, (badPixels flags bm wt).flat[i * wt.nc + j]? = some v ∧ (v = true ↔ BadAt flags bm wt i j) := by
  obtain ⟨_, hnc, hnr⟩ := badPixels_flat (flags := flags) hs
  obtain ⟨v, e, hv⟩ := badPixels_get? (flags := flags) hs hi hj
  rw [get?_flat (by rw [hnr]; exact hi) (by rw [hnc]; exact hj), hnc] at e
  exact ⟨v, e, hv⟩

theorem makeNoise_get? {sqrt : ℚ → ℚ} {draw : Nat → ℚ} {p : Nat} {wt : Img ℚ} {i j : Nat} {w : ℚ} (h : wt.get? i j = some w) :
    (makeNoiseImage sqrt draw p wt).1.get? i j = some (draw (p + (i * wt.nc + j)) * sqrt (1 / w)) := by
  have hl := Img.get?_lt h
  unfold makeNoiseImage
  simp only
  rw [mapIdx_get? hl.1 hl.2, h]
  rfl

theorem interpNoise_ok {sqrt : ℚ → ℚ} {interp : Interp} {draw : Nat → ℚ} {pos : Nat} {flags : Option Int} {im bm wt : Img ℚ} {r : Interped}
    (hs : SameShape bm wt) (him : SameShape im wt) (h : interpNoise sqrt interp draw pos flags im bm wt = .ok r) {o : Obs} (ho : o.weight = r.weight)
    (hbm : o.bmask = bm) : NoiseOf sqrt interp flags draw pos wt o r.noise ∧ r.pos = pos + wt.nr * wt.nc := by
  obtain ⟨hlen, _, _⟩ := badPixels_flat (flags := flags) hs
  have hflat : wt.flat.length = wt.nr * wt.nc := hs.2.1
  -- the list of good pixels
  have hgood : ∀ k, k ∈ (List.range (badPixels flags bm wt).flat.length).filter (fun k => (badPixels flags bm wt).flat[k]? == some false) ↔
      ∃ i j, i < wt.nr ∧ j < wt.nc ∧ k = i * wt.nc + j ∧ ¬ BadAt flags bm wt i j := by
    intro k
    rw [List.mem_filter, List.mem_range, hlen, beq_iff_eq]
    constructor
    · rintro ⟨hk, hb⟩
      have hc0 : 0 < wt.nc := Nat.pos_of_ne_zero (fun h => by rw [h] at hk; omega)
      have hi : k / wt.nc < wt.nr := Nat.div_lt_of_lt_mul (by rw [Nat.mul_comm]; exact hk)
      have hj : k % wt.nc < wt.nc := Nat.mod_lt _ hc0
      have e : k / wt.nc * wt.nc + k % wt.nc = k := by rw [Nat.mul_comm]; exact Nat.div_add_mod _ _
      refine ⟨_, _, hi, hj, e.symm, ?_⟩
      obtain ⟨v, e1, hv⟩ := badPixels_flat_iff (flags := flags) hs hi hj
      rw [e, hb] at e1
      injection e1 with e1
      intro hbad
      rw [hv.mpr hbad] at e1
      cases e1
    · rintro ⟨i, j, hi, hj, rfl, hn⟩
      refine ⟨Img.idx_lt hi hj, ?_⟩
      obtain ⟨v, e1, hv⟩ := badPixels_flat_iff (flags := flags) hs hi hj
      rw [e1]
      cases v
      · rfl
      · exact absurd (hv.mp rfl) hn
  unfold interpNoise at h
  simp only at h
  by_cases h0 : (badPixels flags bm wt).flat.count true = 0
  · rw [if_pos h0] at h
    injection h with h
    subst h
    simp only at ho ⊢
    have hnb : ∀ i j, i < wt.nr → j < wt.nc → ¬ BadAt flags bm wt i j := by
      intro i j hi hj hb
      obtain ⟨v, e1, hv⟩ := badPixels_flat_iff (flags := flags) hs hi hj
      rw [hv.mpr hb] at e1
      exact List.count_eq_zero.mp h0 (List.mem_of_getElem? e1)
    have hnz : SameShape (makeNoiseImage sqrt draw pos wt).1 wt := ⟨by
      unfold makeNoiseImage Img.WF
      simp only [List.length_mapIdx]
      exact hs.2.1, hs.2.1, rfl, rfl⟩
    refine ⟨⟨by rw [ho]; exact hnz, by rw [ho]; exact ⟨hs.2.1, hs.2.1, rfl, rfl⟩, _, by rw [ho]; exact hnz, _, by rw [hbm]; exact good_points hs hnz, ?_⟩, ?_⟩
    · intro i j hi hj
      obtain ⟨w, ew⟩ := Img.get?_some_of_WF hs.2.1 hi hj
      obtain ⟨bv, eb⟩ := Img.get?_some_of_WF hs.1 (show i < bm.nr by rw [hs.2.2.1]; exact hi) (show j < bm.nc by rw [hs.2.2.2]; exact hj)
      have hn := hnb i j hi hj
      rw [ho, hbm]
      refine ⟨w, ew, ?_, makeNoise_get? ew, fun _ => ⟨ew, rfl⟩, fun hb => absurd hb hn⟩
      by_contra hneg
      exact hn ⟨bv, w, eb, ew, .inl (not_lt.mp hneg)⟩
    · show pos + wt.flat.length = _
      rw [hflat]
  · rw [if_neg h0] at h
    split at h
    · cases h
    · rename_i hg
      have hex : ∃ i j, i < wt.nr ∧ j < wt.nc ∧ ¬ BadAt flags bm wt i j := by
        obtain ⟨k, hk⟩ := List.exists_mem_of_length_pos (Nat.pos_of_ne_zero hg)
        obtain ⟨i, j, hi, hj, _, hn⟩ := (hgood k).mp hk
        exact ⟨i, j, hi, hj, hn⟩
      obtain ⟨im', wt', n, y1, y2, y3, y4, y5, _, y7, _⟩ := C59_interpolated (interp := interp) (flags := flags) hs him hex
      injection h with h
      have hwt' : wt' = r.weight := by
        have := interpNoise_eq (sqrt := sqrt) (interp := interp) (draw := draw) (pos := pos) (flags := flags) (im := im) (bm := bm) (wt := wt)
        rw [y1] at this
        unfold interpNoise at this
        simp only at this
        rw [if_neg h0, if_neg hg] at this
        simp only [Except.map, Except.ok.injEq, Prod.mk.injEq] at this
        rw [← this.2.1, ← h]
      have hraw : SameShape (makeNoiseImage sqrt draw pos wt').1 wt' := ⟨by
        unfold makeNoiseImage Img.WF
        simp only [List.length_mapIdx]
        exact y2.2.1, y2.2.1, rfl, rfl⟩
      have hnoise : r.noise = doInterp interp ((List.range (badPixels flags bm wt).flat.length).filter (fun k => (badPixels flags bm wt).flat[k]? == some false))
          (badPixels flags bm wt).flat (makeNoiseImage sqrt draw pos wt').1 := by rw [hwt', ← h]
      have hpos : r.pos = pos + wt'.flat.length := by rw [hwt', ← h]; rfl
      have hsn : SameShape r.noise wt' := ⟨by
        rw [hnoise]
        unfold doInterp Img.WF
        simp only [List.length_mapIdx]
        exact hraw.1, y2.2.1, by rw [hnoise]; rfl, by rw [hnoise]; rfl⟩
      rw [← hwt'] at ho
      refine ⟨⟨by rw [ho]; exact hsn, by rw [ho]; exact ⟨hs.2.1, y2.2.1, y3.symm, y4.symm⟩, _, by rw [ho]; exact hraw, _, by rw [hbm]; exact good_points hs ⟨hraw.1, hs.2.1, y3, y4⟩, ?_⟩, ?_⟩
      · intro i j hi hj
        obtain ⟨w, ew⟩ := Img.get?_some_of_WF y2.2.1 (show i < wt'.nr by rw [y3]; exact hi) (show j < wt'.nc by rw [y4]; exact hj)
        have er := makeNoise_get? (sqrt := sqrt) (draw := draw) (p := pos) ew
        have en : r.noise.get? i j = some (if (badPixels flags bm wt).flat[i * wt.nc + j]? = some true
            then interpAt interp ((List.range (badPixels flags bm wt).flat.length).filter (fun k => (badPixels flags bm wt).flat[k]? == some false))
              (makeNoiseImage sqrt draw pos wt').1 (i * wt.nc + j) else draw (pos + (i * wt'.nc + j)) * sqrt (1 / w)) := by
          rw [hnoise]
          unfold doInterp
          rw [mapIdx_get? (Img.get?_lt er).1 (Img.get?_lt er).2, er, show (makeNoiseImage sqrt draw pos wt').1.nc = wt.nc from y4]
          rfl
        obtain ⟨v, e1, hv⟩ := badPixels_flat_iff (flags := flags) hs hi hj
        rw [e1] at en
        rw [ho, hbm]
        refine ⟨w, ew, y7 i j w ew, by rw [← y4]; exact er, ?_, ?_⟩
        · intro hn
          have hvf : ¬ some v = some true := fun h => hn (hv.mp (Option.some.inj h))
          rw [if_neg hvf] at en
          exact ⟨by rw [← (y5 i j hi hj hn).2]; exact ew, by rw [en, er]⟩
        · intro hb
          rw [if_pos (by rw [hv.mpr hb])] at en
          unfold interpAt at en
          rw [show (makeNoiseImage sqrt draw pos wt').1.nc = wt.nc from y4,
            show (i * wt.nc + j) / wt.nc = i by rw [Nat.mul_comm, Nat.mul_add_div (by omega), Nat.div_eq_of_lt hj, Nat.add_zero],
            show (i * wt.nc + j) % wt.nc = j by rw [Nat.mul_comm, Nat.mul_add_mod, Nat.mod_eq_of_lt hj]] at en
          rw [show (makeNoiseImage sqrt draw pos wt').1.nc = wt.nc from y4]
          exact en
      · rw [hpos, show wt'.flat.length = wt'.nr * wt'.nc from y2.2.1, y3, y4]

/-! ### One object -/

/-- What the loop keeps: the observations so far used the deviates from `pos` on, one stamp after the other. -/
def NoiseInv (ext : Ext) (cfg : Cfg) (draw : Nat → ℚ) (ims wts bms : List (Img ℚ)) (pos : Nat) (obs : List (Obs × Img ℚ)) (pos' : Nat) : Prop :=
  pos' = pos + stampSizes obs ∧ ∀ n o nz, obs[n]? = some (o, nz) → ∃ i im wt bm bw, o.icut = i + 1 ∧ ims[i]? = some im ∧ wts[i]? = some wt ∧ bms[i]? = some bm ∧
    symmetrized cfg bm wt = .ok bw ∧ o.bmask = bw.1 ∧ interpBadPixels ext.interp cfg.badFlags im bw.1 bw.2 = .ok (o.image, o.weight, o.ninterp) ∧
    NoiseOf ext.sqrt ext.interp cfg.badFlags draw (pos + stampSizes (obs.take n)) bw.2 o nz

theorem stampSizes_append (a b : List (Obs × Img ℚ)) : stampSizes (a ++ b) = stampSizes a + stampSizes b := by
  unfold stampSizes
  rw [List.map_append, List.sum_append]

theorem epochStepNoise_inv {ext : Ext} {cfg : Cfg} {draw : Nat → ℚ} {m : MEDS} {iobj : Int} {ls : Lists} {b pos : Nat} (hi : ∀ im ∈ ls.ims, Square b im)
    (hw : ∀ im ∈ ls.wts, Square b im) (hb : ∀ im ∈ ls.bms, Square b im) {st st' : NoiseState} {k : Nat}
    (hP : NoiseInv ext cfg draw ls.ims ls.wts ls.bms pos st.obs st.pos) (h : epochStepNoise ext cfg draw m iobj ls st k = .ok st') :
    NoiseInv ext cfg draw ls.ims ls.wts ls.bms pos st'.obs st'.pos := by
  unfold epochStepNoise at h
  obtain ⟨im, g1, h⟩ := Res.bind_eq_ok.mp h
  obtain ⟨wt, g2, h⟩ := Res.bind_eq_ok.mp h
  obtain ⟨seg, g3, h⟩ := Res.bind_eq_ok.mp h
  obtain ⟨bm, g4, h⟩ := Res.bind_eq_ok.mp h
  obtain ⟨s, g5, h⟩ := Res.bind_eq_ok.mp h
  obtain ⟨bw, g6, h⟩ := Res.bind_eq_ok.mp h
  obtain ⟨f, g7, h⟩ := Res.bind_eq_ok.mp h
  split at h
  · injection h with h
    subst h
    exact hP
  · obtain ⟨o, g8, h⟩ := Res.bind_eq_ok.mp h
    injection h with h
    subst h
    have g1' := pyGet_ok_nonneg g1 (by omega)
    have g2' := pyGet_ok_nonneg g2 (by omega)
    have g4' := pyGet_ok_nonneg g4 (by omega)
    have s1 := hi im (pyGet_ok g1)
    obtain ⟨sb, sw⟩ := symmetrized_square (hb bm (pyGet_ok g4)) (hw wt (pyGet_ok g2)) g6
    unfold makeObsNoise at g8
    obtain ⟨jac, _, g8⟩ := Res.bind_eq_ok.mp g8
    obtain ⟨psf, _, g8⟩ := Res.bind_eq_ok.mp g8
    obtain ⟨r, g9, g8⟩ := Res.bind_eq_ok.mp g8
    injection g8 with g8
    have hs : SameShape bw.1 bw.2 := ⟨sb.2.2, sw.2.2, by rw [sb.1, sw.1], by rw [sb.2.1, sw.2.1]⟩
    have him : SameShape im bw.2 := ⟨s1.2.2, sw.2.2, by rw [s1.1, sw.1], by rw [s1.2.1, sw.2.1]⟩
    obtain ⟨n1, n2⟩ := interpNoise_ok hs him g9 (o := o.1) (by rw [← g8]) (by rw [← g8])
    have hsz : o.1.weight.nr * o.1.weight.nc = bw.2.nr * bw.2.nc := by rw [n1.2.1.2.2.1, n1.2.1.2.2.2]
    refine ⟨?_, ?_⟩
    · show o.2.2 = pos + stampSizes (st.obs ++ [(o.1, o.2.1)])
      rw [stampSizes_append, show o.2.2 = r.pos by rw [← g8], n2, hP.1]
      unfold stampSizes
      simp only [List.map_cons, List.map_nil, List.sum_cons, List.sum_nil, hsz]
      omega
    · intro n o' nz hn
      show ∃ i im wt bm bw, _
      dsimp only at hn ⊢
      rcases Nat.lt_or_ge n st.obs.length with hlt | hge
      · rw [List.getElem?_append_left hlt] at hn
        rw [List.take_append_of_le_length (by omega)]
        exact hP.2 n o' nz hn
      · rw [List.getElem?_append_right hge] at hn
        have hn0 : n - st.obs.length = 0 := by
          by_contra hne
          rw [List.getElem?_eq_none (by simp; omega)] at hn
          cases hn
        rw [hn0] at hn
        simp only [List.getElem?_cons_zero, Option.some.injEq, Prod.mk.injEq] at hn
        obtain ⟨rfl, rfl⟩ := hn
        have hnn : n = st.obs.length := by omega
        rw [hnn, List.take_left, ← hP.1]
        refine ⟨k, im, wt, bm, bw, by rw [← g8], g1', g2', g4', g6, by rw [← g8], ?_, ?_⟩
        · rw [← interpNoise_eq (sqrt := ext.sqrt) (draw := draw) (pos := st.pos), g9, ← g8]
          rfl
        · rw [show o.2.1 = r.noise by rw [← g8]]
          exact n1

/-- The stamps of one object. -/
theorem object_noise {ext : Ext} {cfg : Cfg} {draw : Nat → ℚ} {m : MEDS} {pos pos' : Nat} {iobj : Int} {obs : List (Obs × Img ℚ)} {fl : Option (List Int)}
    (h : getObslistNoise ext cfg draw m pos iobj = .ok (obs, fl, pos')) :
    pos' = pos + stampSizes obs ∧ ∀ n o nz, obs[n]? = some (o, nz) → ∃ ims wts bms wts' im wt bm bw, m.getCutoutList iobj "image" = .ok ims ∧
      m.getCutoutList iobj "weight" = .ok wts ∧ m.getCutoutList iobj "bmask" = .ok bms ∧ rejected ext cfg (ims.drop 1) (wts.drop 1) = .ok wts' ∧ 1 ≤ o.icut ∧
      ims[o.icut]? = some im ∧ wts'[o.icut - 1]? = some wt ∧ bms[o.icut]? = some bm ∧
      symmetrized cfg bm wt = .ok bw ∧ o.bmask = bw.1 ∧ interpBadPixels ext.interp cfg.badFlags im bw.1 bw.2 = .ok (o.image, o.weight, o.ninterp) ∧
      NoiseOf ext.sqrt ext.interp cfg.badFlags draw (pos + stampSizes (obs.take n)) bw.2 o nz := by
  unfold getObslistNoise at h
  obtain ⟨ims, h1, h⟩ := Res.bind_eq_ok.mp h
  split at h
  · injection h with h
    injection h with e1 h
    injection h with e2 e3
    subst e1 e3
    exact ⟨by simp [stampSizes], by simp⟩
  · obtain ⟨wts, h2, h⟩ := Res.bind_eq_ok.mp h
    obtain ⟨bms, h3, h⟩ := Res.bind_eq_ok.mp h
    obtain ⟨wts', h4, h⟩ := Res.bind_eq_ok.mp h
    dsimp only at h
    obtain ⟨segs, h5, h⟩ := Res.bind_eq_ok.mp h
    obtain ⟨st, h6, h⟩ := Res.bind_eq_ok.mp h
    injection h with h
    injection h with e1 h
    injection h with e2 e3
    obtain ⟨r1, q1, s1⟩ := cutoutList_shape (by decide) h1
    obtain ⟨r2, q2, s2⟩ := cutoutList_shape (by decide) h2
    obtain ⟨r3, q3, s3⟩ := cutoutList_shape (by decide) h3
    rw [q1] at q2 q3
    injection q2 with q2
    injection q3 with q3
    subst q2 q3
    have s1' : ∀ im ∈ ims.drop 1, Square r1.boxSize.toNat im := fun im hm => s1 im (List.mem_of_mem_drop hm)
    have s2' := rejected_square s1' (fun im hm => s2 im (List.mem_of_mem_drop hm)) h4
    have hinv := foldRes_inv (P := fun st : NoiseState => NoiseInv ext cfg draw (ims.drop 1) wts' (bms.drop 1) pos st.obs st.pos) ⟨by simp [stampSizes], by simp⟩
      (fun t t' k _ hP hs => epochStepNoise_inv (ls := ⟨ims.drop 1, wts', bms.drop 1, segs⟩) s1' s2' (fun im hm => s3 im (List.mem_of_mem_drop hm)) hP hs) h6
    subst e1 e3
    refine ⟨hinv.1, ?_⟩
    intro n o nz hn
    obtain ⟨i, im, wt, bm, bw, k1, k2, k3, k4, k5, k6, k7, k8⟩ := hinv.2 n o nz hn
    rw [List.getElem?_drop, Nat.add_comm] at k2 k4
    exact ⟨ims, wts, bms, wts', im, wt, bm, bw, h1, h2, h3, h4, by omega, by rw [k1]; exact k2, by rw [k1]; exact k3, by rw [k1]; exact k4, k5, k6, k7, k8⟩

/-! ### A run over several objects -/

/-- **C84** In a run over any list of objects, number the coadded epochs of all of them one after the other.  The noise image of each is made of deviates of its own,
those that come after the deviates of the epochs before: one for each pixel, multiplied by the error of that pixel, `sqrt (1 / weight)`, where the weight is positive
and is the one handed to the coadding code.  Only at bad pixels it is interpolated.  So no deviate is used for two pixels, and none is skipped. -/
theorem C84_own_deviates {ext : Ext} {cfg : Cfg} {draw : Nat → ℚ} {m : MEDS} {objs : List Int} : ∀ {pos pos' : Nat} {rs : List (List (Obs × Img ℚ))},
    noiseRun ext cfg draw m pos objs = .ok (rs, pos') →
    rs.length = objs.length ∧ pos' = pos + stampSizes rs.flatten ∧ ∀ n o nz, rs.flatten[n]? = some (o, nz) →
      ∃ im wt, interpBadPixels ext.interp cfg.badFlags im o.bmask wt = .ok (o.image, o.weight, o.ninterp) ∧
        NoiseOf ext.sqrt ext.interp cfg.badFlags draw (pos + stampSizes (rs.flatten.take n)) wt o nz := by
  induction objs with
  | nil =>
    intro pos pos' rs h
    unfold noiseRun at h
    injection h with h
    injection h with e1 e2
    subst e1 e2
    exact ⟨rfl, by simp [stampSizes], by simp⟩
  | cons i is ih =>
    intro pos pos' rs h
    unfold noiseRun at h
    obtain ⟨⟨obs, fl, p1⟩, h1, h⟩ := Res.bind_eq_ok.mp h
    dsimp only at h
    obtain ⟨⟨rest, p2⟩, h2, h⟩ := Res.bind_eq_ok.mp h
    injection h with h
    injection h with e1 e2
    dsimp only at e1 e2
    subst e1 e2
    obtain ⟨a1, a2⟩ := object_noise h1
    obtain ⟨b1, b2, b3⟩ := ih h2
    refine ⟨by simp [b1], ?_, ?_⟩
    · rw [List.flatten_cons, stampSizes_append, b2, a1]
      omega
    · intro n o nz hn
      rw [List.flatten_cons] at hn ⊢
      rcases Nat.lt_or_ge n obs.length with hlt | hge
      · rw [List.getElem?_append_left hlt] at hn
        rw [List.take_append_of_le_length (by omega)]
        obtain ⟨_, _, _, _, im, _, _, bw, _, _, _, _, _, _, _, _, _, k6, k7, k8⟩ := a2 n o nz hn
        exact ⟨im, bw.2, by rw [k6]; exact k7, k8⟩
      · rw [List.getElem?_append_right hge] at hn
        obtain ⟨im, wt, k1, k2⟩ := b3 _ o nz hn
        refine ⟨im, wt, k1, ?_⟩
        have e : List.take n (obs ++ rest.flatten) = obs ++ rest.flatten.take (n - obs.length) := by
          rw [List.take_append, List.take_of_length_le hge]
        rw [e, stampSizes_append, ← Nat.add_assoc, ← a1]
        exact k2

-- two objects with two coadded epochs each: 32 deviates for the first, 8 for the second
example : (match noiseRun Ex.coaddExt Ex.coaddCfg (fun k => k) Ex.coaddMed 0 [0, 1] with
    | .ok (rs, p) => decide (rs.map (fun l => l.map (fun o => (o.1.icut, o.2.flat.length))) = [[(1, 16), (3, 16)], [(1, 4), (2, 4)]] ∧ p = 40)
    | .error _ => false) = true := by decide +kernel

/-! ### Other objects and the noise (C85) -/

theorem makeNoise_shift (sqrt : ℚ → ℚ) (draw : Nat → ℚ) (a p : Nat) (wt : Img ℚ) :
    makeNoiseImage sqrt draw (a + p) wt =
      ((makeNoiseImage sqrt (fun k => draw (a + k)) p wt).1, a + (makeNoiseImage sqrt (fun k => draw (a + k)) p wt).2) := by
  unfold makeNoiseImage
  simp only [Nat.add_assoc]

theorem interpNoise_shift (sqrt : ℚ → ℚ) (interp : Interp) (draw : Nat → ℚ) (a p : Nat) (flags : Option Int) (im bm wt : Img ℚ) :
    interpNoise sqrt interp draw (a + p) flags im bm wt =
      (interpNoise sqrt interp (fun k => draw (a + k)) p flags im bm wt).map (fun r => { r with pos := a + r.pos }) := by
  unfold interpNoise
  simp only [makeNoise_shift]
  split
  · rfl
  · split
    · rfl
    · rfl

theorem makeObsNoise_shift (ext : Ext) (cfg : Cfg) (draw : Nat → ℚ) (m : MEDS) (iobj : Int) (a p i : Nat) (s : Slot) (im bm wt seg : Img ℚ) :
    makeObsNoise ext cfg draw m iobj (a + p) i s im bm wt seg =
      (makeObsNoise ext cfg (fun k => draw (a + k)) m iobj p i s im bm wt seg).map (fun r => (r.1, r.2.1, a + r.2.2)) := by
  unfold makeObsNoise
  cases m.getJacobian iobj ((i + 1 : Nat) : Int) with
  | error e => rfl
  | ok jac =>
    simp only [Res.ok_bind]
    cases ext.psfObs s.fileId s.origRow s.origCol with
    | error e => rfl
    | ok psf =>
      simp only [Res.ok_bind]
      rw [interpNoise_shift]
      cases interpNoise ext.sqrt ext.interp (fun k => draw (a + k)) p cfg.badFlags im bm wt with
      | error e => rfl
      | ok r => rfl

/-- The generator moved on by `a`. -/
def NoiseState.shift (a : Nat) (st : NoiseState) : NoiseState := { st with pos := a + st.pos }

theorem epochStepNoise_shift (ext : Ext) (cfg : Cfg) (draw : Nat → ℚ) (m : MEDS) (iobj : Int) (ls : Lists) (a : Nat) (st : NoiseState) (i : Nat) :
    epochStepNoise ext cfg draw m iobj ls (st.shift a) i = (epochStepNoise ext cfg (fun k => draw (a + k)) m iobj ls st i).map (NoiseState.shift a) := by
  unfold epochStepNoise
  cases pyGet ls.ims i with
  | error e => rfl
  | ok im =>
  cases pyGet ls.wts i with
  | error e => rfl
  | ok wt =>
  cases pyGet ls.segs i with
  | error e => rfl
  | ok seg =>
  cases pyGet ls.bms i with
  | error e => rfl
  | ok bm =>
  cases m.slot iobj ((i + 1 : Nat) : Int) with
  | error e => rfl
  | ok s =>
  simp only [Res.ok_bind]
  cases symmetrized cfg bm wt with
  | error e => rfl
  | ok bw =>
  simp only [Res.ok_bind]
  cases epochFlag cfg bw.1 bw.2 with
  | error e => rfl
  | ok f =>
  simp only [Res.ok_bind]
  split
  · rfl
  · rw [show (st.shift a).pos = a + st.pos from rfl, makeObsNoise_shift]
    cases makeObsNoise ext cfg (fun k => draw (a + k)) m iobj st.pos i s im bw.1 bw.2 seg with
    | error e => rfl
    | ok o => rfl

theorem foldNoise_shift (ext : Ext) (cfg : Cfg) (draw : Nat → ℚ) (m : MEDS) (iobj : Int) (ls : Lists) (a : Nat) (l : List Nat) (st : NoiseState) :
    foldRes (epochStepNoise ext cfg draw m iobj ls) (st.shift a) l =
      (foldRes (epochStepNoise ext cfg (fun k => draw (a + k)) m iobj ls) st l).map (NoiseState.shift a) := by
  induction l generalizing st with
  | nil => rfl
  | cons x xs ih =>
    simp only [foldRes]
    rw [epochStepNoise_shift]
    cases epochStepNoise ext cfg (fun k => draw (a + k)) m iobj ls st x with
    | error e => rfl
    | ok t => exact ih t

theorem getObslistNoise_shift (ext : Ext) (cfg : Cfg) (draw : Nat → ℚ) (m : MEDS) (a p : Nat) (iobj : Int) :
    getObslistNoise ext cfg draw m (a + p) iobj = (getObslistNoise ext cfg (fun k => draw (a + k)) m p iobj).map (fun r => (r.1, r.2.1, a + r.2.2)) := by
  unfold getObslistNoise
  cases m.getCutoutList iobj "image" with
  | error e => rfl
  | ok ims =>
  simp only [Res.ok_bind]
  split
  · rfl
  cases m.getCutoutList iobj "weight" with
  | error e => rfl
  | ok wts =>
  cases m.getCutoutList iobj "bmask" with
  | error e => rfl
  | ok bms =>
  simp only [Res.ok_bind]
  cases rejected ext cfg (ims.drop 1) (wts.drop 1) with
  | error e => rfl
  | ok wts' =>
  simp only [Res.ok_bind]
  cases mapRes (fun k : Nat => m.interpolateCoaddSeg iobj ((k + 1 : Nat) : Int)) (List.range (ims.drop 1).length) with
  | error e => rfl
  | ok segs =>
  simp only [Res.ok_bind]
  have := foldNoise_shift ext cfg draw m iobj ⟨ims.drop 1, wts', bms.drop 1, segs⟩ a (List.range (ims.drop 1).length) ⟨[], List.replicate (ims.drop 1).length 0, p⟩
  rw [show NoiseState.shift a ⟨[], List.replicate (ims.drop 1).length 0, p⟩ = ⟨[], List.replicate (ims.drop 1).length 0, a + p⟩ from rfl] at this
  rw [this]
  cases foldRes (epochStepNoise ext cfg (fun k => draw (a + k)) m iobj ⟨ims.drop 1, wts', bms.drop 1, segs⟩) ⟨[], List.replicate (ims.drop 1).length 0, p⟩
      (List.range (ims.drop 1).length) with
  | error e => rfl
  | ok st => rfl

theorem noiseRun_shift (ext : Ext) (cfg : Cfg) (draw : Nat → ℚ) (m : MEDS) (a : Nat) (objs : List Int) : ∀ p,
    noiseRun ext cfg draw m (a + p) objs = (noiseRun ext cfg (fun k => draw (a + k)) m p objs).map (fun r => (r.1, a + r.2)) := by
  induction objs with
  | nil => intro p; rfl
  | cons i is ih =>
    intro p
    unfold noiseRun
    rw [getObslistNoise_shift]
    cases getObslistNoise ext cfg (fun k => draw (a + k)) m p i with
    | error e => rfl
    | ok r =>
      show (noiseRun ext cfg draw m (a + r.2.2) is).bind _ = _
      rw [ih r.2.2]
      simp only [Res.ok_bind]
      cases noiseRun ext cfg (fun k => draw (a + k)) m r.2.2 is with
      | error e => rfl
      | ok t => rfl

theorem noiseRun_cons (ext : Ext) (cfg : Cfg) (draw : Nat → ℚ) (m : MEDS) (p : Nat) (i : Int) (is : List Int) :
    noiseRun ext cfg draw m p (i :: is) = (getObslistNoise ext cfg draw m p i).bind (fun r =>
      (noiseRun ext cfg draw m r.2.2 is).map (fun rest => (r.1 :: rest.1, rest.2))) := by
  show (getObslistNoise ext cfg draw m p i).bind _ = _
  cases getObslistNoise ext cfg draw m p i with
  | error e => rfl
  | ok r =>
    show (noiseRun ext cfg draw m r.2.2 is).bind _ = Except.map _ (noiseRun ext cfg draw m r.2.2 is)
    cases noiseRun ext cfg draw m r.2.2 is with
    | error e => rfl
    | ok t => rfl

theorem noiseRun_append (ext : Ext) (cfg : Cfg) (draw : Nat → ℚ) (m : MEDS) (as bs : List Int) : ∀ (p : Nat),
    noiseRun ext cfg draw m p (as ++ bs) =
      (noiseRun ext cfg draw m p as).bind (fun r => (noiseRun ext cfg draw m r.2 bs).map (fun t => (r.1 ++ t.1, t.2))) := by
  induction as with
  | nil =>
    intro p
    show noiseRun ext cfg draw m p bs = (noiseRun ext cfg draw m p bs).map _
    cases noiseRun ext cfg draw m p bs with
    | error e => rfl
    | ok t => rfl
  | cons i is ih =>
    intro p
    rw [List.cons_append, noiseRun_cons, noiseRun_cons]
    cases getObslistNoise ext cfg draw m p i with
    | error e => rfl
    | ok r =>
      show Except.map _ (noiseRun ext cfg draw m r.2.2 (is ++ bs)) = (Except.map _ (noiseRun ext cfg draw m r.2.2 is)).bind _
      rw [ih r.2.2]
      cases noiseRun ext cfg draw m r.2.2 is with
      | error e => rfl
      | ok t =>
        show Except.map _ (Except.map _ (noiseRun ext cfg draw m t.2 bs)) = Except.map _ (noiseRun ext cfg draw m t.2 bs)
        cases noiseRun ext cfg draw m t.2 bs with
        | error e => rfl
        | ok u => rfl

/-- **C85** (part) Objects coadded after others get the noise a new coadder would give them if its generator began where the other objects left it: after as many
deviates as the stamps of the other objects have pixels.  The data do not change (C84). -/
theorem C85_shifted_partial {ext : Ext} {cfg : Cfg} {draw : Nat → ℚ} {m : MEDS} {as bs : List Int} {rs : List (List (Obs × Img ℚ))} {p : Nat}
    (h : noiseRun ext cfg draw m 0 (as ++ bs) = .ok (rs, p)) :
    ∃ ra rb n p', noiseRun ext cfg draw m 0 as = .ok (ra, n) ∧ n = stampSizes ra.flatten ∧ noiseRun ext cfg (fun k => draw (n + k)) m 0 bs = .ok (rb, p') ∧
      rs = ra ++ rb ∧ p = n + p' := by
  rw [noiseRun_append] at h
  obtain ⟨⟨ra, n⟩, h1, h⟩ := Res.bind_eq_ok.mp h
  dsimp only at h
  rw [show n = n + 0 from rfl, noiseRun_shift] at h
  cases h2 : noiseRun ext cfg (fun k => draw (n + k)) m 0 bs with
  | error e => rw [h2] at h; cases h
  | ok t =>
    rw [h2] at h
    injection h with h
    injection h with e1 e2
    obtain ⟨_, hn, _⟩ := C84_own_deviates h1
    exact ⟨ra, t.1, n, t.2, h1, by omega, h2, e1.symm, e2.symm⟩

/-- **C85** (part) Objects before that have no coadded epoch make no difference. -/
theorem C85_no_epochs_partial {ext : Ext} {cfg : Cfg} {draw : Nat → ℚ} {m : MEDS} {as bs : List Int} {ra rs : List (List (Obs × Img ℚ))} {n p : Nat}
    (ha : noiseRun ext cfg draw m 0 as = .ok (ra, n)) (hn : ∀ l ∈ ra, l = []) (h : noiseRun ext cfg draw m 0 (as ++ bs) = .ok (rs, p)) :
    ∃ rb, noiseRun ext cfg draw m 0 bs = .ok (rb, p) ∧ rs = ra ++ rb := by
  obtain ⟨ra', rb, n', p', h1, h2, h3, h4, h5⟩ := C85_shifted_partial h
  rw [ha] at h1
  injection h1 with h1
  injection h1 with e1 e2
  subst e1 e2
  have hfl : ra.flatten = [] := List.flatten_eq_nil_iff.mpr hn
  rw [hfl] at h2
  have h0 : n = 0 := h2
  subst h0
  simp only [Nat.zero_add] at h3 h5
  exact ⟨rb, by rw [h5]; exact h3, h4⟩

-- the epochs of object 1 of the second file all hit the edge; object 2 gets the deviates 0 to 7 with or without it
example : (match noiseRun Ex.coaddExt Ex.coaddCfg (fun k => k) Ex.stampsMed 0 [1], noiseRun Ex.coaddExt Ex.coaddCfg (fun k => k) Ex.stampsMed 0 [1, 2] with
    | .ok (ra, 0), .ok (rs, p) => decide (ra.map (·.length) = [0] ∧ rs.map (·.length) = [0, 2] ∧ p = 8)
    | _, _ => false) = true := by decide +kernel

/-- **C85** is false: with the same seed object 1 gets other noise when object 0 was coadded before, and asking a coadder twice for the same object gives two
different noise images. -/
theorem C85_counterexample : ∃ (draw : Nat → ℚ) (r0 r1 r1' r1'' : List (Obs × Img ℚ)) (p p' p'' : Nat),
    noiseRun Ex.coaddExt Ex.coaddCfg draw Ex.coaddMed 0 [0, 1] = .ok ([r0, r1], p) ∧ noiseRun Ex.coaddExt Ex.coaddCfg draw Ex.coaddMed 0 [1, 1] = .ok ([r1', r1''], p') ∧
      noiseRun Ex.coaddExt Ex.coaddCfg draw Ex.coaddMed 0 [1] = .ok ([r1'], p'') ∧
      r1.map (·.2.flat) ≠ r1'.map (·.2.flat) ∧ r1''.map (·.2.flat) ≠ r1'.map (·.2.flat) := by
  have h : (match noiseRun Ex.coaddExt Ex.coaddCfg (fun k => k) Ex.coaddMed 0 [0, 1], noiseRun Ex.coaddExt Ex.coaddCfg (fun k => k) Ex.coaddMed 0 [1, 1] with
      | .ok ([_, r1], _), .ok ([r1', r1''], _) => decide (r1.map (·.2.flat) ≠ r1'.map (·.2.flat) ∧ r1''.map (·.2.flat) ≠ r1'.map (·.2.flat))
      | _, _ => false) = true := by decide +kernel
  split at h
  · rename_i a r1 p r1' r1'' p' h1 h2
    have := of_decide_eq_true h
    obtain ⟨ra, rb, n, q, k1, k2, k3, k4, k5⟩ := C85_shifted_partial (as := [1]) (bs := [1]) h2
    have hl := (C84_own_deviates k1).1
    match ra, hl with
    | [x], _ =>
      rw [List.singleton_append, List.cons.injEq] at k4
      rw [← k4.1] at k1
      exact ⟨fun k => k, a, r1, r1', r1'', p, p', n, h1, h2, k1, this.1, this.2⟩
  · cases h

end Meds.Coadd
