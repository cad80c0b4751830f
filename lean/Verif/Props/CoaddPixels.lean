import Verif.Lemmas.RejectQ
import Verif.Props.CoaddMade
import Verif.Props.MaskedValues

/-!
# What enters a coadd, pixel by pixel, from the planes of the file (C128)
-/

namespace Meds.Coadd
open Meds.Spec

/-! ### The weights after outlier rejection -/

theorem map_fst_zip' {α β : Type} : ∀ {l : List α} {l' : List β}, l.length = l'.length → (l.zip l').map (·.1) = l ∧ (l.zip l').map (·.2) = l'
  | [], [], _ => ⟨rfl, rfl⟩
  | a :: l, b :: l', h => by
    obtain ⟨h1, h2⟩ := map_fst_zip' (l := l) (l' := l') (by simpa using h)
    simp only [List.zip_cons_cons, List.map_cons]
    exact ⟨by rw [h1], by rw [h2]⟩

/-- What `reject_outliers` leaves of the weights. -/
theorem rejected_at {ext : Ext} {cfg : Cfg} {e : Epochs} {n : Nat} (hl : e.ims.length = e.wts.length) (hi : ∀ im ∈ e.ims, Square n im) (hw : ∀ im ∈ e.wts, Square n im)
    {wts' : List (Img ℚ)} (h : rejected ext cfg e.ims e.wts = .ok wts') {k : Nat} {wt : Img ℚ} (hk : wts'[k]? = some wt) :
    Square n wt ∧ ∃ wt0, e.wts[k]? = some wt0 ∧ ∀ i j w, wt0.get? i j = some w →
      (¬ e.Rejects cfg.rejectOutliers → wt.get? i j = some w) ∧
      (e.Rejects cfg.rejectOutliers → (e.Outlying ext.sqrt ext.nsigma ext.amp k i j → wt.get? i j = some 0) ∧
        (¬ e.Outlying ext.sqrt ext.nsigma ext.amp k i j → wt.get? i j = some (max w 0))) := by
  by_cases hr : e.Rejects cfg.rejectOutliers
  · obtain ⟨hon, h3⟩ := id hr
    unfold rejected at h
    rw [if_pos hon] at h
    obtain ⟨r, h1, h⟩ := Res.bind_eq_ok.mp h
    injection h with h
    subst h
    obtain ⟨z1, z2⟩ := map_fst_zip' hl
    have hs : RejectQ.Stack (e.ims.zip e.wts) n n := by
      intro p hp
      obtain ⟨a, b⟩ := p
      obtain ⟨q1, q2⟩ := List.of_mem_zip hp
      obtain ⟨a1, a2, a3⟩ := hi _ q1
      obtain ⟨b1, b2, b3⟩ := hw _ q2
      exact ⟨a3, b3, a1, a2, b1, b2⟩
    have hlen : (e.ims.zip e.wts).length = e.ims.length := by rw [List.length_zip, ← hl, Nat.min_self]
    have hrun := RejectQ.run (rt := ext.sqrt) (nsigma := ext.nsigma) (A := ext.amp) hs (by omega)
    rw [z1, z2, h1] at hrun
    injection hrun with hrun
    subst hrun
    simp only [List.getElem?_map, Option.map_eq_some_iff] at hk
    obtain ⟨p, hp, rfl⟩ := hk
    have hp' := List.mem_of_getElem? hp
    obtain ⟨q1, q2, q3, q4, q5, q6⟩ := hs p hp'
    have hki : e.ims[k]? = some p.1 := by
      have := congrArg (·[k]?) z1
      simp only [List.getElem?_map, hp, Option.map_some] at this
      exact this.symm
    have hkw : e.wts[k]? = some p.2 := by
      have := congrArg (·[k]?) z2
      simp only [List.getElem?_map, hp, Option.map_some] at this
      exact this.symm
    have hmedWF : (RejectQ.medOf (e.ims.zip e.wts) n n).WF := Img.ofFn_WF _ _ _
    have hcl : (p.2.map (max · 0)).WF := Img.map_WF q2 _
    refine ⟨⟨q3, q4, ?_⟩, p.2, hkw, ?_⟩
    · refine Img.zipWith_WF (RejectQ.outlier_WF ?_ ?_ ?_ ?_ hmedWF q1 hcl) hcl ?_ ?_ _
      · exact q3.symm
      · exact q4.symm
      · exact q5.trans q3.symm
      · exact q6.trans q4.symm
      · exact q3.trans q5.symm
      · exact q4.trans q6.symm
    · intro i j w hv
      obtain ⟨l1, l2⟩ := Img.get?_lt hv
      obtain ⟨x, hx⟩ := Img.get?_some_of_WF q1 (i := i) (j := j) (by omega) (by omega)
      obtain ⟨m, hm, _, hg⟩ := RejectQ.newWt_get (rt := ext.sqrt) (nsigma := ext.nsigma) (A := ext.amp) hs hp' hx hv
      have em : (e.ims.zip e.wts).filterMap (fun q => q.1.get? i j) = e.ims.filterMap (·.get? i j) := by
        conv_rhs => rw [← z1]
        rw [List.filterMap_map]
        rfl
      rw [em] at hm
      have hiff : e.Outlying ext.sqrt ext.nsigma ext.amp k i j ↔ OutlierQ ext.sqrt ext.nsigma ext.amp m x w := by
        constructor
        · rintro ⟨im, x', w', m', g1, g2, ⟨wt', g3, g4⟩, g5, g6⟩
          rw [hki] at g1
          injection g1 with g1
          subst g1
          rw [hx] at g2
          injection g2 with g2
          subst g2
          rw [hkw] at g3
          injection g3 with g3
          subst g3
          rw [hv] at g4
          injection g4 with g4
          subst g4
          have := RejectQ.isMedian_unique (List.Perm.refl _) g5 hm
          subst this
          exact g6
        · intro ho
          exact ⟨p.1, x, w, m, hki, hx, ⟨p.2, hkw, hv⟩, hm, ho⟩
      refine ⟨fun hn => absurd hr hn, fun _ => ⟨fun ho => ?_, fun ho => ?_⟩⟩
      · rw [hg, if_pos (hiff.mp ho)]
      · rw [hg, if_neg (fun h => ho (hiff.mpr h))]
  · have : rejected ext cfg e.ims e.wts = .ok e.wts := by
      apply rejected_off
      unfold Epochs.Rejects at hr
      rcases Nat.lt_or_ge e.ims.length 3 with h3 | h3
      · exact .inr h3
      · left
        cases hb : cfg.rejectOutliers with
        | false => rfl
        | true => exact absurd ⟨hb, h3⟩ hr
    rw [this] at h
    injection h with h
    subst h
    exact ⟨hw _ (List.mem_of_getElem? hk), wt, hk, fun i j w hv => ⟨fun _ => hv, fun h => absurd h hr⟩⟩

/-- The same in terms of the conditions of the specification. -/
theorem rejected_zero {ext : Ext} {cfg : Cfg} {e : Epochs} {n : Nat} (hl : e.ims.length = e.wts.length) (hi : ∀ im ∈ e.ims, Square n im) (hw : ∀ im ∈ e.wts, Square n im)
    {wts' : List (Img ℚ)} (h : rejected ext cfg e.ims e.wts = .ok wts') {k : Nat} {wt : Img ℚ} (hk : wts'[k]? = some wt) {i j : Nat} (hin : i < n) (hjn : j < n) :
    (ZeroAt wt i j ↔ e.Zero cfg.rejectOutliers ext.sqrt ext.nsigma ext.amp k i j) ∧
    ((∃ w, wt.get? i j = some w ∧ w ≤ 0) ↔ ((∃ w, e.WtAt k i j w ∧ w ≤ 0) ∨ (e.Rejects cfg.rejectOutliers ∧ e.Outlying ext.sqrt ext.nsigma ext.amp k i j))) ∧
    ((∃ w, wt.get? i j = some w ∧ 0 < w) → ∃ wt0, e.wts[k]? = some wt0 ∧ wt.get? i j = wt0.get? i j) := by
  obtain ⟨hsq, wt0, hk0, hp⟩ := rejected_at hl hi hw h hk
  obtain ⟨a1, a2, a3⟩ := hw _ (List.mem_of_getElem? hk0)
  obtain ⟨w, ew⟩ := Img.get?_some_of_WF a3 (i := i) (j := j) (by omega) (by omega)
  obtain ⟨p1, p2⟩ := hp i j w ew
  have hwt : ∀ w', e.WtAt k i j w' ↔ w' = w := by
    intro w'
    constructor
    · rintro ⟨wt', g1, g2⟩
      rw [hk0] at g1
      injection g1 with g1
      subst g1
      rw [ew] at g2
      injection g2 with g2
      exact g2.symm
    · rintro rfl
      exact ⟨wt0, hk0, ew⟩
  have hout : e.Outlying ext.sqrt ext.nsigma ext.amp k i j → 0 < w := by
    rintro ⟨_, _, w', _, _, _, g, _, g6⟩
    rw [(hwt w').mp g] at g6
    exact g6.1
  unfold ZeroAt Epochs.Zero
  simp only [hwt, exists_eq_left]
  by_cases hr : e.Rejects cfg.rejectOutliers
  · obtain ⟨o1, o2⟩ := p2 hr
    by_cases ho : e.Outlying ext.sqrt ext.nsigma ext.amp k i j
    · rw [o1 ho]
      simp [hr, ho]
    · rw [o2 ho]
      refine ⟨?_, ?_, ?_⟩
      · simp only [Option.some.injEq, hr, ho, true_and, or_false]
        constructor
        · intro hm
          rcases lt_trichotomy w 0 with h0 | h0 | h0
          · exact .inr h0
          · exact .inl h0.symm
          · rw [max_eq_left h0.le] at hm
            exact .inl hm.symm
        · rintro (h0 | h0)
          · rw [← h0, max_self]
          · exact max_eq_right h0.le
      · simp [ho]
      · rintro ⟨w', g, h0⟩
        injection g with g
        refine ⟨wt0, hk0, ?_⟩
        rw [ew]
        congr 1
        rw [← g] at h0
        rcases le_or_gt w 0 with h1 | h1
        · rw [max_eq_right h1] at h0
          exact absurd h0 (lt_irrefl _)
        · exact max_eq_left h1.le
  · rw [p1 hr]
    simp only [hr, false_and, or_false]
    refine ⟨⟨fun h => ?_, fun h => ?_⟩, by simp, fun _ => ⟨wt0, hk0, ew.symm⟩⟩
    · injection h with h; exact h.symm
    · rw [h]

/-! ### Symmetrizing -/

/-- The pixels that are bad after symmetrizing, and what is left of the others. -/
theorem symmetrized_bad {cfg : Cfg} {bm wt : Img ℚ} {n : Nat} (hb : Square n bm) (hw : Square n wt) {bw : Img ℚ × Img ℚ} (h : symmetrized cfg bm wt = .ok bw) :
    Square n bw.1 ∧ Square n bw.2 ∧ ∀ i j, i < n → j < n →
      (BadAt cfg.badFlags bw.1 bw.2 i j ↔ (∃ w, wt.get? i j = some w ∧ w ≤ 0) ∨ FlagAt cfg.badFlags bm i j ∨
        (cfg.symmetrizeMask = true ∧ (ZeroAt wt j (n - 1 - i) ∨ FlagAt cfg.badFlags bm j (n - 1 - i)))) ∧
      (¬ BadAt cfg.badFlags bw.1 bw.2 i j → bw.2.get? i j = wt.get? i j) ∧
      (¬ (cfg.symmetrizeMask = true ∧ FlagAt cfg.badFlags bm j (n - 1 - i)) → bw.1.get? i j = bm.get? i j) ∧
      (cfg.symmetrizeMask = true → FlagAt cfg.badFlags bm j (n - 1 - i) → bw.1.get? i j = bm.get? j (n - 1 - i)) := by
  have hbad : ∀ {b w : Img ℚ}, Square n b → Square n w → ∀ i j, i < n → j < n →
      (BadAt cfg.badFlags b w i j ↔ (∃ v, w.get? i j = some v ∧ v ≤ 0) ∨ FlagAt cfg.badFlags b i j) := by
    rintro b w ⟨b1, b2, b3⟩ ⟨w1, w2, w3⟩ i j hi hj
    obtain ⟨x, ex⟩ := Img.get?_some_of_WF b3 (i := i) (j := j) (by omega) (by omega)
    obtain ⟨y, ey⟩ := Img.get?_some_of_WF w3 (i := i) (j := j) (by omega) (by omega)
    unfold BadAt FlagAt
    rw [ex, ey]
    simp
  unfold symmetrized at h
  by_cases hs : cfg.symmetrizeMask = true
  · rw [if_pos hs] at h
    obtain ⟨w', h1, h⟩ := Res.bind_eq_ok.mp h
    obtain ⟨b', h2, h⟩ := Res.bind_eq_ok.mp h
    injection h with h
    subst h
    obtain ⟨x, ex, x1, x2, x3, x4, x5⟩ := C47_weight_partial hw.1 hw.2.1 hw.2.2
    rw [h1] at ex
    injection ex with ex
    subst ex
    have hfl : Square n b' ∧ (∀ i j, i < n → j < n → (FlagAt cfg.badFlags b' i j ↔ FlagAt cfg.badFlags bm i j ∨ FlagAt cfg.badFlags bm j (n - 1 - i))) ∧
        (∀ i j, i < n → j < n → ¬ FlagAt cfg.badFlags bm j (n - 1 - i) → b'.get? i j = bm.get? i j) ∧
        (∀ i j, i < n → j < n → FlagAt cfg.badFlags bm j (n - 1 - i) → b'.get? i j = bm.get? j (n - 1 - i)) := by
      cases hf : cfg.badFlags with
      | none =>
        rw [hf] at h2
        injection h2 with h2
        subst h2
        have hno : ∀ i j, ¬ FlagAt none bm i j := by
          rintro i j ⟨v, _, f, hf, _⟩
          cases hf
        exact ⟨hb, fun i j _ _ => by simp [hno], fun i j _ _ _ => rfl, fun i j _ _ h => absurd h (hno _ _)⟩
      | some f =>
        rw [hf] at h2
        obtain ⟨y, ey, y1, y2, y3, y4, y5, y6⟩ := C47_bmask_partial (f := f) hb.1 hb.2.1 hb.2.2
        rw [h2] at ey
        injection ey with ey
        subst ey
        exact ⟨⟨y1, y2, y3⟩, y4, y5, y6⟩
    obtain ⟨hb', f1, f2, f3⟩ := hfl
    have hw' : Square n w' := ⟨x1, x2, x3⟩
    refine ⟨hb', hw', ?_⟩
    intro i j hi hj
    have hle : (∃ v, w'.get? i j = some v ∧ v ≤ 0) ↔ (∃ v, wt.get? i j = some v ∧ v ≤ 0) ∨ ZeroAt wt j (n - 1 - i) := by
      by_cases hz : ZeroAt w' i j
      · constructor
        · intro _
          rcases (x4 i j hi hj).mp hz with h0 | h0
          · exact .inl ⟨0, h0, le_refl _⟩
          · exact .inr h0
        · intro _
          exact ⟨0, hz, le_refl _⟩
      · rw [x5 i j hi hj hz]
        have : ¬ ZeroAt wt j (n - 1 - i) := fun h0 => hz ((x4 i j hi hj).mpr (.inr h0))
        simp [this]
    refine ⟨?_, ?_, ?_, ?_⟩
    · show BadAt cfg.badFlags b' w' i j ↔ _
      rw [hbad hb' hw' i j hi hj, hle, f1 i j hi hj]
      simp only [hs, true_and]
      rw [or_or_or_comm, or_assoc]
    · intro hn
      show w'.get? i j = _
      apply x5 i j hi hj
      intro hz
      exact hn ((hbad hb' hw' i j hi hj).mpr (.inl ⟨0, hz, le_refl _⟩))
    · intro hn
      exact f2 i j hi hj (fun h => hn ⟨hs, h⟩)
    · intro _ hf
      exact f3 i j hi hj hf
  · rw [if_neg hs] at h
    injection h with h
    subst h
    refine ⟨hb, hw, fun i j hi hj => ⟨?_, fun _ => rfl, fun _ => rfl, fun h => absurd h hs⟩⟩
    rw [hbad hb hw i j hi hj]
    simp [hs]

/-! ### A used epoch has a usable pixel -/

theorem good_of_ok {interp : Interp} {flags : Option Int} {im bm wt : Img ℚ} (hs : SameShape bm wt) (hr : 0 < wt.nr) (hc : 0 < wt.nc) {r : Img ℚ × Img ℚ × Nat}
    (h : interpBadPixels interp flags im bm wt = .ok r) : ∃ i j, i < wt.nr ∧ j < wt.nc ∧ ¬ BadAt flags bm wt i j := by
  by_contra hno
  have hall : ∀ i j, i < wt.nr → j < wt.nc → BadAt flags bm wt i j := by
    intro i j hi hj
    by_contra hn
    exact hno ⟨i, j, hi, hj, hn⟩
  obtain ⟨hlen, hnc, hnr⟩ := badPixels_flat (flags := flags) hs
  have hwf : (badPixels flags bm wt).WF := Img.zipWith_WF hs.1 hs.2.1 hs.2.2.1 hs.2.2.2 _
  have htrue : ∀ b ∈ (badPixels flags bm wt).flat, b = true := by
    intro b hb
    obtain ⟨i, j, e⟩ := Img.flat_mem_get? hwf hb
    have hl := Img.get?_lt e
    rw [hnr, hnc] at hl
    obtain ⟨v, e', hv⟩ := badPixels_get? (flags := flags) hs hl.1 hl.2
    rw [e] at e'
    injection e' with e'
    rw [e']
    exact hv.mpr (hall i j hl.1 hl.2)
  have hgood : (List.range (badPixels flags bm wt).flat.length).filter (fun k => (badPixels flags bm wt).flat[k]? == some false) = [] := by
    rw [List.filter_eq_nil_iff]
    intro k _ hk
    have := htrue false (List.mem_of_getElem? (eq_of_beq hk))
    cases this
  have hpos : (badPixels flags bm wt).flat.count true ≠ 0 := by
    have h1 : (badPixels flags bm wt).flat.count true = (badPixels flags bm wt).flat.length := List.count_eq_length.mpr (fun b hb => (htrue b hb).symm)
    rw [h1, hlen]
    exact Nat.ne_of_gt (Nat.mul_pos hr hc)
  unfold interpBadPixels at h
  simp only at h
  rw [if_neg hpos, hgood] at h
  cases h

/-- Stamps are not empty, since the mosaic could be cut. -/
theorem cutoutList_pos {m : MEDS} {iobj : Int} {t : String} (ht : t ≠ "psf") {l : List (Img ℚ)} (h : m.getCutoutList iobj t = .ok l) : ∀ im ∈ l, 0 < im.nc := by
  unfold MEDS.getCutoutList at h
  rw [if_neg ht] at h
  obtain ⟨mo, hm, h⟩ := Res.bind_eq_ok.mp h
  unfold splitMosaic at h
  simp only at h
  split at h
  · cases h
  · rename_i hb
    injection h with h
    subst h
    intro im him
    obtain ⟨i, _, rfl⟩ := List.mem_map.mp him
    exact Nat.pos_of_ne_zero hb

/-- What the planes of an epoch went through before the interpolation, in terms of the file. -/
theorem epoch_kept {ext : Ext} {cfg : Cfg} {m : MEDS} {iobj : Int} {ims wts bms wts' : List (Img ℚ)} {icut : Nat} {im wt bm : Img ℚ} {bw : Img ℚ × Img ℚ}
    (h1 : m.getCutoutList iobj "image" = .ok ims) (h2 : m.getCutoutList iobj "weight" = .ok wts) (h3 : m.getCutoutList iobj "bmask" = .ok bms)
    (h4 : rejected ext cfg (ims.drop 1) (wts.drop 1) = .ok wts') (h5 : 1 ≤ icut) (h6 : ims[icut]? = some im) (h7 : wts'[icut - 1]? = some wt)
    (h8 : bms[icut]? = some bm) (h9 : symmetrized cfg bm wt = .ok bw) :
    ∃ (e : Epochs) (im0 wt0 bm0 : Img ℚ) (n k : Nat) (wtf : Img ℚ), ims = im0 :: e.ims ∧ wts = wt0 :: e.wts ∧ bms = bm0 :: e.bms ∧ 0 < n ∧ icut = k + 1 ∧
      e.ims[k]? = some im ∧ e.wts[k]? = some wtf ∧ e.bms[k]? = some bm ∧ Square n im ∧ Square n wtf ∧ Square n bm ∧ Square n bw.1 ∧ Square n bw.2 ∧
      (∀ i j, i < n → j < n → (BadAt cfg.badFlags bw.1 bw.2 i j ↔
        e.Dropped n cfg.badFlags cfg.rejectOutliers cfg.symmetrizeMask ext.sqrt ext.nsigma ext.amp k i j)) ∧
      (∀ i j, i < n → j < n → ¬ BadAt cfg.badFlags bw.1 bw.2 i j → bw.2.get? i j = wtf.get? i j) ∧
      (∀ i j, i < n → j < n → (cfg.symmetrizeMask = true ∧ e.Flag cfg.badFlags k j (n - 1 - i) → bw.1.get? i j = bm.get? j (n - 1 - i)) ∧
        (¬ (cfg.symmetrizeMask = true ∧ e.Flag cfg.badFlags k j (n - 1 - i)) → bw.1.get? i j = bm.get? i j)) := by
  obtain ⟨r1, e1, s1⟩ := cutoutList_shape (by decide) h1
  obtain ⟨r2, e2, s2⟩ := cutoutList_shape (by decide) h2
  obtain ⟨r3, e3, s3⟩ := cutoutList_shape (by decide) h3
  obtain ⟨t1, f1, l1⟩ := cutoutList_length (by decide) h1
  obtain ⟨t2, f2, l2⟩ := cutoutList_length (by decide) h2
  rw [e1] at e2 e3 f1 f2
  injection e2 with e2
  injection e3 with e3
  injection f1 with f1
  injection f2 with f2
  subst e2 e3 f1 f2
  obtain ⟨k, hk⟩ : ∃ k, icut = k + 1 := ⟨icut - 1, by omega⟩
  rw [hk] at h6 h7 h8
  simp only [Nat.add_sub_cancel] at h7
  cases ims with
  | nil => cases h6
  | cons im0 ims =>
  cases wts with
  | nil => rw [← l2] at l1; cases l1
  | cons wt0 wts =>
  cases bms with
  | nil => cases h8
  | cons bm0 bms =>
  rw [List.getElem?_cons_succ] at h6 h8
  simp only [List.drop_succ_cons, List.drop_zero] at h4
  have hsi : ∀ x ∈ ims, Square r1.boxSize.toNat x := fun x hx => s1 x (List.mem_cons_of_mem _ hx)
  have hsw : ∀ x ∈ wts, Square r1.boxSize.toNat x := fun x hx => s2 x (List.mem_cons_of_mem _ hx)
  have hsb : ∀ x ∈ bms, Square r1.boxSize.toNat x := fun x hx => s3 x (List.mem_cons_of_mem _ hx)
  have hn : 0 < r1.boxSize.toNat := by
    have := cutoutList_pos (by decide) h1 im0 (List.mem_cons_self ..)
    rw [(s1 im0 (List.mem_cons_self ..)).2.1] at this
    exact this
  have hlen : ims.length = wts.length := by
    rw [← l2] at l1
    simpa using l1
  generalize r1.boxSize.toNat = n at hsi hsw hsb hn
  have h4' : rejected ext cfg (Epochs.mk ims wts bms).ims (Epochs.mk ims wts bms).wts = .ok wts' := h4
  obtain ⟨hsq, wtf, hkf, _⟩ := rejected_at (e := ⟨ims, wts, bms⟩) hlen hsi hsw h4' h7
  have hz := fun {i j : Nat} (hi : i < n) (hj : j < n) => rejected_zero (e := ⟨ims, wts, bms⟩) hlen hsi hsw h4' h7 hi hj
  have hqb := hsb _ (List.mem_of_getElem? h8)
  have hqi := hsi _ (List.mem_of_getElem? h6)
  obtain ⟨b1, b2, hbad⟩ := symmetrized_bad hqb hsq h9
  have hflag : ∀ i j, (Epochs.mk ims wts bms).Flag cfg.badFlags k i j ↔ FlagAt cfg.badFlags bm i j := by
    intro i j
    constructor
    · rintro ⟨b, g, hf⟩
      have g : bms[k]? = some b := g
      rw [h8] at g
      injection g with g
      rw [g]
      exact hf
    · intro hf
      exact ⟨bm, h8, hf⟩
  have hdrop : ∀ i j, i < n → j < n → (BadAt cfg.badFlags bw.1 bw.2 i j ↔
      (Epochs.mk ims wts bms).Dropped n cfg.badFlags cfg.rejectOutliers cfg.symmetrizeMask ext.sqrt ext.nsigma ext.amp k i j) := by
    intro i j hi hj
    rw [(hbad i j hi hj).1, (hz hi hj).2.1, (hz hj (show n - 1 - i < n by omega)).1, ← hflag, ← hflag]
    unfold Epochs.Dropped
    rw [or_or_or_comm, or_assoc]
  have hkeep : ∀ i j, i < n → j < n → ¬ BadAt cfg.badFlags bw.1 bw.2 i j → bw.2.get? i j = wtf.get? i j := by
    intro i j hi hj hnb
    rw [(hbad i j hi hj).2.1 hnb]
    obtain ⟨v, ev⟩ := Img.get?_some_of_WF hsq.2.2 (i := i) (j := j) (by rw [hsq.1]; exact hi) (by rw [hsq.2.1]; exact hj)
    have hv : 0 < v := by
      by_contra h0
      exact hnb ((hbad i j hi hj).1.mpr (.inl ⟨v, ev, not_lt.mp h0⟩))
    obtain ⟨w0, q1, q2⟩ := (hz hi hj).2.2 ⟨v, ev, hv⟩
    have q1 : wts[k]? = some w0 := q1
    have hkf : wts[k]? = some wtf := hkf
    rw [hkf] at q1
    injection q1 with q1
    rw [q1]
    exact q2
  refine ⟨⟨ims, wts, bms⟩, im0, wt0, bm0, n, k, wtf, rfl, rfl, rfl, hn, hk, h6, hkf, h8, hqi, hsw _ (List.mem_of_getElem? hkf), hqb, b1, b2, hdrop, hkeep, ?_⟩
  intro i j hi hj
  rw [hflag]
  exact ⟨fun hf => (hbad i j hi hj).2.2.2 hf.1 hf.2, (hbad i j hi hj).2.2.1⟩

theorem filterMap_length {α β : Type*} {f : α → Option β} {l : List α} (h : ∀ a ∈ l, (f a).isSome) : (l.filterMap f).length = l.length := by
  induction l with
  | nil => rfl
  | cons a t ih =>
    obtain ⟨b, hb⟩ := Option.isSome_iff_exists.mp (h a (List.mem_cons_self ..))
    rw [List.filterMap_cons_some hb, List.length_cons, List.length_cons, ih (fun x hx => h x (List.mem_cons_of_mem _ hx))]

theorem range_count (l : List Bool) : ((List.range l.length).filter (fun k => l[k]? == some false)).length + l.count true = l.length := by
  have h : ((List.range l.length).filter (fun k => l[k]? == some false)).length = l.count false := by
    rw [← List.countP_eq_length_filter, List.count_eq_countP]
    have : l = (List.range l.length).map (fun k => l[k]?.getD false) := by
      apply List.ext_getElem?
      intro i
      rw [List.getElem?_map]
      by_cases hi : i < l.length
      · rw [List.getElem?_range hi]; simp [hi]
      · rw [List.getElem?_eq_none (by simpa using hi), List.getElem?_eq_none (by simpa using hi)]; rfl
    conv_rhs => rw [this, List.countP_map]
    apply List.countP_congr
    intro k hk
    rw [List.mem_range] at hk
    simp [List.getElem?_eq_getElem hk]
  rw [h]
  clear h
  induction l with
  | nil => rfl
  | cons a t ih => cases a <;> simp <;> omega

/-- The number of pixels replaced: those of the stamp that are not good. -/
theorem interp_count {interp : Interp} {flags : Option Int} {im bm wt : Img ℚ} (hs : SameShape bm wt) {r : Img ℚ × Img ℚ × Nat}
    (h : interpBadPixels interp flags im bm wt = .ok r) {ps : List (Nat × Nat)} (hnd : ps.Nodup)
    (hps : ∀ i j, (i, j) ∈ ps ↔ i < wt.nr ∧ j < wt.nc ∧ ¬ BadAt flags bm wt i j) : r.2.2 + ps.length = wt.nr * wt.nc := by
  have hr : r.2.2 = (badPixels flags bm wt).flat.count true := by
    unfold interpBadPixels at h
    dsimp only at h
    split at h
    · rename_i h0
      injection h with h
      rw [← h, h0]
    · split at h
      · cases h
      · injection h with h
        rw [← h]
  obtain ⟨hlen, _, _⟩ := badPixels_flat (flags := flags) hs
  obtain ⟨ps', n1, n2, n3⟩ := good_weights (flags := flags) hs
  have hperm : ps'.Perm ps := by
    rw [List.perm_ext_iff_of_nodup n1 hnd]
    rintro ⟨i, j⟩
    rw [hps, n2]
  have hwf : wt.flat.length = wt.nr * wt.nc := hs.2.1
  have e1 : ((List.range (badPixels flags bm wt).flat.length).filter (fun k => (badPixels flags bm wt).flat[k]? == some false)).length = ps'.length := by
    have l1 := congrArg List.length n3
    rw [filterMap_length, filterMap_length] at l1
    · exact l1
    · rintro ⟨i, j⟩ hp
      obtain ⟨hi, hj, _⟩ := (n2 i j).mp hp
      obtain ⟨v, ev⟩ := Img.get?_some_of_WF hs.2.1 hi hj
      simp [ev]
    · intro k hk
      have hk' := List.mem_range.mp (List.mem_filter.mp hk).1
      rw [hlen, ← hwf] at hk'
      simp [hk']
  have := range_count (badPixels flags bm wt).flat
  rw [e1, hperm.length_eq, hlen] at this
  rw [hr]
  omega

/-! ### The property -/

/-- **C128** What is handed to the coadding code for an epoch, pixel by pixel and for every configuration, from the planes in the file: a pixel that is not dropped has
the value and the weight of the file; the others get the median of the weights of the kept pixels, and the value of the interpolator built on the kept pixels with their
values.  The mask is that of the file, except that with symmetrizing the value a quarter turn away is taken where it has a bad flag. -/
theorem C128_pixels {ext : Ext} {cfg : Cfg} {m : MEDS} {iobj : Int} {obs : List Obs} {flags : List Int}
    (h : getObslist ext cfg m iobj = .ok (obs, some flags)) {o : Obs} (ho : o ∈ obs) :
    ∃ (e : Epochs) (im0 wt0 bm0 : Img ℚ) (n k : Nat) (im wt bm : Img ℚ), m.getCutoutList iobj "image" = .ok (im0 :: e.ims) ∧
      m.getCutoutList iobj "weight" = .ok (wt0 :: e.wts) ∧ m.getCutoutList iobj "bmask" = .ok (bm0 :: e.bms) ∧
      0 < n ∧ o.icut = k + 1 ∧ e.ims[k]? = some im ∧ e.wts[k]? = some wt ∧ e.bms[k]? = some bm ∧ Square n im ∧ Square n wt ∧ Square n bm ∧
      Square n o.image ∧ Square n o.weight ∧ Square n o.bmask ∧
      let Drop := e.Dropped n cfg.badFlags cfg.rejectOutliers cfg.symmetrizeMask ext.sqrt ext.nsigma ext.amp k
      (∀ i j, i < n → j < n → ¬ Drop i j → o.image.get? i j = im.get? i j ∧ o.weight.get? i j = wt.get? i j) ∧
      (∃ ps med, PixelsNot n Drop ps ∧ o.ninterp + ps.length = n * n ∧ IsMedian (ps.filterMap (fun p => wt.get? p.1 p.2)) med ∧ ∀ i j, i < n → j < n → Drop i j →
        o.weight.get? i j = some med ∧ o.image.get? i j = some (ext.interp (ps.filterMap (fun p => (im.get? p.1 p.2).map (fun v => (p, v)))) (i, j))) ∧
      (∀ i j, i < n → j < n → (cfg.symmetrizeMask = true ∧ e.Flag cfg.badFlags k j (n - 1 - i) → o.bmask.get? i j = bm.get? j (n - 1 - i)) ∧
        (¬ (cfg.symmetrizeMask = true ∧ e.Flag cfg.badFlags k j (n - 1 - i)) → o.bmask.get? i j = bm.get? i j)) := by
  obtain ⟨ims, wts, bms, wts', im, wt, bm, bw, s, h1, h2, h3, h4, h5, h6, h7, h8, h9, h10, h11, _⟩ := C75_own_epoch h ho
  obtain ⟨e, im0, wt0, bm0, n, k, wtf, rfl, rfl, rfl, hn, hk, h6, hkf, h8, hqi, hqw, hqb, b1, b2, hdrop, hkeep, hmask⟩ := epoch_kept h1 h2 h3 h4 h5 h6 h7 h8 h9
  have hss : SameShape bw.1 bw.2 := ⟨b1.2.2, b2.2.2, b1.1.trans b2.1.symm, b1.2.1.trans b2.2.1.symm⟩
  have him : SameShape im bw.2 := ⟨hqi.2.2, b2.2.2, hqi.1.trans b2.1.symm, hqi.2.1.trans b2.2.1.symm⟩
  obtain ⟨im', wt', nn, y1, y2, y3, y4, y5, ⟨l, med, y6, y7, y8⟩, _, _, pts, y9, y10⟩ := C59_interpolated (interp := ext.interp) hss him
    (good_of_ok hss (by rw [b2.1]; exact hn) (by rw [b2.2.1]; exact hn) h11)
  rw [h11] at y1
  injection y1 with y1
  injection y1 with y1 z1
  injection z1 with z1 _
  subst y1 z1
  refine ⟨e, im0, wt0, bm0, n, k, im, wtf, bm, h1, h2, h3, hn, hk, h6, hkf, h8, hqi, hqw, hqb, ?_, ?_, ?_, ?_⟩
  · exact ⟨y2.2.2.1.trans (y3.trans b2.1), y2.2.2.2.trans (y4.trans b2.2.1), y2.1⟩
  · exact ⟨y3.trans b2.1, y4.trans b2.2.1, y2.2.1⟩
  · rw [h10]; exact b1
  dsimp only
  refine ⟨?_, ?_, ?_⟩
  · intro i j hi hj hnd
    have hnb := fun hb => hnd ((hdrop i j hi hj).mp hb)
    obtain ⟨g1, g2⟩ := y5 i j (by rw [b2.1]; exact hi) (by rw [b2.2.1]; exact hj) hnb
    exact ⟨g1, g2.trans (hkeep i j hi hj hnb)⟩
  · obtain ⟨ps, q1, q2, q3⟩ := y9
    obtain ⟨ps', q1', q2', q3'⟩ := y6
    have hps : ∀ i j, (i, j) ∈ ps ↔ i < n ∧ j < n ∧ ¬ BadAt cfg.badFlags bw.1 bw.2 i j := by
      intro i j
      rw [q2, b2.1, b2.2.1]
    have hnd : ps.Nodup := by
      refine q1.imp ?_
      rintro a b hab rfl
      omega
    have hperm : ps'.Perm ps := by
      rw [List.perm_ext_iff_of_nodup q1' hnd]
      rintro ⟨i, j⟩
      rw [q2, q2']
    refine ⟨ps, med, ⟨q1, fun i j => ?_⟩, ?_, ?_, ?_⟩
    · rw [hps]
      constructor
      · rintro ⟨g1, g2, g3⟩
        exact ⟨g1, g2, fun hd => g3 ((hdrop i j g1 g2).mpr hd)⟩
      · rintro ⟨g1, g2, g3⟩
        exact ⟨g1, g2, fun hd => g3 ((hdrop i j g1 g2).mp hd)⟩
    · have := interp_count hss h11 hnd q2
      rwa [b2.1, b2.2.1] at this
    · have : ps.filterMap (fun p => wtf.get? p.1 p.2) = ps.filterMap (fun p => bw.2.get? p.1 p.2) := by
        apply List.filterMap_congr
        rintro ⟨i, j⟩ hp
        obtain ⟨g1, g2, g3⟩ := (hps i j).mp hp
        exact (hkeep i j g1 g2 g3).symm
      rw [this]
      rw [q3'] at y7
      exact RejectQ.isMedian_perm (hperm.filterMap _) y7
    · intro i j hi hj hd
      have hb := (hdrop i j hi hj).mpr hd
      refine ⟨y8 i j (by rw [b2.1]; exact hi) (by rw [b2.2.1]; exact hj) hb, ?_⟩
      rw [← q3]
      exact y10 i j hb
  · intro i j hi hj
    rw [h10]
    exact hmask i j hi hj

/-- **C128** The noise image of an epoch: a kept pixel has one deviate of its own times `sqrt (1 / weight)` with the weight of the file, and at the other pixels there is the
value of the interpolator built on the kept pixels of the noise image.  The deviates of the epoch follow those of the epochs before. -/
theorem C128_noise {ext : Ext} {cfg : Cfg} {draw : Nat → ℚ} {m : MEDS} {pos pos' : Nat} {iobj : Int} {obs : List (Obs × Img ℚ)} {fl : Option (List Int)}
    (h : getObslistNoise ext cfg draw m pos iobj = .ok (obs, fl, pos')) :
    ∃ n : Nat, pos' = pos + obs.length * (n * n) ∧ ∀ q o nz, obs[q]? = some (o, nz) →
      ∃ (e : Epochs) (im0 wt0 bm0 : Img ℚ) (k : Nat) (wt : Img ℚ), m.getCutoutList iobj "image" = .ok (im0 :: e.ims) ∧
        m.getCutoutList iobj "weight" = .ok (wt0 :: e.wts) ∧ m.getCutoutList iobj "bmask" = .ok (bm0 :: e.bms) ∧
        0 < n ∧ o.icut = k + 1 ∧ e.wts[k]? = some wt ∧ Square n wt ∧ Square n nz ∧
        let Drop := e.Dropped n cfg.badFlags cfg.rejectOutliers cfg.symmetrizeMask ext.sqrt ext.nsigma ext.amp k
        let deviate := fun i j : Nat => draw (pos + q * (n * n) + (i * n + j))
        (∀ i j w, i < n → j < n → ¬ Drop i j → wt.get? i j = some w → 0 < w ∧ nz.get? i j = some (deviate i j * ext.sqrt (1 / w))) ∧
        ∃ ps, PixelsNot n Drop ps ∧ ∀ i j, i < n → j < n → Drop i j →
          nz.get? i j = some (ext.interp (ps.filterMap (fun p => (wt.get? p.1 p.2).map (fun w => (p, deviate p.1 p.2 * ext.sqrt (1 / w))))) (i, j)) := by
  obtain ⟨hpos, hob⟩ := object_noise h
  have hsize : ∃ n : Nat, ∀ p ∈ obs, p.1.weight.nr = n ∧ p.1.weight.nc = n := by
    cases obs with
    | nil => exact ⟨0, by simp⟩
    | cons p0 t =>
      obtain ⟨ims, _, _, _, _, _, _, _, h1, _⟩ := hob 0 p0.1 p0.2 rfl
      obtain ⟨r1, e1, s1⟩ := cutoutList_shape (by decide) h1
      refine ⟨r1.boxSize.toNat, ?_⟩
      intro p hp
      obtain ⟨q, hq⟩ := List.mem_iff_getElem?.mp hp
      obtain ⟨ims', wts, bms, wts', im, wt, bm, bw, g1, g2, g3, g4, g5, g6, g7, g8, g9, g10, g11, g12⟩ := hob q p.1 p.2 hq
      rw [h1] at g1
      injection g1 with g1
      subst g1
      obtain ⟨e, im0, wt0, bm0, n, k, wtf, rfl, rfl, rfl, hn, hk, h6, hkf, h8, hqi, hqw, hqb, b1, b2, _⟩ := epoch_kept h1 g2 g3 g4 g5 g6 g7 g8 g9
      have hn' : n = r1.boxSize.toNat := hqi.1.symm.trans (s1 im (List.mem_of_getElem? g6)).1
      rw [← hn']
      exact ⟨g12.2.1.2.2.1.symm.trans b2.1, g12.2.1.2.2.2.symm.trans b2.2.1⟩
  obtain ⟨n, hsize⟩ := hsize
  have hst : ∀ l : List (Obs × Img ℚ), (∀ p ∈ l, p.1.weight.nr = n ∧ p.1.weight.nc = n) → stampSizes l = l.length * (n * n) := by
    intro l
    induction l with
    | nil => intro _; simp [stampSizes]
    | cons p t ih =>
      intro hl
      have ht := ih (fun x hx => hl x (List.mem_cons_of_mem _ hx))
      obtain ⟨q1, q2⟩ := hl p (List.mem_cons_self ..)
      unfold stampSizes at ht ⊢
      rw [List.map_cons, List.sum_cons, ht, q1, q2, List.length_cons]
      ring
  refine ⟨n, by rw [hpos, hst obs hsize], ?_⟩
  intro q o nz hq
  obtain ⟨ims, wts, bms, wts', im, wt, bm, bw, h1, h2, h3, h4, h5, h6, h7, h8, h9, h10, h11, hnz⟩ := hob q o nz hq
  obtain ⟨e, im0, wt0, bm0, n', k, wtf, rfl, rfl, rfl, hn, hk, h6, hkf, h8, hqi, hqw, hqb, b1, b2, hdrop, hkeep, _⟩ := epoch_kept h1 h2 h3 h4 h5 h6 h7 h8 h9
  have hlt : q < obs.length := (List.getElem?_eq_some_iff.mp hq).1
  have hstart : stampSizes (obs.take q) = q * (n * n) := by
    rw [hst _ (fun p hp => hsize p (List.mem_of_mem_take hp)), List.length_take, Nat.min_eq_left hlt.le]
  rw [hstart] at hnz
  obtain ⟨z1, z2, raw, z3, pts, z4, z5⟩ := hnz
  have hnn : n' = n := by
    obtain ⟨q1, _⟩ := hsize _ (List.mem_of_getElem? hq)
    exact b2.1.symm.trans (z2.2.2.1.trans q1)
  subst hnn
  obtain ⟨ps, q1, q2, q3⟩ := z4
  have hps : ∀ i j, (i, j) ∈ ps ↔ i < n' ∧ j < n' ∧ ¬ BadAt cfg.badFlags bw.1 bw.2 i j := by
    intro i j
    rw [q2, b2.1, b2.2.1, h10]
  have hraw : ∀ i j, i < n' → j < n' → ¬ BadAt cfg.badFlags bw.1 bw.2 i j → ∃ w, wtf.get? i j = some w ∧ 0 < w ∧
      raw.get? i j = some (draw (pos + q * (n' * n') + (i * n' + j)) * ext.sqrt (1 / w)) ∧ nz.get? i j = raw.get? i j := by
    intro i j hi hj hnb
    obtain ⟨w, w1, w2, w3, w4, _⟩ := z5 i j (by rw [b2.1]; exact hi) (by rw [b2.2.1]; exact hj)
    rw [h10] at w4
    obtain ⟨w5, w6⟩ := w4 hnb
    rw [hkeep i j hi hj hnb] at w5
    rw [b2.2.1] at w3
    exact ⟨w, w5, w2, w3, w6⟩
  refine ⟨e, im0, wt0, bm0, k, wtf, h1, h2, h3, hn, hk, hkf, hqw, ⟨?_, ?_, z1.1⟩, ?_⟩
  · exact z1.2.2.1.trans (z2.2.2.1.symm.trans b2.1)
  · exact z1.2.2.2.trans (z2.2.2.2.symm.trans b2.2.1)
  dsimp only
  refine ⟨?_, ps, ⟨q1, fun i j => ?_⟩, ?_⟩
  · intro i j w hi hj hnd hw
    obtain ⟨w', g1, g2, g3, g4⟩ := hraw i j hi hj (fun hb => hnd ((hdrop i j hi hj).mp hb))
    rw [hw] at g1
    injection g1 with g1
    subst g1
    exact ⟨g2, g4.trans g3⟩
  · rw [hps]
    constructor
    · rintro ⟨g1, g2, g3⟩
      exact ⟨g1, g2, fun hd => g3 ((hdrop i j g1 g2).mpr hd)⟩
    · rintro ⟨g1, g2, g3⟩
      exact ⟨g1, g2, fun hd => g3 ((hdrop i j g1 g2).mp hd)⟩
  · intro i j hi hj hd
    have hb := (hdrop i j hi hj).mpr hd
    obtain ⟨_, _, _, _, _, w7⟩ := z5 i j (by rw [b2.1]; exact hi) (by rw [b2.2.1]; exact hj)
    rw [h10] at w7
    rw [w7 hb, q3]
    congr 2
    apply List.filterMap_congr
    rintro ⟨a, b⟩ hp
    obtain ⟨g1, g2, g3⟩ := (hps a b).mp hp
    obtain ⟨w', k1, _, k3, _⟩ := hraw a b g1 g2 g3
    simp only [k1, k3, Option.map_some]

/-! ### A case with outliers and symmetrizing

Three epochs of four by four pixels of weight 4; the corner pixel of the third has a bad flag and the value 399 where the others have 232 and 252.  The corner of the first
epoch is then further from the median 252 than allowed.  With symmetrizing both are dropped together with the pixel a quarter turn away. -/

def pixelsCfg (sym : Bool) : Cfg := { Ex.coaddCfg with rejectOutliers := true, symmetrizeMask := sym, maxMaskedFrac := 1, centralCheck := false, edgeFlags := none }

def pixelsOf (sym : Bool) : List (Nat × List ℚ × List ℚ × List ℚ) :=
  match getObslist maskedExt (pixelsCfg sym) (maskedMed 400) 0 with
  | .ok (obs, some _) => obs.map (fun o => (o.icut, o.image.flat, o.weight.flat, o.bmask.flat))
  | _ => []

example : pixelsOf false =
    [(1, [15, 233, 234, 235, 242, 243, 244, 245, 252, 253, 254, 255, 262, 263, 264, 265], List.replicate 16 4, List.replicate 16 0),
     (2, [252, 253, 254, 255, 262, 263, 264, 265, 272, 273, 274, 275, 282, 283, 284, 285], List.replicate 16 4, List.replicate 16 0),
     (3, [15, 243, 244, 245, 252, 253, 254, 255, 262, 263, 264, 265, 272, 273, 274, 275], List.replicate 16 4, 1 :: List.replicate 15 0)] := by decide +kernel

example : pixelsOf true =
    [(1, [14, 233, 234, 235, 242, 243, 244, 245, 252, 253, 254, 255, 17, 263, 264, 265], List.replicate 16 4, List.replicate 16 0),
     (2, [252, 253, 254, 255, 262, 263, 264, 265, 272, 273, 274, 275, 282, 283, 284, 285], List.replicate 16 4, List.replicate 16 0),
     (3, [14, 243, 244, 245, 252, 253, 254, 255, 262, 263, 264, 265, 17, 273, 274, 275], List.replicate 16 4, [1, 0, 0, 0, 0, 0, 0, 0, 0, 0, 0, 0, 1, 0, 0, 0])] := by
  decide +kernel

example : (match getObslist maskedExt (pixelsCfg true) (maskedMed 400) 0 with
  | .ok (obs, some _) => obs.map (fun o : Obs => o.ninterp)
  | _ => []) = [2, 0, 2] := by decide +kernel

/-- The noise images with the deviates 5, 6, 7, ...; the square root of the example is the identity. -/
def pixelsNoise : List (Nat × List ℚ) × Nat :=
  match getObslistNoise maskedExt (pixelsCfg true) (fun k => (k : ℚ)) (maskedMed 400) 5 0 with
  | .ok (obs, _, p) => (obs.map (fun o => (o.1.icut, o.2.flat)), p)
  | _ => ([], 0)

example : pixelsNoise =
    ([(1, [14, 3 / 2, 7 / 4, 2, 9 / 4, 5 / 2, 11 / 4, 3, 13 / 4, 7 / 2, 15 / 4, 4, 17, 9 / 2, 19 / 4, 5]),
      (2, [21 / 4, 11 / 2, 23 / 4, 6, 25 / 4, 13 / 2, 27 / 4, 7, 29 / 4, 15 / 2, 31 / 4, 8, 33 / 4, 17 / 2, 35 / 4, 9]),
      (3, [14, 19 / 2, 39 / 4, 10, 41 / 4, 21 / 2, 43 / 4, 11, 45 / 4, 23 / 2, 47 / 4, 12, 17, 25 / 2, 51 / 4, 13])], 53) := by decide +kernel

end Meds.Coadd
