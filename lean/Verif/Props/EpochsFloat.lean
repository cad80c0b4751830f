import Verif.Props.CoaddFloat

/-!
# What is handed on for the epochs of an object, with pixels that are not numbers (C127)
-/

namespace Meds.Coadd
open Meds.Spec Meds.Coadd.Spec Compare

open Classical in
/-- The flag of the first test that an epoch fails, zero if there is none: a pixel with an edge flag (2), too many masked pixels (4), a pixel of the central region
that is not usable (8), a side of zero weights or bad flags (16), no positive weight (32). -/
noncomputable def firstFailed (cfg : Cfg) (bm : Img ℚ) (wt : Img Flt) : Int :=
  if ∃ i j, FlagAt cfg.edgeFlags bm i j then 2
  else if cfg.maxMaskedFrac * (wt.nr * wt.nc : Nat) < numUnusableF cfg.badFlags bm wt then 4
  else if cfg.centralCheck = true ∧ ∃ i j, i < wt.nr ∧ j < wt.nr ∧ inCentral wt.nr cfg.centralSize i ∧ inCentral wt.nr cfg.centralSize j ∧
    ¬ UsableF cfg.badFlags bm wt i j then 8
  else if WholeSide wt (· = .num 0) ∨ WholeSide bm (HasFlag cfg.badFlags) then 16
  else if ∀ i j v, wt.get? i j = some v → ¬ Positive v then 32 else 0

theorem rejected_after {rt : ℚ → ℚ} {nsigma A : ℚ} {cfg : Cfg} {es : List (Img Flt × Img Flt × Img ℚ)} {n : Nat} (hs : ∀ e ∈ es, StampsOf n n e.1 e.2.1 e.2.2)
    {wts' : List (Img Flt)} (h : (if cfg.rejectOutliers then do
      let r ← Reject.rejectOutliersFlt rt nsigma A (es.map (·.1)) (es.map (·.2.1))
      .ok r.wts
    else .ok (es.map (·.2.1))) = Except.ok wts') :
    wts'.length = es.length ∧ ∀ (k : Nat) e wt', es[k]? = some e → wts'[k]? = some wt' → AfterRejection cfg.rejectOutliers rt nsigma A es n e wt' := by
  have same : ¬ (cfg.rejectOutliers = true ∧ 3 ≤ es.length) → wts' = es.map (·.2.1) →
      wts'.length = es.length ∧ ∀ (k : Nat) e wt', es[k]? = some e → wts'[k]? = some wt' → AfterRejection cfg.rejectOutliers rt nsigma A es n e wt' := by
    rintro hno rfl
    refine ⟨by simp, fun k e wt' he hw => ?_⟩
    rw [List.getElem?_map, he] at hw
    injection hw with hw
    subst hw
    obtain ⟨_, q2, _, _, _, q5, q6, _⟩ := hs e (List.mem_of_getElem? he)
    exact ⟨q2, q5, q6, fun i j x w _ ew => ⟨fun _ => ew, fun h1 h2 => absurd ⟨h1, h2⟩ hno⟩⟩
  by_cases hon : cfg.rejectOutliers = true
  · rw [if_pos hon] at h
    obtain ⟨r, hr, h⟩ := Res.bind_eq_ok.mp h
    injection h with h
    by_cases h3 : 3 ≤ es.length
    · have hst : Reject.StackFlt (es.map (fun e => (e.1, e.2.1))) n n := by
        intro p hp
        obtain ⟨e, he, rfl⟩ := List.mem_map.mp hp
        obtain ⟨q1, q2, _, q3, q4, q5, q6, _⟩ := hs e he
        exact ⟨q1, q2, q3, q4, q5, q6⟩
      obtain ⟨r', hr', _, hlen, hpix, _⟩ := C127_rejection rt nsigma A hst (by rw [List.length_map]; exact h3)
      rw [List.map_map, List.map_map] at hr'
      have : r' = r := by
        have := hr'.symm.trans hr
        injection this
      subst this
      rw [List.length_map] at hlen
      refine ⟨by rw [← h]; exact hlen, fun k e wt' he hw => ?_⟩
      rw [← h] at hw
      obtain ⟨s1, s2, s3, s4⟩ := hpix k (e.1, e.2.1) wt' (by rw [List.getElem?_map, he]; rfl) hw
      refine ⟨s1, s2, s3, fun i j x w ex ew => ⟨fun hno => absurd ⟨hon, h3⟩ hno, fun _ _ => ?_⟩⟩
      obtain ⟨m, w', g1, g2, g3⟩ := s4 i j x w ex ew
      rw [List.filterMap_map] at g1
      refine ⟨m, w', g1, g2, fun ho => by rw [g3, if_pos ho], fun ho => by rw [g3, if_neg ho]⟩
    · refine same (fun hh => h3 hh.2) ?_
      unfold Reject.rejectOutliersFlt at hr
      rw [if_pos (by rw [List.length_map]; omega)] at hr
      injection hr with hr
      rw [← h, ← hr]
  · rw [if_neg hon] at h
    injection h with h
    exact same (fun hh => hon hh.1) h.symm

theorem symmetrized_turned {n : Nat} {cfg : Cfg} {bm : Img ℚ} {wt : Img Flt} (hs : ShapesAgree bm wt) (hr : wt.nr = n) (hc : wt.nc = n) :
    ∃ bw, symmetrizedF cfg bm wt = .ok bw ∧ Turned cfg.symmetrizeMask cfg.badFlags n bm wt bw.1 bw.2 := by
  unfold symmetrizedF
  by_cases hon : cfg.symmetrizeMask = true
  · rw [if_pos hon]
    obtain ⟨wt', h1, w1, w2, w3, w4⟩ := C126_symmetrized hr hc hs.2.1
    have hb : ∃ b', symmetrizeBmask cfg.badFlags bm = .ok b' ∧ b'.nr = n ∧ b'.nc = n ∧ b'.WF ∧
        (∀ i j, i < n → j < n → ¬ FlagAt cfg.badFlags bm j (n - 1 - i) → b'.get? i j = bm.get? i j) ∧
        (∀ i j, i < n → j < n → FlagAt cfg.badFlags bm j (n - 1 - i) → b'.get? i j = bm.get? j (n - 1 - i)) := by
      have hbr : bm.nr = n := hs.2.2.1.trans hr
      have hbc : bm.nc = n := hs.2.2.2.trans hc
      cases hf : cfg.badFlags with
      | none =>
        refine ⟨bm, rfl, hbr, hbc, hs.1, fun _ _ _ _ _ => rfl, ?_⟩
        rintro i j _ _ ⟨v, _, f, hf, _⟩
        cases hf
      | some f =>
        obtain ⟨y, ey, y1, y2, y3, _, y5, y6⟩ := C47_bmask_partial (f := f) hbr hbc hs.1
        exact ⟨y, ey, y1, y2, y3, y5, y6⟩
    obtain ⟨b', h2, b1, b2, b3, b4, b5⟩ := hb
    refine ⟨(b', wt'), by rw [h1, Res.ok_bind, h2, Res.ok_bind], ⟨b3, w1, by rw [b1, w2], by rw [b2, w3]⟩, w2, w3, fun i j hi hj => ?_⟩
    exact ⟨fun _ => (w4 i j hi hj).1, fun hno => (w4 i j hi hj).2 (fun hh => hno ⟨hon, hh⟩), fun _ => b5 i j hi hj, fun hno => b4 i j hi hj (fun hh => hno ⟨hon, hh⟩)⟩
  · rw [if_neg hon]
    exact ⟨(bm, wt), rfl, hs, hr, hc, fun i j _ _ => ⟨fun h => absurd h hon, fun _ => rfl, fun h => absurd h hon, fun _ => rfl⟩⟩

/-- **C127** The epochs of an object whose images and weights may be NaN or infinite anywhere.  `tested k` are the mask and the weights of epoch `k` after rejection of
outliers and symmetrizing, as far as configured.  The flag of an epoch is that of the first test these fail; the epochs without flag are used, in their order.
Of an epoch that is used, a pixel is kept unless its weight is zero or less or it has a bad flag; it has the value of the file, the weight that was tested, and a noise of
its own deviate times `sqrt(1 / weight)`; the other pixels have the value of the interpolator built on the kept ones.  Every epoch draws its own deviates. -/
theorem C127_epochs {rt : ℚ → ℚ} (hrt : rt 0 = 0) {nsigma A : ℚ} {interp : InterpF} {cfg : Cfg} (hec : cfg.edgeCheck = true)
    {draw : Nat → ℚ} {pos : Nat} {es : List (Img Flt × Img Flt × Img ℚ)} {n : Nat} (h0 : 0 < n) (hs : ∀ e ∈ es, StampsOf n n e.1 e.2.1 e.2.2)
    {r : LoopF} (h : obslistF rt nsigma A interp cfg draw pos (es.map (·.1)) (es.map (·.2.1)) (es.map (·.2.2)) = .ok r) :
    ∃ tested : Nat → Img ℚ × Img Flt,
      (∀ (k : Nat) e, es[k]? = some e → ∃ wt', AfterRejection cfg.rejectOutliers rt nsigma A es n e wt' ∧
        Turned cfg.symmetrizeMask cfg.badFlags n e.2.2 wt' (tested k).1 (tested k).2) ∧
      r.flags = (List.range es.length).map (fun k => firstFailed cfg (tested k).1 (tested k).2) ∧
      r.obs.map (·.1) = (List.range es.length).filter (fun k => decide (r.flags[k]? = some 0)) ∧
      r.pos = pos + r.obs.length * (n * n) ∧
      ∀ q k o e, r.obs[q]? = some (k, o) → es[k]? = some e → ∃ ps, KeptPixels cfg.badFlags (tested k).1 (tested k).2 ps ∧
        o.ninterp = numUnusableF cfg.badFlags (tested k).1 (tested k).2 ∧
        o.image.nr = n ∧ o.image.nc = n ∧ o.weight.nr = n ∧ o.weight.nc = n ∧ o.noise.nr = n ∧ o.noise.nc = n ∧
        (∀ i j w, (tested k).2.get? i j = some w → ¬ UnusableF cfg.badFlags (tested k).1 (tested k).2 i j →
          o.image.get? i j = e.1.get? i j ∧ o.weight.get? i j = some w ∧
          ∃ v, o.noise.get? i j = some v ∧ NoiseFlt rt (draw (pos + q * (n * n) + (i * n + j))) w v) ∧
        (∀ i j, UnusableF cfg.badFlags (tested k).1 (tested k).2 i j → o.image.get? i j = some (interp (pointsAt e.1 ps) (i, j))) := by
  unfold obslistF at h
  obtain ⟨wts', hw, h⟩ := Res.bind_eq_ok.mp h
  obtain ⟨hlen, hrej⟩ := rejected_after hs hw
  have hex : ∀ k : Nat, ∃ bw : Img ℚ × Img Flt, ∀ e wt', es[k]? = some e → wts'[k]? = some wt' →
      symmetrizedF cfg e.2.2 wt' = .ok bw ∧ Turned cfg.symmetrizeMask cfg.badFlags n e.2.2 wt' bw.1 bw.2 := by
    intro k
    cases he : es[k]? with
    | none => exact ⟨(⟨0, 0, []⟩, ⟨0, 0, []⟩), by rintro e wt' ⟨⟩⟩
    | some e =>
      have hk : k < wts'.length := by rw [hlen]; exact (List.getElem?_eq_some_iff.mp he).1
      have hwk : wts'[k]? = some wts'[k] := List.getElem?_eq_getElem hk
      obtain ⟨s1, s2, s3, _⟩ := hrej k e _ he hwk
      obtain ⟨q1, q2, q0, q3, q4, q5, q6, q7, q8⟩ := hs e (List.mem_of_getElem? he)
      obtain ⟨bw, hbw⟩ := symmetrized_turned (cfg := cfg) (show ShapesAgree e.2.2 wts'[k] from ⟨q0, s1, by rw [q7, s2], by rw [q8, s3]⟩) s2 s3
      refine ⟨bw, ?_⟩
      intro e' wt' he' hwt'
      injection he' with he'
      rw [hwk] at hwt'
      injection hwt' with hwt'
      subst he' hwt'
      exact hbw
  choose tested ht using hex
  have htest : ∀ (k : Nat) e, es[k]? = some e → ∃ wt', wts'[k]? = some wt' ∧ AfterRejection cfg.rejectOutliers rt nsigma A es n e wt' ∧
      symmetrizedF cfg e.2.2 wt' = .ok (tested k) ∧ Turned cfg.symmetrizeMask cfg.badFlags n e.2.2 wt' (tested k).1 (tested k).2 := by
    intro k e he
    have hk : k < wts'.length := by rw [hlen]; exact (List.getElem?_eq_some_iff.mp he).1
    have hwk : wts'[k]? = some wts'[k] := List.getElem?_eq_getElem hk
    exact ⟨_, hwk, hrej k e _ he hwk, ht k e _ he hwk⟩
  have key : ∀ N ≤ es.length, ∀ st : LoopF, foldRes (epochStepF rt interp cfg draw (es.map (·.1)) wts' (es.map (·.2.2)))
      ⟨[], List.replicate es.length 0, pos⟩ (List.range N) = .ok st →
      st.flags = (List.range es.length).map (fun k => if k < N then firstFailed cfg (tested k).1 (tested k).2 else 0) ∧
      st.obs.map (·.1) = (List.range N).filter (fun k => decide (firstFailed cfg (tested k).1 (tested k).2 = 0)) ∧
      st.pos = pos + st.obs.length * (n * n) ∧
      ∀ q k o e, st.obs[q]? = some (k, o) → es[k]? = some e →
        interpNoiseF rt interp draw (pos + q * (n * n)) cfg.badFlags e.1 (tested k).1 (tested k).2 = .ok o := by
    intro N
    induction N with
    | zero =>
      intro _ st hst
      injection hst with hst
      subst hst
      refine ⟨?_, rfl, by simp, by simp⟩
      simp only [Nat.not_lt_zero, if_false, List.map_const', List.length_range]
    | succ N ih =>
      intro hN st' hst
      rw [List.range_succ, foldRes_append] at hst
      obtain ⟨st, hst0, hst⟩ := Res.bind_eq_ok.mp hst
      obtain ⟨st'', hst1, hnil⟩ := foldRes_cons_ok.mp hst
      injection hnil with hnil
      rw [hnil] at hst1
      clear hst
      rename' hst1 => hst
      obtain ⟨i1, i2, i3, i4⟩ := ih (by omega) st hst0
      unfold epochStepF at hst
      obtain ⟨im, h1, hst⟩ := Res.bind_eq_ok.mp hst
      obtain ⟨wt, h2, hst⟩ := Res.bind_eq_ok.mp hst
      obtain ⟨bm, h3, hst⟩ := Res.bind_eq_ok.mp hst
      obtain ⟨bw, h4, hst⟩ := Res.bind_eq_ok.mp hst
      obtain ⟨flag, h5, hst⟩ := Res.bind_eq_ok.mp hst
      have g1 := pyGet_ok_nonneg h1 (Int.natCast_nonneg N)
      have g2 := pyGet_ok_nonneg h2 (Int.natCast_nonneg N)
      have g3 := pyGet_ok_nonneg h3 (Int.natCast_nonneg N)
      simp only [Int.toNat_natCast] at g1 g2 g3
      rw [List.getElem?_map] at g1 g3
      obtain ⟨e, ee, rfl⟩ := Option.map_eq_some_iff.mp g1
      rw [ee] at g3
      injection g3 with g3
      subst g3
      obtain ⟨wt', t1, t2, t3, t4⟩ := htest N e ee
      rw [g2] at t1
      injection t1 with t1
      subst t1
      rw [h4] at t3
      injection t3 with t3
      subst t3
      have hfl : flag = firstFailed cfg (tested N).1 (tested N).2 := by
        have := C126_first_failed_test (cfg := cfg) t4.1 (by rw [t4.2.1, t4.2.2.1]) (by rw [t4.2.1]; exact h0) hec
        rw [h5] at this
        injection this
      have hset : ∀ v : Int, v = firstFailed cfg (tested N).1 (tested N).2 → st.flags.set N v =
          (List.range es.length).map (fun k => if k < N + 1 then firstFailed cfg (tested k).1 (tested k).2 else 0) := by
        rintro v rfl
        rw [i1]
        apply List.ext_getElem?
        intro k
        rw [List.getElem?_set, List.getElem?_map, List.length_map, List.length_range]
        by_cases hk : k < es.length
        · by_cases hkn : N = k
          · subst hkn
            simp [hk]
          · rw [if_neg hkn]
            have : (k < N + 1) = (k < N) := propext (by omega)
            rw [List.getElem?_map, List.getElem?_range hk, Option.map_some, Option.map_some]
            simp only [this]
        · have hkr : (List.range es.length)[k]? = none := List.getElem?_eq_none (by simpa using hk)
          rw [List.getElem?_map, hkr, if_neg (by omega)]
          rfl
      by_cases hf : flag ≠ 0
      · rw [if_pos hf] at hst
        injection hst with hst
        subst hst
        refine ⟨hset flag hfl, ?_, i3, i4⟩
        rw [List.range_succ, List.filter_append, i2]
        simp [← hfl, hf]
      · rw [if_neg hf] at hst
        obtain ⟨x, h6, hst⟩ := Res.bind_eq_ok.mp hst
        injection hst with hst
        subst hst
        have hf0 : flag = 0 := not_not.mp hf
        have hx : x.pos = st.pos + n * n := by
          obtain ⟨q1, q2, q0, q3, q4, q5, q6, q7, q8⟩ := hs e (List.mem_of_getElem? ee)
          have := (C127_noise hrt t4.1 (show ShapesAgree e.1 (tested N).2 from ⟨q1, t4.1.2.1, by rw [q3, t4.2.1], by rw [q4, t4.2.2.1]⟩)
            (by rw [t4.2.1]; exact h0) (by rw [t4.2.2.1]; exact h0) h6).2.2.1
          rw [this, t4.2.1, t4.2.2.1]
        refine ⟨?_, ?_, ?_, ?_⟩
        · rw [← hset 0 (hf0.symm.trans hfl)]
          show st.flags = _
          have : st.flags[N]? = some 0 := by
            rw [i1, List.getElem?_map, List.getElem?_range (by omega)]
            simp
          apply List.ext_getElem?
          intro k
          rw [List.getElem?_set]
          by_cases hkn : N = k
          · subst hkn
            rw [if_pos rfl, if_pos (List.getElem?_eq_some_iff.mp this).1, this]
          · rw [if_neg hkn]
        · show List.map (·.1) (st.obs ++ [(N, x)]) = _
          rw [List.map_append, i2, List.range_succ, List.filter_append]
          simp [← hfl, hf0]
        · show x.pos = _
          rw [hx, i3]
          simp only [List.length_append, List.length_singleton]
          ring
        · intro q k o e' hq he'
          rcases Nat.lt_or_ge q st.obs.length with hlt | hge
          · refine i4 q k o e' ?_ he'
            rwa [List.getElem?_append_left hlt] at hq
          · rw [List.getElem?_append_right hge] at hq
            obtain ⟨hq0, hq⟩ : q - st.obs.length = 0 ∧ (N, x) = (k, o) := by
              rcases Nat.eq_zero_or_pos (q - st.obs.length) with hz | hz
              · rw [hz] at hq
                injection hq with hq
                exact ⟨hz, hq⟩
              · rw [List.getElem?_eq_none (by rw [List.length_singleton]; exact hz)] at hq
                cases hq
            injection hq with hk ho
            subst hk ho
            rw [ee] at he'
            injection he' with he'
            subst he'
            have : q = st.obs.length := by omega
            rw [this, ← i3]
            exact h6
  rw [List.length_map] at h
  obtain ⟨k1, k2, k3, k4⟩ := key es.length (le_refl _) r h
  have hflags : r.flags = (List.range es.length).map (fun k => firstFailed cfg (tested k).1 (tested k).2) := by
    rw [k1]
    apply List.map_congr_left
    intro k hk
    rw [if_pos (List.mem_range.mp hk)]
  refine ⟨tested, fun k e he => ?_, hflags, ?_, k3, ?_⟩
  · obtain ⟨wt', _, t2, _, t4⟩ := htest k e he
    exact ⟨wt', t2, t4⟩
  · rw [k2]
    apply List.filter_congr
    intro k hk
    rw [hflags, List.getElem?_map, List.getElem?_range (List.mem_range.mp hk)]
    simp
  · intro q k o e hq he
    obtain ⟨wt', _, _, _, t4⟩ := htest k e he
    have hrun := k4 q k o e hq he
    obtain ⟨q1, q2, q0, q3, q4, q5, q6, q7, q8⟩ := hs e (List.mem_of_getElem? he)
    have hsh : ShapesAgree e.1 (tested k).2 := ⟨q1, t4.1.2.1, by rw [q3, t4.2.1], by rw [q4, t4.2.2.1]⟩
    have hr : 0 < (tested k).2.nr := by rw [t4.2.1]; exact h0
    have hc : 0 < (tested k).2.nc := by rw [t4.2.2.1]; exact h0
    obtain ⟨n1, n2, _, n4⟩ := C127_noise hrt t4.1 hsh hr hc hrun
    have hp := interpNoiseF_planes hrun
    obtain ⟨im2, wt2, ps, hps, ep, hs2, w1, w2, hkeep, hbad, _⟩ := C126_handed_on (interp := interp) t4.1 hsh (kept_of_ok t4.1 hr hc hp)
    rw [hp] at ep
    injection ep with ep
    injection ep with e1 ep
    injection ep with e2 e3
    subst e1 e2
    refine ⟨ps, hps, e3, ?_, ?_, w1.trans t4.2.1, w2.trans t4.2.2.1, n1.trans t4.2.1, n2.trans t4.2.2.1, ?_, hbad⟩
    · exact hs2.2.2.1.trans (w1.trans t4.2.1)
    · exact hs2.2.2.2.trans (w2.trans t4.2.2.1)
    · intro i j w ew hu
      obtain ⟨hi, hj⟩ := Img.get?_lt ew
      obtain ⟨g1, g2⟩ := hkeep i j hi hj hu
      obtain ⟨v, g3, g4⟩ := n4 i j w ew hu
      rw [t4.2.2.1] at g4
      exact ⟨g1, g2.trans ew, v, g3, g4⟩

namespace ExFloat

/-- As `es`, but the second epoch has no positive weight besides infinite ones on one side. -/
def es2 : List (Img Flt × Img Flt × Img ℚ) := es.set 1 (sq (.num 7) [], ⟨5, 5, List.replicate 5 (.inf false) ++ List.replicate 20 (.num (-1))⟩, ⟨5, 5, List.replicate 25 0⟩)

-- the second epoch is not used; the third draws its deviates right after the first
example : ((obslistF rt 5 (3 / 10) ExNaN.mean cfg (fun k => k) 0 (es2.map (·.1)) (es2.map (·.2.1)) (es2.map (·.2.2))).map
      (fun r => (r.obs.map (fun o => (o.1, o.2.ninterp)), r.flags, r.pos))) = .ok ([(0, 0), (2, 1), (3, 2)], [0, 4, 0, 0], 75) := by decide +kernel
example : ((obslistF rt 5 (3 / 10) ExNaN.mean cfg (fun k => k) 0 (es2.map (·.1)) (es2.map (·.2.1)) (es2.map (·.2.2))).map
    (fun r => ((r.obs.drop 1).take 1).map (fun o => o.2.noise.flat.take 3))) = .ok [[.num (75 / 4), .num 13, .num (27 / 2)]] := by decide +kernel
-- the hypotheses of `C127_epochs`
example : (∀ e ∈ es2, StampsOf 5 5 e.1 e.2.1 e.2.2) ∧ cfg.edgeCheck = true ∧ rt 0 = 0 := by
  refine ⟨?_, rfl, by decide +kernel⟩
  intro e he
  simp only [es2, es, List.set_cons_succ, List.set_cons_zero, List.mem_cons, List.not_mem_nil, or_false] at he
  rcases he with rfl | rfl | rfl | rfl <;> exact ⟨rfl, rfl, rfl, rfl, rfl, rfl, rfl, rfl, rfl⟩

end ExFloat

end Meds.Coadd
