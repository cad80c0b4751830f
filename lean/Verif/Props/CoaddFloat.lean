import Verif.Lemmas.RejectFloatN
import Verif.Props.CoaddNaN

/-!
# The epochs of an object with pixels that are not numbers (C127)
-/

namespace Meds.Coadd
open Meds.Spec Meds.Coadd.Spec Compare

open Classical in
/-- **C127** `reject_outliers` on three or more images and weights with NaN and infinities anywhere: the images stay, a weight becomes zero if the value is an outlier for the
median of the values at that pixel, and is clipped at zero otherwise; the return value is the number of positive weights that became zero.  Without condition on `nsigma` and `A`. -/
theorem C127_rejection (rt : ℚ → ℚ) (nsigma A : ℚ) {ps : List (Img Flt × Img Flt)} {nr nc : Nat} (hs : Reject.StackFlt ps nr nc) (h3 : 3 ≤ ps.length) :
    ∃ r, Reject.rejectOutliersFlt rt nsigma A (ps.map (·.1)) (ps.map (·.2)) = .ok r ∧ r.ims = ps.map (·.1) ∧ r.wts.length = ps.length ∧
      (∀ (k : Nat) p wt', ps[k]? = some p → r.wts[k]? = some wt' → wt'.WF ∧ wt'.nr = nr ∧ wt'.nc = nc ∧
        ∀ a b x w, p.1.get? a b = some x → p.2.get? a b = some w →
          ∃ m w', IsMedianAny (ps.filterMap (fun q => q.1.get? a b)) m ∧ ClippedTo w w' ∧ wt'.get? a b = some (if OutlierFlt rt nsigma A m x w then .num 0 else w')) ∧
      r.nreject = (List.zipWith zeroedFlt (ps.map (·.2)) r.wts).sum := by
  refine ⟨_, Reject.runFlt hs h3, rfl, by simp, ?_, ?_⟩
  · intro k p wt' hk hk'
    simp only [List.getElem?_map, hk, Option.map_some, Option.some.injEq] at hk'
    subst hk'
    have hp := List.mem_of_getElem? hk
    obtain ⟨s1, s2, s3⟩ := Reject.newWtFlt_shape (rt := rt) (nsigma := nsigma) (A := A) hs hp
    refine ⟨s1, s2, s3, ?_⟩
    intro a b x w hx hw
    have hne : ps.filterMap (fun q => q.1.get? a b) ≠ [] := by
      intro h
      have : x ∈ ps.filterMap (fun q => q.1.get? a b) := List.mem_filterMap.mpr ⟨p, hp, hx⟩
      rw [h] at this
      cases this
    refine ⟨_, w.clipF, Reject.medianF_any hne, Reject.clippedTo_clipF w, ?_⟩
    rw [Reject.newWtFlt_get hs hp hx hw]
    congr 1
    by_cases ht : Reject.testFlt rt nsigma A (medianF (ps.filterMap (fun q => q.1.get? a b))) x w.clipF = true
    · rw [if_pos ht, if_pos ((Reject.testFlt_iff _ _ _ _ _ _).mp ht)]
    · rw [if_neg ht, if_neg (fun h => ht ((Reject.testFlt_iff _ _ _ _ _ _).mpr h))]
  · simp only
    congr 1
    rw [List.zipWith_map, List.zipWith_self]
    apply List.map_congr_left
    intro p hp
    obtain ⟨q1, q2, q3, q4, q5, q6⟩ := hs p hp
    apply Reject.newCountFlt_zeroed
    · rw [q2, q5, q6]; exact Img.ofFn_flat_length _ _ _
    · rw [q1, q2, q3, q4, q5, q6]

/-! ### One epoch -/

/-- Image and weight are those of `interpBadPixelsF`. -/
theorem interpNoiseF_planes {rt : ℚ → ℚ} {interp : InterpF} {draw : Nat → ℚ} {pos : Nat} {flags : Option Int} {im : Img Flt} {bm : Img ℚ} {wt : Img Flt} {r : InterpedF}
    (h : interpNoiseF rt interp draw pos flags im bm wt = .ok r) : interpBadPixelsF interp flags im bm wt = .ok (r.image, r.weight, r.ninterp) := by
  unfold interpNoiseF at h
  unfold interpBadPixelsF
  simp only at h ⊢
  split at h
  · rename_i h0
    rw [if_pos h0]
    injection h with h
    subst h
    rfl
  · rename_i h0
    rw [if_neg h0]
    split at h
    · cases h
    · rename_i h1
      rw [if_neg h1]
      injection h with h
      subst h
      rfl

/-- The noise image: at a pixel that is kept the deviate times the error, elsewhere the interpolator's value on the noise of the kept pixels. -/
theorem interpNoiseF_noise {rt : ℚ → ℚ} {interp : InterpF} {draw : Nat → ℚ} {pos : Nat} {flags : Option Int} {im : Img Flt} {bm : Img ℚ} {wt : Img Flt} {r : InterpedF}
    (h : interpNoiseF rt interp draw pos flags im bm wt = .ok r) :
    ∃ good : List Nat, r.noise.nr = r.weight.nr ∧ r.noise.nc = r.weight.nc ∧ r.pos = pos + r.weight.flat.length ∧
      r.noise.flat = (makeNoiseImageF rt draw pos r.weight).1.flat.mapIdx
        (fun k v => if (badPixelsF flags bm wt).flat[k]? = some true then interpAtF interp good (makeNoiseImageF rt draw pos r.weight).1 k else v) := by
  unfold interpNoiseF at h
  simp only at h
  split at h
  · rename_i h0
    injection h with h
    subst h
    refine ⟨[], rfl, rfl, rfl, ?_⟩
    symm
    rw [List.mapIdx_eq_iff]
    intro k
    cases hk : (makeNoiseImageF rt draw pos wt).1.flat[k]? with
    | none => rfl
    | some v =>
      rw [Option.map_some, if_neg]
      intro hb
      exact absurd (List.mem_of_getElem? hb) (List.count_eq_zero.mp h0)
  · split at h
    · cases h
    · injection h with h
      subst h
      exact ⟨_, rfl, rfl, rfl, rfl⟩

theorem num_noise {rt : ℚ → ℚ} {d q : ℚ} (hq : 0 < q) : (Flt.num d).mul ((Flt.num q).recipF.sqrtF rt) = .num (d * rt (1 / q)) := by
  simp only [Flt.recipF]
  rw [if_neg hq.ne']
  simp only [Flt.sqrtF]
  rw [if_neg (not_lt.mpr (by positivity))]
  rfl

/-- One epoch whose pixels, where they are not masked, are numbers. -/
theorem epoch_finite {rt : ℚ → ℚ} {interp : InterpF} (hint : ∀ pts p, (∀ x ∈ pts, ∃ q : ℚ, x.2 = .num q) → ∃ q : ℚ, interp pts p = .num q) {draw : Nat → ℚ} {pos : Nat}
    {flags : Option Int} {im : Img Flt} {bm : Img ℚ} {wt : Img Flt} (hs : ShapesAgree bm wt) (him : ShapesAgree im wt) (hr : 0 < wt.nr) (hc : 0 < wt.nc)
    (hk : ∀ i j, i < wt.nr → j < wt.nc → ¬ UnusableF flags bm wt i j → (∃ q : ℚ, im.get? i j = some (.num q)) ∧ ∃ q : ℚ, wt.get? i j = some (.num q))
    {r : InterpedF} (h : interpNoiseF rt interp draw pos flags im bm wt = .ok r) :
    ∀ i j, i < wt.nr → j < wt.nc →
      ∃ a b c : ℚ, r.image.get? i j = some (.num a) ∧ r.weight.get? i j = some (.num b) ∧ 0 < b ∧ r.noise.get? i j = some (.num c) := by
  have hp := interpNoiseF_planes h
  obtain ⟨im2, wt2, ps, hps, e, hsh, w1, w2, hkeep, hb, _, hpos⟩ := C126_handed_on (interp := interp) hs him (kept_of_ok hs hr hc hp)
  rw [hp] at e
  injection e with e
  injection e with e1 e
  injection e with e2 e3
  subst e1 e2
  have hno : ¬ ∃ i j, NanWeight flags bm wt i j := by
    rintro ⟨i, j, hn⟩
    obtain ⟨b, eb, ew, _⟩ := id hn
    obtain ⟨hi, hj⟩ := Img.get?_lt ew
    obtain ⟨q, eq⟩ := (hk i j hi hj (nan_not_unusable hn)).2
    rw [ew] at eq
    cases eq
  obtain ⟨hpos, m, hmed, hm⟩ := hpos hno
  have hwnum : ∀ i j, i < wt.nr → j < wt.nc → ∃ b : ℚ, r.weight.get? i j = some (.num b) ∧ 0 < b := by
    intro i j hi hj
    obtain ⟨v, hv⟩ := Img.get?_some_of_WF hsh.2.1 (show i < r.weight.nr by rw [w1]; exact hi) (show j < r.weight.nc by rw [w2]; exact hj)
    have hvp := hpos i j v hv
    by_cases hu : UnusableF flags bm wt i j
    · have := hm i j hu
      rw [hv] at this
      injection this with this
      subst this
      obtain ⟨s, hperm, _, x, y, hx, hy, hmean⟩ := hmed
      have hnum : ∀ z ∈ s, ∃ q : ℚ, z = .num q := by
        intro z hz
        obtain ⟨p, hpp, ez⟩ := List.mem_filterMap.mp (hperm.mem_iff.mp hz)
        obtain ⟨p1, p2, p3⟩ := (hps.2 p.1 p.2).mp hpp
        obtain ⟨q, eq⟩ := (hk p.1 p.2 p1 p2 p3).2
        rw [ez] at eq
        injection eq with eq
        exact ⟨q, eq⟩
      obtain ⟨qx, rfl⟩ := hnum x (List.mem_of_getElem? hx)
      obtain ⟨qy, rfl⟩ := hnum y (List.mem_of_getElem? hy)
      have hmean : v = .num ((qx + qy) / 2) := hmean
      subst hmean
      exact ⟨_, hv, hvp⟩
    · obtain ⟨q, eq⟩ := (hk i j hi hj hu).2
      rw [← (hkeep i j hi hj hu).2, hv] at eq
      injection eq with eq
      subst eq
      exact ⟨q, hv, hvp⟩
  have hnoise : ∀ (k : Nat) v, (makeNoiseImageF rt draw pos r.weight).1.flat[k]? = some v → ∃ q : ℚ, v = Flt.num q := by
    intro k v hv
    change (r.weight.flat.mapIdx _)[k]? = some v at hv
    rw [List.getElem?_mapIdx] at hv
    obtain ⟨w, ew, rfl⟩ := Option.map_eq_some_iff.mp hv
    have hk' : k < r.weight.nr * r.weight.nc := by
      obtain ⟨hlt, _⟩ := List.getElem?_eq_some_iff.mp ew
      rw [← show r.weight.flat.length = r.weight.nr * r.weight.nc from hsh.2.1]; exact hlt
    rw [flat_get? hk'] at ew
    obtain ⟨hi, hj⟩ := Img.get?_lt ew
    obtain ⟨b, eb, hb0⟩ := hwnum _ _ (by rw [← w1]; exact hi) (by rw [← w2]; exact hj)
    rw [ew] at eb
    injection eb with eb
    subst eb
    exact ⟨_, num_noise hb0⟩
  intro i j hi hj
  obtain ⟨b, eb, hb0⟩ := hwnum i j hi hj
  obtain ⟨good, n1, n2, _, n3⟩ := interpNoiseF_noise h
  have himage : ∃ a : ℚ, r.image.get? i j = some (.num a) := by
    by_cases hu : UnusableF flags bm wt i j
    · rw [hb i j hu]
      have : ∀ x ∈ pointsAt im ps, ∃ q : ℚ, x.2 = .num q := by
        intro x hx
        obtain ⟨p, hpp, ep⟩ := List.mem_filterMap.mp hx
        obtain ⟨v, ev, rfl⟩ := Option.map_eq_some_iff.mp ep
        obtain ⟨p1, p2, p3⟩ := (hps.2 p.1 p.2).mp hpp
        obtain ⟨q, eq⟩ := (hk p.1 p.2 p1 p2 p3).1
        rw [ev] at eq
        injection eq with eq
        exact ⟨q, eq⟩
      obtain ⟨q, eq⟩ := hint _ (i, j) this
      exact ⟨q, by rw [eq]⟩
    · rw [(hkeep i j hi hj hu).1]
      exact (hk i j hi hj hu).1
  obtain ⟨a, ea⟩ := himage
  have hc' : ∃ c : ℚ, r.noise.get? i j = some (Flt.num c) := by
    rw [get?_flatG (by rw [n1, w1]; exact hi) (by rw [n2, w2]; exact hj), n3, List.getElem?_mapIdx]
    have hlen : (makeNoiseImageF rt draw pos r.weight).1.flat.length = r.weight.nr * r.weight.nc := by
      show (r.weight.flat.mapIdx _).length = _
      rw [List.length_mapIdx]; exact hsh.2.1
    have hlt : i * r.noise.nc + j < (makeNoiseImageF rt draw pos r.weight).1.flat.length := by
      rw [hlen, n2]; exact Img.idx_lt (by rw [w1]; exact hi) (by rw [w2]; exact hj)
    rw [List.getElem?_eq_getElem hlt, Option.map_some]
    split
    · obtain ⟨q, eq⟩ := hint ((good.filterMap (fun g => ((makeNoiseImageF rt draw pos r.weight).1.flat[g]?).map (fun v =>
          ((g / (makeNoiseImageF rt draw pos r.weight).1.nc, g % (makeNoiseImageF rt draw pos r.weight).1.nc), v)))))
          ((i * r.noise.nc + j) / (makeNoiseImageF rt draw pos r.weight).1.nc, (i * r.noise.nc + j) % (makeNoiseImageF rt draw pos r.weight).1.nc) (by
        intro x hx
        obtain ⟨g, _, eg⟩ := List.mem_filterMap.mp hx
        obtain ⟨v, ev, rfl⟩ := Option.map_eq_some_iff.mp eg
        exact hnoise g v ev)
      refine ⟨q, ?_⟩
      unfold interpAtF
      rw [eq]
    · obtain ⟨q, eq⟩ := hnoise _ _ (List.getElem?_eq_getElem hlt)
      exact ⟨q, by rw [eq]⟩
  obtain ⟨c, ec⟩ := hc'
  exact ⟨a, b, c, ea, eb, hb0, ec⟩

open Classical in
/-- **C127** The noise at a pixel that is not masked: the deviate of that pixel times `sqrt(1 / weight)` if the weight is a number, zero if it is infinite, NaN if it is NaN. -/
theorem C127_noise {rt : ℚ → ℚ} (h0 : rt 0 = 0) {interp : InterpF} {draw : Nat → ℚ} {pos : Nat} {flags : Option Int} {im : Img Flt} {bm : Img ℚ} {wt : Img Flt}
    (hs : ShapesAgree bm wt) (him : ShapesAgree im wt) (hr : 0 < wt.nr) (hc : 0 < wt.nc) {r : InterpedF} (h : interpNoiseF rt interp draw pos flags im bm wt = .ok r) :
    r.noise.nr = wt.nr ∧ r.noise.nc = wt.nc ∧ r.pos = pos + wt.nr * wt.nc ∧
    ∀ i j w, wt.get? i j = some w → ¬ UnusableF flags bm wt i j → ∃ v, r.noise.get? i j = some v ∧ NoiseFlt rt (draw (pos + (i * wt.nc + j))) w v := by
  have hp := interpNoiseF_planes h
  obtain ⟨im2, wt2, ps, hps, e, hsh, w1, w2, hkeep, _⟩ := C126_handed_on (interp := interp) hs him (kept_of_ok hs hr hc hp)
  rw [hp] at e
  injection e with e
  injection e with e1 e
  injection e with e2 e3
  subst e1 e2
  obtain ⟨good, n1, n2, n4, n3⟩ := interpNoiseF_noise h
  have hl : r.weight.flat.length = wt.nr * wt.nc := by rw [← w1, ← w2]; exact hsh.2.1
  refine ⟨n1.trans w1, n2.trans w2, by rw [n4, hl], ?_⟩
  intro i j w ew hu
  obtain ⟨hi, hj⟩ := Img.get?_lt ew
  have e := (hkeep i j hi hj hu).2
  rw [ew, get?_flatG (by rw [w1]; exact hi) (by rw [w2]; exact hj), w2] at e
  have hb : ¬ (badPixelsF flags bm wt).flat[i * wt.nc + j]? = some true := by
    exact fun hb => hu ((badF_flat hs hi hj).mpr hb)
  refine ⟨(Flt.num (draw (pos + (i * wt.nc + j)))).mul (w.recipF.sqrtF rt), ?_, ?_⟩
  · rw [get?_flatG (by rw [n1, w1]; exact hi) (by rw [n2, w2]; exact hj), n3, List.getElem?_mapIdx, n2, w2]
    change Option.map _ (r.weight.flat.mapIdx _)[i * wt.nc + j]? = _
    rw [List.getElem?_mapIdx, e, Option.map_some, Option.map_some, if_neg hb]
  · cases w with
    | num q => exact fun hq => num_noise hq
    | nan => exact rfl
    | inf s =>
      cases s
      · show (Flt.num _).mul ((Flt.num 0).sqrtF rt) = _
        simp [Flt.sqrtF, Flt.mul, h0]
      · exfalso
        obtain ⟨b, eb⟩ := Img.get?_some_of_WF hs.1 (show i < bm.nr by rw [hs.2.2.1]; exact hi) (show j < bm.nc by rw [hs.2.2.2]; exact hj)
        exact hu ⟨b, _, eb, ew, .inl rfl⟩

/-! ### All epochs of an object -/

/-- What outlier rejection leaves of an epoch: a pixel that is not masked afterwards was not masked before and has its weight. -/
theorem rejected_kept {rt : ℚ → ℚ} {nsigma A : ℚ} {cfg : Cfg} {es : List (Img Flt × Img Flt × Img ℚ)} {nr nc : Nat} (hs : ∀ e ∈ es, StampsOf nr nc e.1 e.2.1 e.2.2)
    {wts' : List (Img Flt)} (h : (if cfg.rejectOutliers then do
      let r ← Reject.rejectOutliersFlt rt nsigma A (es.map (·.1)) (es.map (·.2.1))
      .ok r.wts
    else .ok (es.map (·.2.1))) = Except.ok wts') :
    ∀ (k : Nat) e wt', es[k]? = some e → wts'[k]? = some wt' → wt'.WF ∧ wt'.nr = nr ∧ wt'.nc = nc ∧
      ∀ (flags : Option Int) (i j : Nat), i < nr → j < nc → ¬ UnusableF flags e.2.2 wt' i j → ¬ UnusableF flags e.2.2 e.2.1 i j ∧ wt'.get? i j = e.2.1.get? i j := by
  have same : wts' = es.map (·.2.1) → ∀ (k : Nat) e wt', es[k]? = some e → wts'[k]? = some wt' → wt'.WF ∧ wt'.nr = nr ∧ wt'.nc = nc ∧
      ∀ (flags : Option Int) (i j : Nat), i < nr → j < nc → ¬ UnusableF flags e.2.2 wt' i j → ¬ UnusableF flags e.2.2 e.2.1 i j ∧ wt'.get? i j = e.2.1.get? i j := by
    rintro rfl k e wt' he hw
    rw [List.getElem?_map, he] at hw
    injection hw with hw
    subst hw
    obtain ⟨_, q2, _, _, _, q5, q6, _⟩ := hs e (List.mem_of_getElem? he)
    exact ⟨q2, q5, q6, fun _ _ _ _ _ hu => ⟨hu, rfl⟩⟩
  split at h
  · obtain ⟨r, hr, h⟩ := Res.bind_eq_ok.mp h
    injection h with h
    by_cases h3 : 3 ≤ es.length
    · have hst : Reject.StackFlt (es.map (fun e => (e.1, e.2.1))) nr nc := by
        intro p hp
        obtain ⟨e, he, rfl⟩ := List.mem_map.mp hp
        obtain ⟨q1, q2, _, q3, q4, q5, q6, _⟩ := hs e he
        exact ⟨q1, q2, q3, q4, q5, q6⟩
      obtain ⟨r', hr', _, _, hpix, _⟩ := C127_rejection rt nsigma A hst (by rw [List.length_map]; exact h3)
      rw [List.map_map, List.map_map] at hr'
      have : r' = r := by
        have := hr'.symm.trans hr
        injection this
      subst this
      intro k e wt' he hw
      rw [← h] at hw
      obtain ⟨s1, s2, s3, s4⟩ := hpix k (e.1, e.2.1) wt' (by rw [List.getElem?_map, he]; rfl) hw
      refine ⟨s1, s2, s3, ?_⟩
      intro flags i j hi hj hu
      obtain ⟨q1, q2, q0, q3, q4, q5, q6, q7, q8⟩ := hs e (List.mem_of_getElem? he)
      obtain ⟨x, ex⟩ := Img.get?_some_of_WF q1 (show i < e.1.nr by omega) (show j < e.1.nc by omega)
      obtain ⟨w, ew⟩ := Img.get?_some_of_WF q2 (show i < e.2.1.nr by omega) (show j < e.2.1.nc by omega)
      obtain ⟨b, eb⟩ := Img.get?_some_of_WF q0 (show i < e.2.2.nr by omega) (show j < e.2.2.nc by omega)
      obtain ⟨m, w', _, hclip, hnew⟩ := s4 i j x w ex ew
      have hf : ¬ HasFlag flags b := fun hf => hu ⟨b, _, eb, hnew, .inr hf⟩
      have hz : AtMostZero (.num 0) := le_refl (0 : ℚ)
      split at hnew
      · exact absurd ⟨b, _, eb, hnew, .inl hz⟩ hu
      · rcases hclip with ⟨_, rfl⟩ | ⟨hn, rfl⟩
        · exact absurd ⟨b, _, eb, hnew, .inl hz⟩ hu
        · refine ⟨?_, hnew.trans ew.symm⟩
          rintro ⟨b₂, w₂, eb₂, ew₂, hh⟩
          rw [eb] at eb₂
          rw [ew] at ew₂
          injection eb₂ with eb₂
          injection ew₂ with ew₂
          subst eb₂ ew₂
          exact hh.elim hn hf
    · refine same ?_
      unfold Reject.rejectOutliersFlt at hr
      rw [if_pos (by rw [List.length_map]; omega)] at hr
      injection hr with hr
      rw [← h, ← hr]
  · injection h with h
    exact same h.symm

/-- **C127** If image and weight are numbers wherever a pixel is not masked (a weight of zero or less, or a bad flag), then all that is handed to the coadding code is: image,
weight and noise of every epoch that is used, at every pixel, and the weight is positive.  The masked pixels may be NaN or infinite, outliers rejected or not, masks symmetrized or
not.  The interpolator is taken to give numbers for numbers. -/
theorem C127_finite {rt : ℚ → ℚ} {nsigma A : ℚ} {interp : InterpF} (hint : ∀ pts p, (∀ x ∈ pts, ∃ q : ℚ, x.2 = .num q) → ∃ q : ℚ, interp pts p = .num q) {cfg : Cfg}
    {draw : Nat → ℚ} {pos : Nat} {es : List (Img Flt × Img Flt × Img ℚ)} {n : Nat} (h0 : 0 < n) (hs : ∀ e ∈ es, StampsOf n n e.1 e.2.1 e.2.2)
    (hk : ∀ e ∈ es, ∀ i j, i < n → j < n → ¬ UnusableF cfg.badFlags e.2.2 e.2.1 i j → (∃ q : ℚ, e.1.get? i j = some (.num q)) ∧ ∃ q : ℚ, e.2.1.get? i j = some (.num q))
    {r : LoopF} (h : obslistF rt nsigma A interp cfg draw pos (es.map (·.1)) (es.map (·.2.1)) (es.map (·.2.2)) = .ok r) :
    ∀ o ∈ r.obs, ∀ i j, i < n → j < n →
      ∃ a b c : ℚ, o.2.image.get? i j = some (.num a) ∧ o.2.weight.get? i j = some (.num b) ∧ 0 < b ∧ o.2.noise.get? i j = some (.num c) := by
  unfold obslistF at h
  obtain ⟨wts', hw, h⟩ := Res.bind_eq_ok.mp h
  have hrej := rejected_kept hs hw
  refine foldRes_inv (P := fun st : LoopF => ∀ o ∈ st.obs, ∀ i j, i < n → j < n →
      ∃ a b c : ℚ, o.2.image.get? i j = some (.num a) ∧ o.2.weight.get? i j = some (.num b) ∧ 0 < b ∧ o.2.noise.get? i j = some (.num c)) (by simp) ?_ h
  intro st st' k _ hP hst
  unfold epochStepF at hst
  obtain ⟨im, h1, hst⟩ := Res.bind_eq_ok.mp hst
  obtain ⟨wt, h2, hst⟩ := Res.bind_eq_ok.mp hst
  obtain ⟨bm, h3, hst⟩ := Res.bind_eq_ok.mp hst
  obtain ⟨bw, h4, hst⟩ := Res.bind_eq_ok.mp hst
  obtain ⟨flag, h5, hst⟩ := Res.bind_eq_ok.mp hst
  by_cases hf : flag ≠ 0
  · rw [if_pos hf] at hst
    injection hst with hst
    subst hst
    exact hP
  rw [if_neg hf] at hst
  obtain ⟨x, h6, hst⟩ := Res.bind_eq_ok.mp hst
  injection hst with hst
  subst hst
  have g1 := pyGet_ok_nonneg h1 (Int.natCast_nonneg k)
  have g2 := pyGet_ok_nonneg h2 (Int.natCast_nonneg k)
  have g3 := pyGet_ok_nonneg h3 (Int.natCast_nonneg k)
  simp only [Int.toNat_natCast] at g1 g2 g3
  rw [List.getElem?_map] at g1 g3
  obtain ⟨e, ee, rfl⟩ := Option.map_eq_some_iff.mp g1
  rw [ee] at g3
  injection g3 with g3
  subst g3
  obtain ⟨t1, t2, t3, hkept⟩ := hrej k e wt ee g2
  have he := List.mem_of_getElem? ee
  obtain ⟨q1, q2, q0, q3, q4, q5, q6, q7, q8⟩ := hs e he
  have hsh : ShapesAgree e.2.2 wt := ⟨q0, t1, by rw [q7, t2], by rw [q8, t3]⟩
  obtain ⟨s1, s2, s3, s4, s5⟩ := symmetrizedF_spec hsh t2 t3 h4
  intro o ho
  rcases List.mem_append.mp ho with ho | ho
  · exact hP o ho
  rw [List.mem_singleton] at ho
  subst ho
  have := epoch_finite hint s1 (show ShapesAgree e.1 bw.2 from ⟨q1, s1.2.1, by rw [q3, s2], by rw [q4, s3]⟩) (by rw [s2]; exact h0) (by rw [s3]; exact h0) (by
    intro i j hi hj hu
    rw [s2] at hi
    rw [s3] at hj
    have hu1 : ¬ UnusableF cfg.badFlags e.2.2 wt i j := fun hh => hu (s4 i j hh)
    obtain ⟨hu2, ew⟩ := hkept cfg.badFlags i j hi hj hu1
    obtain ⟨k1, q, k2⟩ := hk e he i j hi hj hu2
    refine ⟨k1, q, ?_⟩
    rw [← ew] at k2
    rcases symmetrizedF_weight t2 t3 h4 k2 with hh | hh
    · exact hh
    · exfalso
      obtain ⟨b, eb⟩ := Img.get?_some_of_WF s1.1 (show i < bw.1.nr by rw [s1.2.2.1, s2]; exact hi) (show j < bw.1.nc by rw [s1.2.2.2, s3]; exact hj)
      exact hu ⟨b, _, eb, hh, .inl (le_refl (0 : ℚ))⟩) h6
  rw [s2, s3] at this
  exact this

/-! ### Agreement with the other models -/

/-- **C127** Without infinities the outlier rejection is that of C103, and so, without NaN, that of C33 and C34. -/
theorem C127_without_infinities (rt : ℚ → ℚ) (nsigma A : ℚ) {ims : List (Img (Option ℚ))} (hw : ∀ im ∈ ims, im.WF) (wts : List (Img (Option ℚ))) :
    Reject.rejectOutliersFlt rt nsigma A (ims.map (Img.map Reject.fltOf)) (wts.map (Img.map Reject.fltOf)) =
      (Reject.rejectOutliersN rt nsigma A ims wts >>= fun r => .ok ⟨r.ims.map (Img.map Reject.fltOf), r.wts.map (Img.map Reject.fltOf), r.nreject⟩) := by
  show Reject.rejectOutliersFlt rt nsigma A (ims.map Reject.fltI) (wts.map Reject.fltI) = (Reject.rejectOutliersN rt nsigma A ims wts >>= fun r => .ok r.flt)
  unfold Reject.rejectOutliersFlt Reject.rejectOutliersN
  rw [List.length_map]
  split
  · rfl
  cases ims with
  | nil => rfl
  | cons im0 t =>
    simp only [List.map_cons]
    have e : (Reject.fltI im0 :: t.map Reject.fltI).any (fun im => decide (¬ (im.nr = (Reject.fltI im0).nr ∧ im.nc = (Reject.fltI im0).nc))) =
        (im0 :: t).any (fun im => decide (¬ (im.nr = im0.nr ∧ im.nc = im0.nc))) := by
      rw [← List.map_cons, List.any_map]
      rfl
    rw [e]
    split
    · rfl
    have hm := Reject.medianImageFlt_flt (t := t) (hw im0 (by simp))
    rw [List.map_cons] at hm
    rw [show ((Reject.fltI im0).nr, (Reject.fltI im0).nc) = (im0.nr, im0.nc) from rfl, hm]
    have key : ∀ (l : List Nat) (st : Reject.RejectedN ℚ), foldRes (Reject.stepFlt rt nsigma A (Reject.fltI (Reject.medianImageN (im0.nr, im0.nc) (im0 :: t)))) st.flt l =
        (foldRes (Reject.stepN rt nsigma A (Reject.medianImageN (im0.nr, im0.nc) (im0 :: t))) st l >>= fun r => .ok r.flt) := by
      intro l
      induction l with
      | nil => intro st; rfl
      | cons i l ih =>
        intro st
        simp only [foldRes]
        rw [Reject.stepFlt_flt]
        cases Reject.stepN rt nsigma A (Reject.medianImageN (im0.nr, im0.nc) (im0 :: t)) st i with
        | error e => rfl
        | ok st' => exact ih st'
    have := key (List.range (im0 :: t).length) ⟨im0 :: t, wts, 0⟩
    simpa [Reject.RejectedN.flt] using this

theorem makeNoiseImageF_num (rt : ℚ → ℚ) (draw : Nat → ℚ) (pos : Nat) {wt : Img ℚ} (hp : ∀ w ∈ wt.flat, 0 < w) :
    makeNoiseImageF rt draw pos (wt.map .num) = ((makeNoiseImage rt draw pos wt).1.map .num, (makeNoiseImage rt draw pos wt).2) := by
  unfold makeNoiseImageF makeNoiseImage Img.map
  simp only [List.length_map, Prod.mk.injEq, Img.mk.injEq, true_and, and_true]
  apply List.ext_getElem?
  intro k
  rw [List.getElem?_mapIdx, List.getElem?_map, List.getElem?_map, List.getElem?_mapIdx]
  cases hk : wt.flat[k]? with
  | none => rfl
  | some w =>
    simp only [Option.map_some, Option.some.injEq]
    exact num_noise (hp w (List.mem_of_getElem? hk))

theorem doInterpF_num {interpF : InterpF} {interp : Interp} (hint : ∀ pts p, interpF (pts.map (fun x => (x.1, Flt.num x.2))) p = .num (interp pts p))
    (good : List Nat) (bad : List Bool) (im : Img ℚ) : doInterpF interpF good bad (im.map .num) = (doInterp interp good bad im).map .num := by
  unfold doInterpF doInterp
  simp only [Img.map, Img.mk.injEq, true_and]
  apply List.ext_getElem?
  intro k
  rw [List.getElem?_mapIdx, List.getElem?_map, List.getElem?_map, List.getElem?_mapIdx]
  cases im.flat[k]? with
  | none => rfl
  | some v =>
    simp only [Option.map_some, Option.some.injEq]
    split
    · unfold interpAtF interpAt
      rw [← hint]
      simp only
      congr 1
      rw [List.map_filterMap]
      apply List.filterMap_congr
      intro g _
      rw [List.getElem?_map, Option.map_map, Option.map_map]
      rfl
    · rfl

/-- **C127** With numbers only, what is handed on for an epoch, with its noise image, is that of the model with numbers (C84). -/
theorem C127_numbers {interpF : InterpF} {interp : Interp} (hint : ∀ pts p, interpF (pts.map (fun x => (x.1, Flt.num x.2))) p = .num (interp pts p))
    (rt : ℚ → ℚ) (draw : Nat → ℚ) (pos : Nat) (cfg : Cfg) {im bm wt : Img ℚ} (hb : ShapesAgree bm wt) (him : ShapesAgree im wt) (hr : 0 < wt.nr) (hc : 0 < wt.nc) :
    interpNoiseF rt interpF draw pos cfg.badFlags (im.map .num) bm (wt.map .num) =
      (interpNoise rt interp draw pos cfg.badFlags im bm wt).map (fun r => ⟨r.image.map .num, r.weight.map .num, r.noise.map .num, r.ninterp, r.pos⟩) := by
  have hplanes := (C126_numbers hint cfg im bm wt hb.2.1 hb.1 hb.2.2.1 hb.2.2.2).2
  have hbF : ShapesAgree bm (wt.map Flt.num) := ⟨hb.1, Img.map_WF hb.2.1 _, hb.2.2.1, hb.2.2.2⟩
  have himF : ShapesAgree (im.map Flt.num) (wt.map Flt.num) := ⟨Img.map_WF him.1 _, Img.map_WF him.2.1 _, him.2.2.1, him.2.2.2⟩
  have hposF : ∀ x : Img ℚ × Img ℚ × Nat, interpBadPixels interp cfg.badFlags im bm wt = .ok x → ∀ w ∈ x.2.1.flat, 0 < w := by
    intro x hx w hw
    rw [hx] at hplanes
    obtain ⟨im2, wt2, ps, _, e, hsh, w1, w2, _, _, _, hpos⟩ := C126_handed_on (interp := interpF) hbF himF (kept_of_ok hbF hr hc hplanes)
    rw [hplanes] at e
    injection e with e
    injection e with e1 e
    injection e with e2 e3
    subst e2
    have hno : ¬ ∃ i j, NanWeight cfg.badFlags bm (wt.map Flt.num) i j := by
      rintro ⟨i, j, b, _, e, _⟩
      rw [Img.map_get?] at e
      obtain ⟨q, _, hq⟩ := Option.map_eq_some_iff.mp e
      cases hq
    obtain ⟨k, hk⟩ := List.getElem?_of_mem hw
    have hmem : (x.2.1.map Flt.num).flat[k]? = some (.num w) := by
      show (x.2.1.flat.map Flt.num)[k]? = _
      rw [List.getElem?_map, hk]
      rfl
    have hlt : k < (x.2.1.map Flt.num).nr * (x.2.1.map Flt.num).nc := by
      rw [← show (x.2.1.map Flt.num).flat.length = _ from hsh.2.1]
      exact (List.getElem?_eq_some_iff.mp hmem).1
    rw [flat_get? hlt] at hmem
    exact (hpos hno).1 _ _ _ hmem
  have e1 : badPixelsF cfg.badFlags bm (wt.map Flt.num) = badPixels cfg.badFlags bm wt := by
    unfold badPixelsF badPixels
    rw [zipWith_map_right]
    rfl
  unfold interpBadPixelsF interpBadPixels at hplanes
  unfold interpBadPixels at hposF
  unfold interpNoiseF interpNoise
  rw [e1] at hplanes ⊢
  simp only at hplanes hposF ⊢
  by_cases h0 : (badPixels cfg.badFlags bm wt).flat.count true = 0
  · rw [if_pos h0, if_pos h0]
    rw [if_pos h0] at hposF
    rw [makeNoiseImageF_num rt draw pos (hposF _ rfl)]
    rfl
  · rw [if_neg h0, if_neg h0]
    rw [if_neg h0, if_neg h0] at hplanes
    rw [if_neg h0] at hposF
    by_cases hg : ((List.range (badPixels cfg.badFlags bm wt).flat.length).filter (fun k => (badPixels cfg.badFlags bm wt).flat[k]? == some false)).length = 0
    · rw [if_pos hg, if_pos hg]
      rfl
    · rw [if_neg hg, if_neg hg]
      rw [if_neg hg, if_neg hg] at hplanes
      rw [if_neg hg] at hposF
      have hp := hposF _ rfl
      simp only [Except.map, Except.ok.injEq, Prod.mk.injEq] at hplanes
      obtain ⟨p1, p2, _⟩ := hplanes
      show Except.ok _ = Except.ok _
      rw [p2, makeNoiseImageF_num rt draw pos hp, doInterpF_num hint, doInterpF_num hint]

namespace ExFloat

def sq (v : Flt) (t : List Flt) : Img Flt := ⟨5, 5, v :: t ++ List.replicate (24 - t.length) v⟩
/-- Four epochs: the third has an infinite pixel of positive weight, the fourth a NaN pixel without weight and an infinite one with a bad flag and a NaN weight. -/
def es : List (Img Flt × Img Flt × Img ℚ) :=
  [(sq (.num 7) [], sq (.num 4) [], ⟨5, 5, List.replicate 25 0⟩), (sq (.num 7) [.num 8], sq (.num 4) [], ⟨5, 5, List.replicate 25 0⟩),
   (⟨5, 5, .inf false :: List.replicate 24 (.num 7)⟩, sq (.num 4) [], ⟨5, 5, List.replicate 25 0⟩),
   (⟨5, 5, List.replicate 23 (.num 9) ++ [.inf true, .nan]⟩, ⟨5, 5, List.replicate 23 (.num 1) ++ [.nan, .num 0]⟩, ⟨5, 5, List.replicate 23 0 ++ [1, 0]⟩)]
def cfg : Cfg := { exTests (1 / 2) with rejectOutliers := true }
def rt (q : ℚ) : ℚ := if q = 4 then 2 else if q = 1 / 4 then 1 / 2 else q

-- all epochs are used; one pixel of the third and two of the fourth are replaced
example : ((obslistF rt 5 (3 / 10) ExNaN.mean cfg (fun k => k) 0 (es.map (·.1)) (es.map (·.2.1)) (es.map (·.2.2))).map
      (fun r => (r.obs.map (fun o => (o.1, o.2.ninterp)), r.flags, r.pos))) = .ok ([(0, 0), (1, 0), (2, 1), (3, 2)], [0, 0, 0, 0], 100) := by decide +kernel
example : ((obslistF rt 5 (3 / 10) ExNaN.mean cfg (fun k => k) 0 (es.map (·.1)) (es.map (·.2.1)) (es.map (·.2.2))).map (fun r => (r.obs.drop 2).map (fun o => (o.2.image, o.2.weight)))) =
    .ok [(⟨5, 5, List.replicate 25 (.num 7)⟩, ⟨5, 5, List.replicate 25 (.num 4)⟩), (⟨5, 5, List.replicate 25 (.num 9)⟩, ⟨5, 5, List.replicate 25 (.num 1)⟩)] := by decide +kernel
-- the noise of the third epoch: deviates 51 to 74 times 1/2, the replaced pixel gets their mean
example : ((obslistF rt 5 (3 / 10) ExNaN.mean cfg (fun k => k) 0 (es.map (·.1)) (es.map (·.2.1)) (es.map (·.2.2))).map (fun r => ((r.obs.drop 2).take 1).map (fun o => o.2.noise.flat.take 3))) =
    .ok [[.num (125 / 4), .num (51 / 2), .num 26]] := by decide +kernel
-- without rejection the infinite pixel of the third epoch, which is not masked, is handed on
example : ((obslistF rt 5 (3 / 10) ExNaN.mean { cfg with rejectOutliers := false } (fun k => k) 0 (es.map (·.1)) (es.map (·.2.1)) (es.map (·.2.2))).map
    (fun r => ((r.obs.drop 2).take 1).map (fun o => o.2.image.flat.take 2))) = .ok [[.inf false, .num 7]] := by decide +kernel
-- rejection: an infinite value is an outlier if the median is a number; an infinite weight and a weight of NaN are kept, minus infinity is clipped
example : Reject.rejectOutliersFlt rt 5 (3 / 10) [⟨1, 4, [.num 1, .num 1, .num 1, .num 1]⟩, ⟨1, 4, [.num 1, .num 2, .inf false, .inf true]⟩, ⟨1, 4, [.inf true, .num 3, .inf false, .num 1]⟩]
      [⟨1, 4, [.num 1, .num 1, .num 1, .num 1]⟩, ⟨1, 4, [.inf true, .nan, .num 1, .num (-1)]⟩, ⟨1, 4, [.num 4, .inf false, .num 4, .num 4]⟩] =
    .ok ⟨[⟨1, 4, [.num 1, .num 1, .num 1, .num 1]⟩, ⟨1, 4, [.num 1, .num 2, .inf false, .inf true]⟩, ⟨1, 4, [.inf true, .num 3, .inf false, .num 1]⟩],
      [⟨1, 4, [.num 1, .num 1, .num 1, .num 1]⟩, ⟨1, 4, [.num 0, .nan, .num 1, .num 0]⟩, ⟨1, 4, [.num 0, .inf false, .num 4, .num 4]⟩], 1⟩ := by decide +kernel
-- the noise of weights that are not numbers
example : (makeNoiseImageF rt (fun k => k) 3 ⟨1, 4, [.num 4, .inf false, .nan, .num 0]⟩) = (⟨1, 4, [.num (3 / 2), .num 0, .nan, .inf false]⟩, 7) := by decide +kernel
-- the shapes agree
example : ∀ e ∈ es, StampsOf 5 5 e.1 e.2.1 e.2.2 := by
  intro e he
  simp only [es, List.mem_cons, List.not_mem_nil, or_false] at he
  rcases he with rfl | rfl | rfl | rfl <;> exact ⟨rfl, rfl, rfl, rfl, rfl, rfl, rfl, rfl, rfl⟩

-- the hypothesis of C127_finite for the fourth epoch
example : ∀ i j, i < 5 → j < 5 → ¬ UnusableF cfg.badFlags (⟨5, 5, List.replicate 23 0 ++ [1, 0]⟩ : Img ℚ) ⟨5, 5, List.replicate 23 (.num 1) ++ [.nan, .num 0]⟩ i j →
    (∃ q : ℚ, (⟨5, 5, List.replicate 23 (.num 9) ++ [.inf true, .nan]⟩ : Img Flt).get? i j = some (.num q)) ∧
    ∃ q : ℚ, (⟨5, 5, List.replicate 23 (.num 1) ++ [.nan, .num 0]⟩ : Img Flt).get? i j = some (.num q) := by
  intro i j hi hj hu
  interval_cases i <;> interval_cases j <;>
    first
      | exact ⟨⟨_, rfl⟩, ⟨_, rfl⟩⟩
      | exact absurd ⟨1, .nan, rfl, rfl, .inr ⟨1, rfl, by decide +kernel⟩⟩ hu
      | exact absurd ⟨0, .num 0, rfl, rfl, .inl (le_refl (0 : ℚ))⟩ hu

end ExFloat

end Meds.Coadd
