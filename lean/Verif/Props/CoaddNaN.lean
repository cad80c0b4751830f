import Verif.Lemmas.CoaddNaNSym

/-!
# Weights and pixels of an epoch that are not numbers (C126)
-/

namespace Meds.Coadd
open Meds.Spec Meds.Coadd.Spec Compare

theorem numUnusable_eq {flags : Option Int} {bm : Img ℚ} {wt : Img Flt} (hs : ShapesAgree bm wt) :
    (badPixelsF flags bm wt).flat.count true = numUnusableF flags bm wt := by
  rw [badPixelsF_eq, count_bad (shapes_low hs lowSide)]
  unfold numBad numUnusableF
  apply Nat.card_congr
  exact (Equiv.refl _).subtypeEquiv (fun p => (unusableF_iff flags bm wt p.1 p.2).symm)

theorem wholeSide_map {α : Type} {im : Img α} {P : ℚ → Prop} {g : α → ℚ} : SideAll (im.map g) P ↔ WholeSide im (fun v => P (g v)) := by
  unfold SideAll WholeSide
  have h : ∀ i j, (∃ v, (im.map g).get? i j = some v ∧ P v) ↔ ∃ v, im.get? i j = some v ∧ P (g v) := by
    intro i j
    rw [Img.map_get?]
    constructor
    · rintro ⟨v, e, hv⟩
      obtain ⟨w, ew, rfl⟩ := Option.map_eq_some_iff.mp e
      exact ⟨w, ew, hv⟩
    · rintro ⟨v, e, hv⟩
      exact ⟨g v, by rw [e]; rfl, hv⟩
  simp only [h]
  rfl

open Classical in
/-- **C126** The flag of an epoch whose weights may be NaN or infinite names the first test it fails, as in C46.  A NaN weight without a bad flag does not count as masked for
the fraction of masked pixels, nor as zero on a side; but every pixel of the central region must have a positive weight, and so must at least one pixel of the stamp. -/
theorem C126_first_failed_test {cfg : Cfg} {bm : Img ℚ} {wt : Img Flt} (hs : ShapesAgree bm wt) (hsq : wt.nr = wt.nc) (h0 : 0 < wt.nr) (hec : cfg.edgeCheck = true) :
    epochFlagF cfg bm wt = .ok (
      if ∃ i j, FlagAt cfg.edgeFlags bm i j then 2
      else if cfg.maxMaskedFrac * (wt.nr * wt.nc : Nat) < numUnusableF cfg.badFlags bm wt then 4
      else if cfg.centralCheck = true ∧ ∃ i j, i < wt.nr ∧ j < wt.nr ∧ inCentral wt.nr cfg.centralSize i ∧ inCentral wt.nr cfg.centralSize j ∧
        ¬ UsableF cfg.badFlags bm wt i j then 8
      else if WholeSide wt (· = .num 0) ∨ WholeSide bm (HasFlag cfg.badFlags) then 16
      else if ∀ i j v, wt.get? i j = some v → ¬ Positive v then 32 else 0) := by
  have hsl := shapes_low hs lowSide
  have hsh := shapes_low hs highSide
  have hsize : bm.flat.length = wt.nr * wt.nc := by rw [hs.1, hs.2.2.1, hs.2.2.2]
  have hpos' : 0 < wt.nr * wt.nc := Nat.mul_pos h0 (by omega)
  have hedge : hitsTheEdge cfg.edgeFlags bm = true ↔ ∃ i j, FlagAt cfg.edgeFlags bm i j := by
    unfold hitsTheEdge
    rw [List.any_eq_true]
    constructor
    · rintro ⟨v, hv, hf⟩
      obtain ⟨i, j, e⟩ := Img.flat_mem_get? hs.1 hv
      exact ⟨i, j, v, e, (flagged_iff _ _).mp hf⟩
    · rintro ⟨i, j, v, e, hf⟩
      exact ⟨v, Img.get?_mem_flat e, (flagged_iff _ _).mpr hf⟩
  unfold epochFlagF
  by_cases k1 : ∃ i j, FlagAt cfg.edgeFlags bm i j
  · rw [if_pos (hedge.mpr k1), if_pos k1]
  · rw [if_neg (fun h => k1 (hedge.mp h)), if_neg k1]
    unfold maskFracF
    rw [if_neg (by omega), Res.ok_bind]
    have hp : (0 : ℚ) < (bm.flat.length : ℚ) := by rw [hsize]; exact_mod_cast hpos'
    have k2' : (((badPixelsF cfg.badFlags bm wt).flat.count true : ℚ) / bm.flat.length > cfg.maxMaskedFrac) ↔
        cfg.maxMaskedFrac * (wt.nr * wt.nc : Nat) < numUnusableF cfg.badFlags bm wt := by
      rw [numUnusable_eq hs, gt_iff_lt, lt_div_iff₀ hp, hsize]
    by_cases k2 : cfg.maxMaskedFrac * (wt.nr * wt.nc : Nat) < numUnusableF cfg.badFlags bm wt
    · rw [if_pos (k2'.mpr k2), if_pos k2]
    · rw [if_neg (fun h => k2 (k2'.mp h)), if_neg k2]
      have k3' : centralMaskedF cfg bm wt = true ↔ (cfg.centralCheck = true ∧ ∃ i j, i < wt.nr ∧ j < wt.nr ∧ inCentral wt.nr cfg.centralSize i ∧
          inCentral wt.nr cfg.centralSize j ∧ ¬ UsableF cfg.badFlags bm wt i j) := by
        rw [centralMaskedF_eq]
        by_cases hc : cfg.centralCheck = true
        · rw [centralMasked_iff hsh hsq hc]
          constructor
          · rintro ⟨i, j, hi, hj, c1, c2, hb⟩
            exact ⟨hc, i, j, hi, hj, c1, c2, (not_usableF_iff hs hi (by rw [← hsq]; exact hj)).mpr hb⟩
          · rintro ⟨_, i, j, hi, hj, c1, c2, hb⟩
            exact ⟨i, j, hi, hj, c1, c2, (not_usableF_iff hs hi (by rw [← hsq]; exact hj)).mp hb⟩
        · unfold centralMasked
          rw [if_neg hc]
          exact ⟨fun h => (Bool.false_ne_true h).elim, fun h => (hc h.1).elim⟩
      by_cases k3 : cfg.centralCheck = true ∧ ∃ i j, i < wt.nr ∧ j < wt.nr ∧ inCentral wt.nr cfg.centralSize i ∧ inCentral wt.nr cfg.centralSize j ∧
        ¬ UsableF cfg.badFlags bm wt i j
      · rw [if_pos (k3'.mpr k3), if_pos k3]
      · rw [if_neg (fun h => k3 (k3'.mp h)), if_neg k3, psEdgeMaskedF_eq]
        obtain ⟨e, he, hside⟩ := C49_check_on_partial hsl h0 (show 0 < wt.nc by omega) hec
        rw [he, Res.ok_bind]
        have hz : ∀ w : Flt, lowSide w = 0 ↔ w = .num 0 := by
          intro w
          rw [← decide_eq_true_iff (p := lowSide w = 0), lowSide_eq]
          rcases w with q | _ | s
          · show decide (q = 0) = true ↔ _
            simp
          · show false = true ↔ _
            simp
          · show false = true ↔ _
            simp
        rw [wholeSide_map] at hside
        simp only [hz] at hside
        have hside : e = true ↔ WholeSide wt (· = .num 0) ∨ WholeSide bm (HasFlag cfg.badFlags) := hside
        by_cases k4 : WholeSide wt (· = .num 0) ∨ WholeSide bm (HasFlag cfg.badFlags)
        · rw [if_pos (hside.mpr k4), if_pos k4]
        · rw [if_neg (fun h => k4 (hside.mp h)), if_neg k4]
          have hg : ∀ w : Flt, (!w.gtZero) = true ↔ ¬ Positive w := by
            intro w
            rw [← highSide_le, decide_eq_true_iff, positive_iff, not_not]
          have k5' : wt.flat.all (fun w => !w.gtZero) = true ↔ ∀ i j v, wt.get? i j = some v → ¬ Positive v := by
            rw [List.all_eq_true]
            constructor
            · intro h i j v e
              exact (hg v).mp (h v (Img.get?_mem_flat e))
            · intro h v hv
              obtain ⟨i, j, e⟩ := Img.flat_mem_get? hs.2.1 hv
              exact (hg v).mpr (h i j v e)
          by_cases k5 : ∀ i j v, wt.get? i j = some v → ¬ Positive v
          · rw [if_pos (k5'.mpr k5), if_pos k5]
          · rw [if_neg (fun h => k5 (k5'.mp h)), if_neg k5]

/-- **C126** What happens to the pixels of an epoch that is used, whatever the floats are.  A pixel is replaced if its weight is zero, negative or minus infinity or if it
has a bad flag; all others keep value and weight, those with NaN weight included.  Values are replaced by those of the interpolator built on the pixels that are kept.
The weight becomes NaN if one of the kept weights is NaN, else the median of the kept ones; in the latter case all weights are positive afterwards. -/
theorem C126_handed_on {interp : InterpF} {flags : Option Int} {im : Img Flt} {bm : Img ℚ} {wt : Img Flt} (hs : ShapesAgree bm wt) (him : ShapesAgree im wt)
    (hkept : ∃ i j, i < wt.nr ∧ j < wt.nc ∧ ¬ UnusableF flags bm wt i j) :
    ∃ im' wt' ps, KeptPixels flags bm wt ps ∧ interpBadPixelsF interp flags im bm wt = .ok (im', wt', numUnusableF flags bm wt) ∧
      ShapesAgree im' wt' ∧ wt'.nr = wt.nr ∧ wt'.nc = wt.nc ∧
      (∀ i j, i < wt.nr → j < wt.nc → ¬ UnusableF flags bm wt i j → im'.get? i j = im.get? i j ∧ wt'.get? i j = wt.get? i j) ∧
      (∀ i j, UnusableF flags bm wt i j → im'.get? i j = some (interp (pointsAt im ps) (i, j))) ∧
      ((∃ i j, NanWeight flags bm wt i j) → ∀ i j, UnusableF flags bm wt i j → wt'.get? i j = some .nan) ∧
      ((¬ ∃ i j, NanWeight flags bm wt i j) → (∀ i j v, wt'.get? i j = some v → Positive v) ∧
        ∃ m, IsMedianF (ps.filterMap (fun p => wt.get? p.1 p.2)) m ∧ ∀ i j, UnusableF flags bm wt i j → wt'.get? i j = some m) := by
  obtain ⟨ps, hps, hlist⟩ := kept_list (flags := flags) hs
  have hblen : (badPixelsF flags bm wt).flat.length = wt.nr * wt.nc := by
    have hwf : (badPixelsF flags bm wt).WF := Img.zipWith_WF hs.1 hs.2.1 hs.2.2.1 hs.2.2.2 _
    rw [hwf]
    show bm.nr * bm.nc = _
    rw [hs.2.2.1, hs.2.2.2]
  have hkeptw : ((List.range (badPixelsF flags bm wt).flat.length).filter (fun k => (badPixelsF flags bm wt).flat[k]? == some false)).filterMap (fun k => wt.flat[k]?) =
      ps.filterMap (fun p => wt.get? p.1 p.2) := by
    rw [← hlist, List.filterMap_map]
    apply List.filterMap_congr
    intro k hk
    have hk' := List.mem_range.mp (List.mem_filter.mp hk).1
    rw [hblen] at hk'
    exact flat_get? hk'
  have hkepti : ((List.range (badPixelsF flags bm wt).flat.length).filter (fun k => (badPixelsF flags bm wt).flat[k]? == some false)).filterMap
      (fun g => (im.flat[g]?).map (fun v => ((g / im.nc, g % im.nc), v))) = pointsAt im ps := by
    unfold pointsAt
    rw [← hlist, List.filterMap_map]
    apply List.filterMap_congr
    intro k hk
    have hk' := List.mem_range.mp (List.mem_filter.mp hk).1
    rw [hblen] at hk'
    simp only [Function.comp]
    rw [flat_get? (by rw [him.2.2.1, him.2.2.2]; exact hk'), him.2.2.2]
  have hne : ps.filterMap (fun p => wt.get? p.1 p.2) ≠ [] := by
    obtain ⟨i, j, hi, hj, hn⟩ := hkept
    obtain ⟨v, ev⟩ := Img.get?_some_of_WF hs.2.1 hi hj
    intro h0
    have : v ∈ ps.filterMap (fun p : Nat × Nat => wt.get? p.1 p.2) := List.mem_filterMap.mpr ⟨(i, j), (hps.2 i j).mpr ⟨hi, hj, hn⟩, ev⟩
    rw [h0] at this
    cases this
  have hposw : (¬ ∃ i j, NanWeight flags bm wt i j) → ∀ i j v, wt.get? i j = some v → ¬ UnusableF flags bm wt i j → Positive v := by
    intro hno i j v e hn
    have hl := Img.get?_lt e
    rcases not_unusable_cases hs hl.1 hl.2 hn with hok | hnan
    · obtain ⟨_, w, _, ew, hp, _⟩ := hok
      rw [e] at ew
      injection ew with ew
      rw [ew]; exact hp
    · exact absurd ⟨i, j, hnan⟩ hno
  have hmed : (¬ ∃ i j, NanWeight flags bm wt i j) → IsMedianF (ps.filterMap (fun p => wt.get? p.1 p.2)) (medianF (ps.filterMap (fun p => wt.get? p.1 p.2))) ∧
      Positive (medianF (ps.filterMap (fun p => wt.get? p.1 p.2))) := by
    intro hno
    apply medianF_isMedian hne
    intro x hx
    obtain ⟨⟨i, j⟩, hp, hv⟩ := List.mem_filterMap.mp hx
    exact hposw hno i j x hv ((hps.2 i j).mp hp).2.2
  have hnanm : (∃ i j, NanWeight flags bm wt i j) → medianF (ps.filterMap (fun p => wt.get? p.1 p.2)) = .nan := by
    rintro ⟨i, j, hn⟩
    have hl := Img.get?_lt hn.choose_spec.2.1
    unfold medianF
    rw [if_pos]
    exact List.mem_filterMap.mpr ⟨(i, j), (hps.2 i j).mpr ⟨hl.1, hl.2, nan_not_unusable hn⟩, hn.choose_spec.2.1⟩
  unfold interpBadPixelsF
  simp only
  by_cases h0 : (badPixelsF flags bm wt).flat.count true = 0
  · have hnone := (countF_zero hs).mp h0
    rw [if_pos h0]
    have hn0 : numUnusableF flags bm wt = 0 := by rw [← numUnusable_eq hs, h0]
    rw [hn0]
    refine ⟨im, wt, ps, hps, rfl, him, rfl, rfl, fun _ _ _ _ _ => ⟨rfl, rfl⟩, fun i j hb => absurd ⟨i, j, hb⟩ hnone, fun _ i j hb => absurd ⟨i, j, hb⟩ hnone, ?_⟩
    intro hno
    exact ⟨fun i j v e => hposw hno i j v e (fun hb => hnone ⟨i, j, hb⟩), _, (hmed hno).1, fun i j hb => absurd ⟨i, j, hb⟩ hnone⟩
  · rw [if_neg h0]
    have hg : (List.filter (fun k => (badPixelsF flags bm wt).flat[k]? == some false) (List.range (badPixelsF flags bm wt).flat.length)).length ≠ 0 := by
      intro h
      rw [List.length_eq_zero_iff.mp h] at hkeptw
      exact hne hkeptw.symm
    rw [if_neg hg, hkeptw, numUnusable_eq hs]
    have hwt' : ∀ {i j}, i < wt.nr → j < wt.nc → UnusableF flags bm wt i j → Img.get? { wt with flat := wt.flat.mapIdx (fun k v =>
        if (badPixelsF flags bm wt).flat[k]? = some true then medianF (ps.filterMap (fun p => wt.get? p.1 p.2)) else v) } i j =
        some (medianF (ps.filterMap (fun p => wt.get? p.1 p.2))) := by
      intro i j hi hj hb
      rw [mapIdx_get?G hi hj]
      obtain ⟨v, ev⟩ := Img.get?_some_of_WF hs.2.1 hi hj
      rw [ev]
      simp [(badF_flat hs hi hj).mp hb]
    refine ⟨_, _, ps, hps, rfl, ⟨?_, ?_, him.2.2.1, him.2.2.2⟩, rfl, rfl, ?_, ?_, ?_, ?_⟩
    · show (List.mapIdx _ im.flat).length = _
      rw [List.length_mapIdx]; exact him.1
    · show (List.mapIdx _ wt.flat).length = _
      rw [List.length_mapIdx]; exact hs.2.1
    · intro i j hi hj hn
      rw [mapIdx_get?G (by rw [him.2.2.1]; exact hi) (by rw [him.2.2.2]; exact hj), mapIdx_get?G hi hj, him.2.2.2]
      have : ¬ (badPixelsF flags bm wt).flat[i * wt.nc + j]? = some true := fun h => hn ((badF_flat hs hi hj).mpr h)
      simp [this]
    · intro i j hb
      have hl := unusableF_lt hb
      rw [mapIdx_get?G (by rw [him.2.2.1]; exact hl.1) (by rw [him.2.2.2]; exact hl.2), him.2.2.2]
      obtain ⟨v, ev⟩ := Img.get?_some_of_WF him.1 (show i < im.nr by rw [him.2.2.1]; exact hl.1) (show j < im.nc by rw [him.2.2.2]; exact hl.2)
      rw [ev, Option.map_some, if_pos ((badF_flat hs hl.1 hl.2).mp hb)]
      unfold interpAtF
      rw [hkepti, him.2.2.2, show (i * wt.nc + j) / wt.nc = i by rw [Nat.mul_comm, Nat.mul_add_div (by omega), Nat.div_eq_of_lt hl.2, Nat.add_zero],
        show (i * wt.nc + j) % wt.nc = j by rw [Nat.mul_comm, Nat.mul_add_mod, Nat.mod_eq_of_lt hl.2]]
    · intro hnan i j hb
      have hl := unusableF_lt hb
      rw [hwt' hl.1 hl.2 hb, hnanm hnan]
    · intro hno
      refine ⟨?_, _, (hmed hno).1, ?_⟩
      · intro i j v e
        have hl0 := Img.get?_lt e
        have hl : i < wt.nr ∧ j < wt.nc := hl0
        by_cases hb : UnusableF flags bm wt i j
        · rw [hwt' hl.1 hl.2 hb] at e
          injection e with e
          rw [← e]
          exact (hmed hno).2
        · rw [mapIdx_get?G hl.1 hl.2] at e
          have hnb : ¬ (badPixelsF flags bm wt).flat[i * wt.nc + j]? = some true := fun h => hb ((badF_flat hs hl.1 hl.2).mpr h)
          obtain ⟨w, ew⟩ := Img.get?_some_of_WF hs.2.1 hl.1 hl.2
          rw [ew, Option.map_some, if_neg hnb] at e
          injection e with e
          rw [← e]
          exact hposw hno i j w ew hb
      · intro i j hb
        have hl := unusableF_lt hb
        exact hwt' hl.1 hl.2 hb

/-- An epoch that is used has a pixel that is kept. -/
theorem kept_of_ok {interp : InterpF} {flags : Option Int} {im : Img Flt} {bm : Img ℚ} {wt : Img Flt} (hs : ShapesAgree bm wt) (hr : 0 < wt.nr) (hc : 0 < wt.nc)
    {r : Img Flt × Img Flt × Nat} (h : interpBadPixelsF interp flags im bm wt = .ok r) : ∃ i j, i < wt.nr ∧ j < wt.nc ∧ ¬ UnusableF flags bm wt i j := by
  by_contra hno
  have hall : ∀ i j, i < wt.nr → j < wt.nc → UnusableF flags bm wt i j := by
    intro i j hi hj
    by_contra hn
    exact hno ⟨i, j, hi, hj, hn⟩
  obtain ⟨ps, hps, hlist⟩ := kept_list (flags := flags) hs
  have hnil : ps = [] := by
    cases ps with
    | nil => rfl
    | cons p ps =>
      obtain ⟨h1, h2, h3⟩ := (hps.2 p.1 p.2).mp (List.mem_cons_self ..)
      exact (h3 (hall _ _ h1 h2)).elim
  rw [hnil, List.map_eq_nil_iff] at hlist
  unfold interpBadPixelsF at h
  simp only at h
  rw [if_neg (fun h0 => (countF_zero hs).mp h0 ⟨0, 0, hall 0 0 hr hc⟩), hlist] at h
  cases h

/-- What an epoch that is used went through. -/
theorem epochStamp_used {interp : InterpF} {cfg : Cfg} {im : Img Flt} {bm : Img ℚ} {wt : Img Flt} {f : Int} {r : Img Flt × Img Flt × Nat}
    (h : epochStampF interp cfg im bm wt = .ok (f, some r)) :
    ∃ bw, symmetrizedF cfg bm wt = .ok bw ∧ f = 0 ∧ epochFlagF cfg bw.1 bw.2 = .ok 0 ∧ interpBadPixelsF interp cfg.badFlags im bw.1 bw.2 = .ok r := by
  unfold epochStampF at h
  obtain ⟨bw, h1, h⟩ := Res.bind_eq_ok.mp h
  obtain ⟨flag, h2, h⟩ := Res.bind_eq_ok.mp h
  by_cases hf : flag ≠ 0
  · rw [if_pos hf] at h
    injection h with h
    injection h with _ h
    cases h
  · rw [if_neg hf] at h
    obtain ⟨r', h3, h⟩ := Res.bind_eq_ok.mp h
    injection h with h
    injection h with ha hb
    injection hb with hb
    subst hb
    rw [not_not.mp hf] at h2
    exact ⟨bw, h1, ha.symm, h2, h3⟩

/-- **C126** (part) If no pixel without bad flag has a NaN weight, all weights of an epoch that is used are positive when it is handed on. -/
theorem C126_weights_partial {interp : InterpF} {cfg : Cfg} {im : Img Flt} {bm : Img ℚ} {wt : Img Flt} (hs : ShapesAgree bm wt) (him : ShapesAgree im wt)
    (hsq : wt.nr = wt.nc) (h0 : 0 < wt.nr) {f : Int} {im' wt' : Img Flt} {n : Nat} (h : epochStampF interp cfg im bm wt = .ok (f, some (im', wt', n)))
    (hno : ¬ ∃ i j, NanWeight cfg.badFlags bm wt i j) : ∀ i j v, wt'.get? i j = some v → Positive v := by
  obtain ⟨bw, h1, _, _, h2⟩ := epochStamp_used h
  obtain ⟨s1, s2, s3, _, s5⟩ := symmetrizedF_spec hs rfl hsq.symm h1
  have him' : ShapesAgree im bw.2 := ⟨him.1, s1.2.1, by rw [s2]; exact him.2.2.1, by rw [s3]; rw [him.2.2.2, hsq]⟩
  obtain ⟨im2, wt2, ps, _, e, _, _, _, _, _, _, hpos⟩ := C126_handed_on (interp := interp) s1 him' (kept_of_ok s1 (by omega) (by omega) h2)
  rw [h2] at e
  injection e with e
  injection e with _ e
  injection e with e _
  rw [e]
  exact (hpos (fun ⟨i, j, hn⟩ => hno ⟨i, j, s5 i j hn⟩)).1

/-- **C126** A NaN weight that symmetrizing leaves, on a pixel without bad flag, is handed on with the value of the pixel, and every pixel that is replaced gets a NaN weight
as well.  With the central region checked, all this can only be in epochs with the NaN weights outside of it. -/
theorem C126_nan_handed_on {interp : InterpF} {cfg : Cfg} {im : Img Flt} {bm : Img ℚ} {wt : Img Flt} (hs : ShapesAgree bm wt) (him : ShapesAgree im wt)
    (hsq : wt.nr = wt.nc) (h0 : 0 < wt.nr) {f : Int} {im' wt' : Img Flt} {n : Nat} (h : epochStampF interp cfg im bm wt = .ok (f, some (im', wt', n)))
    {bw : Img ℚ × Img Flt} (hbw : symmetrizedF cfg bm wt = .ok bw) {i j : Nat} (hnan : NanWeight cfg.badFlags bw.1 bw.2 i j) :
    wt'.get? i j = some .nan ∧ im'.get? i j = im.get? i j ∧ (∀ a b, UnusableF cfg.badFlags bw.1 bw.2 a b → wt'.get? a b = some .nan) ∧
    (cfg.edgeCheck = true → cfg.centralCheck = true → ¬ (inCentral wt.nr cfg.centralSize i ∧ inCentral wt.nr cfg.centralSize j)) := by
  obtain ⟨bw', h1, _, hfl, h2⟩ := epochStamp_used h
  rw [hbw] at h1
  injection h1 with h1
  subst h1
  obtain ⟨s1, s2, s3, _, _⟩ := symmetrizedF_spec hs rfl hsq.symm hbw
  have him' : ShapesAgree im bw.2 := ⟨him.1, s1.2.1, by rw [s2]; exact him.2.2.1, by rw [s3]; rw [him.2.2.2, hsq]⟩
  obtain ⟨im2, wt2, ps, _, e, _, _, _, hk, _, hn, _⟩ := C126_handed_on (interp := interp) s1 him' (kept_of_ok s1 (by omega) (by omega) h2)
  rw [h2] at e
  injection e with e
  injection e with e1 e
  injection e with e2 _
  have hl := Img.get?_lt hnan.choose_spec.2.1
  obtain ⟨k1, k2⟩ := hk i j hl.1 hl.2 (nan_not_unusable hnan)
  rw [e1, e2]
  refine ⟨by rw [k2]; exact hnan.choose_spec.2.1, k1, hn ⟨i, j, hnan⟩, ?_⟩
  rintro hec hcc ⟨c1, c2⟩
  rw [C126_first_failed_test s1 (by omega) (by omega) hec] at hfl
  injection hfl with hfl
  have hc : cfg.centralCheck = true ∧ ∃ i j, i < bw.2.nr ∧ j < bw.2.nr ∧ inCentral bw.2.nr cfg.centralSize i ∧ inCentral bw.2.nr cfg.centralSize j ∧
        ¬ UsableF cfg.badFlags bw.1 bw.2 i j := by
    refine ⟨hcc, i, j, hl.1, by omega, by rw [s2]; exact c1, by rw [s2]; exact c2, ?_⟩
    rintro ⟨_, w, _, ew, hp, _⟩
    rw [hnan.choose_spec.2.1] at ew
    injection ew with ew
    rw [← ew] at hp
    exact hp
  rw [if_pos hc] at hfl
  split at hfl
  · cases hfl
  · split at hfl <;> cases hfl

/-- **C126** The values of pixels with a bad flag or without weight, NaN or not, make no difference to what is handed on. -/
theorem C126_masked_values {interp : InterpF} {cfg : Cfg} {im im₂ : Img Flt} {bm : Img ℚ} {wt : Img Flt} (hs : ShapesAgree bm wt) (him : ShapesAgree im wt)
    (him₂ : ShapesAgree im₂ wt) (hsq : wt.nr = wt.nc) (hsame : ∀ i j, i < wt.nr → j < wt.nc → ¬ UnusableF cfg.badFlags bm wt i j → im.get? i j = im₂.get? i j) :
    epochStampF interp cfg im bm wt = epochStampF interp cfg im₂ bm wt := by
  unfold epochStampF
  cases hbw : symmetrizedF cfg bm wt with
  | error e => rfl
  | ok bw =>
    rw [Res.ok_bind, Res.ok_bind]
    obtain ⟨s1, s2, s3, s4, _⟩ := symmetrizedF_spec hs rfl hsq.symm hbw
    have key : interpBadPixelsF interp cfg.badFlags im bw.1 bw.2 = interpBadPixelsF interp cfg.badFlags im₂ bw.1 bw.2 ∨
        (badPixelsF cfg.badFlags bw.1 bw.2).flat.count true = 0 := by
      by_cases h0 : (badPixelsF cfg.badFlags bw.1 bw.2).flat.count true = 0
      · exact .inr h0
      left
      have hblen : (badPixelsF cfg.badFlags bw.1 bw.2).flat.length = wt.nr * wt.nc := by
        have hwf : (badPixelsF cfg.badFlags bw.1 bw.2).WF := Img.zipWith_WF s1.1 s1.2.1 s1.2.2.1 s1.2.2.2 _
        rw [hwf]
        show bw.1.nr * bw.1.nc = _
        rw [s1.2.2.1, s1.2.2.2, s2, s3, hsq]
      have hfl : ∀ k : Nat, k < wt.nr * wt.nc → (badPixelsF cfg.badFlags bw.1 bw.2).flat[k]? ≠ some true → im.flat[k]? = im₂.flat[k]? := by
        intro k hk hb
        have hc0 : 0 < wt.nc := Nat.pos_of_ne_zero (fun h => by rw [h] at hk; omega)
        have hi : k / wt.nc < wt.nr := Nat.div_lt_of_lt_mul (by rw [Nat.mul_comm]; exact hk)
        have hj : k % wt.nc < wt.nc := Nat.mod_lt _ hc0
        have hnc : bw.2.nc = wt.nc := by omega
        rw [flat_get? (by rw [him.2.2.1, him.2.2.2]; exact hk), flat_get? (by rw [him₂.2.2.1, him₂.2.2.2]; exact hk), him.2.2.2, him₂.2.2.2]
        apply hsame _ _ hi hj
        intro hu
        apply hb
        have := (badF_flat s1 (i := k / wt.nc) (j := k % wt.nc) (by rw [s2]; exact hi) (by rw [hnc]; exact hj)).mp (s4 _ _ hu)
        rw [hnc, Nat.mul_comm, Nat.div_add_mod] at this
        exact this
      have hnr : im₂.nr = im.nr := by rw [him.2.2.1, him₂.2.2.1]
      have hnc : im₂.nc = im.nc := by rw [him.2.2.2, him₂.2.2.2]
      have l1 : im.flat.length = wt.nr * wt.nc := by rw [him.1, him.2.2.1, him.2.2.2]
      have l2 : im₂.flat.length = wt.nr * wt.nc := by rw [him₂.1, him₂.2.2.1, him₂.2.2.2]
      have hi : ∀ k, interpAtF interp ((List.range (badPixelsF cfg.badFlags bw.1 bw.2).flat.length).filter
          (fun k => (badPixelsF cfg.badFlags bw.1 bw.2).flat[k]? == some false)) im k =
          interpAtF interp ((List.range (badPixelsF cfg.badFlags bw.1 bw.2).flat.length).filter
          (fun k => (badPixelsF cfg.badFlags bw.1 bw.2).flat[k]? == some false)) im₂ k := by
        intro k
        unfold interpAtF
        rw [hnc]
        congr 1
        apply List.filterMap_congr
        intro g hg
        obtain ⟨hg1, hg2⟩ := List.mem_filter.mp hg
        have hg1 := List.mem_range.mp hg1
        rw [hblen] at hg1
        rw [hfl g hg1 (by rw [beq_iff_eq.mp hg2]; simp)]
      have hi' := funext hi
      unfold interpBadPixelsF
      simp only [if_neg h0, hnr, hnc, hi']
      have hflat : im.flat.mapIdx (fun k v => if (badPixelsF cfg.badFlags bw.1 bw.2).flat[k]? = some true then
            interpAtF interp ((List.range (badPixelsF cfg.badFlags bw.1 bw.2).flat.length).filter
              (fun k => (badPixelsF cfg.badFlags bw.1 bw.2).flat[k]? == some false)) im₂ k else v) =
          im₂.flat.mapIdx (fun k v => if (badPixelsF cfg.badFlags bw.1 bw.2).flat[k]? = some true then
            interpAtF interp ((List.range (badPixelsF cfg.badFlags bw.1 bw.2).flat.length).filter
              (fun k => (badPixelsF cfg.badFlags bw.1 bw.2).flat[k]? == some false)) im₂ k else v) := by
        apply List.ext_getElem?
        intro k
        rw [List.getElem?_mapIdx, List.getElem?_mapIdx]
        by_cases hk : k < wt.nr * wt.nc
        · by_cases hb : (badPixelsF cfg.badFlags bw.1 bw.2).flat[k]? = some true
          · rw [List.getElem?_eq_getElem (show k < im.flat.length by omega), List.getElem?_eq_getElem (show k < im₂.flat.length by omega)]
            simp only [Option.map_some, if_pos hb]
          · rw [hfl k hk hb]
        · rw [List.getElem?_eq_none (show im.flat.length ≤ k by omega), List.getElem?_eq_none (show im₂.flat.length ≤ k by omega)]
      rw [hflat]
    cases hfl : epochFlagF cfg bw.1 bw.2 with
    | error e => rfl
    | ok flag =>
      rw [Res.ok_bind, Res.ok_bind]
      rcases key with key | h0
      · rw [key]
      · have hall := (countF_zero s1).mp h0
        have : im = im₂ := by
          have e : im.flat = im₂.flat := by
            apply List.ext_getElem?
            intro k
            have l1 : im.flat.length = wt.nr * wt.nc := by rw [him.1, him.2.2.1, him.2.2.2]
            have l2 : im₂.flat.length = wt.nr * wt.nc := by rw [him₂.1, him₂.2.2.1, him₂.2.2.2]
            by_cases hk : k < wt.nr * wt.nc
            · have hc0 : 0 < wt.nc := Nat.pos_of_ne_zero (fun h => by rw [h] at hk; omega)
              rw [flat_get? (by rw [him.2.2.1, him.2.2.2]; exact hk), flat_get? (by rw [him₂.2.2.1, him₂.2.2.2]; exact hk), him.2.2.2, him₂.2.2.2]
              exact hsame _ _ (Nat.div_lt_of_lt_mul (by rw [Nat.mul_comm]; exact hk)) (Nat.mod_lt _ hc0) (fun hu => hall ⟨_, _, s4 _ _ hu⟩)
            · rw [List.getElem?_eq_none (show im.flat.length ≤ k by omega), List.getElem?_eq_none (show im₂.flat.length ≤ k by omega)]
          have hnr : im.nr = im₂.nr := by rw [him.2.2.1, him₂.2.2.1]
          have hnc : im.nc = im₂.nc := by rw [him.2.2.2, him₂.2.2.2]
          cases im; cases im₂
          simp only at e hnr hnc
          subst e hnr hnc
          rfl
        rw [this]

/-- **C126** If the pixels with positive weight and no bad flag are numbers, no weight without bad flag is NaN, and the interpolator gives numbers for numbers, then the image
handed on consists of numbers, whatever the pixels without weight or with bad flags are. -/
theorem C126_image_numbers {interp : InterpF} (hint : ∀ pts p, (∀ x ∈ pts, ∃ q : ℚ, x.2 = .num q) → ∃ q : ℚ, interp pts p = .num q) {cfg : Cfg} {im : Img Flt} {bm : Img ℚ}
    {wt : Img Flt} (hs : ShapesAgree bm wt) (him : ShapesAgree im wt) (hsq : wt.nr = wt.nc) (h0 : 0 < wt.nr) {f : Int} {im' wt' : Img Flt} {n : Nat}
    (h : epochStampF interp cfg im bm wt = .ok (f, some (im', wt', n))) (hno : ¬ ∃ i j, NanWeight cfg.badFlags bm wt i j)
    (hnum : ∀ i j v, UsableF cfg.badFlags bm wt i j → im.get? i j = some v → ∃ q : ℚ, v = .num q) :
    ∀ i j v, im'.get? i j = some v → ∃ q : ℚ, v = .num q := by
  obtain ⟨bw, h1, _, _, h2⟩ := epochStamp_used h
  obtain ⟨s1, s2, s3, s4, s5⟩ := symmetrizedF_spec hs rfl hsq.symm h1
  have him' : ShapesAgree im bw.2 := ⟨him.1, s1.2.1, by rw [s2]; exact him.2.2.1, by rw [s3]; rw [him.2.2.2, hsq]⟩
  obtain ⟨im2, wt2, ps, hps, e, hsh, w1, w2, hk, hb, _, _⟩ := C126_handed_on (interp := interp) s1 him' (kept_of_ok s1 (by omega) (by omega) h2)
  rw [h2] at e
  injection e with e
  injection e with e1 e
  have hn' : ∀ i j v, i < wt.nr → j < wt.nc → ¬ UnusableF cfg.badFlags bw.1 bw.2 i j → im.get? i j = some v → ∃ q : ℚ, v = .num q := by
    intro i j v hi hj hu ev
    rcases not_unusable_cases hs hi hj (fun hh => hu (s4 i j hh)) with hok | hnan
    · exact hnum i j v hok ev
    · exact (hno ⟨i, j, hnan⟩).elim
  intro i j v ev
  rw [e1] at ev
  have hl := Img.get?_lt ev
  have hi : i < wt.nr := by rw [hsh.2.2.1, w1, s2] at hl; exact hl.1
  have hj : j < wt.nc := by rw [hsh.2.2.2, w2, s3] at hl; rw [← hsq]; exact hl.2
  by_cases hu : UnusableF cfg.badFlags bw.1 bw.2 i j
  · rw [hb i j hu] at ev
    injection ev with ev
    rw [← ev]
    apply hint
    intro x hx
    unfold pointsAt at hx
    obtain ⟨⟨a, b⟩, hp, hv⟩ := List.mem_filterMap.mp hx
    obtain ⟨v', ev', rfl⟩ := Option.map_eq_some_iff.mp hv
    obtain ⟨a1, a2, a3⟩ := (hps.2 a b).mp hp
    exact hn' a b v' (by omega) (by omega) a3 ev'
  · rw [(hk i j (by omega) (by omega) hu).1] at ev
    exact hn' i j v hi hj hu ev

theorem medianF_num {l : List ℚ} (hne : l ≠ []) : medianF (l.map .num) = .num (Reject.median l) := by
  have hn : Flt.nan ∉ l.map Flt.num := by simp
  have hi : ∀ s, (l.map Flt.num).count (Flt.inf s) = 0 := fun s => List.count_eq_zero.mpr (by simp)
  have hf : (l.map Flt.num).filterMap Flt.num? = l := by
    rw [List.filterMap_map]
    have : Flt.num? ∘ Flt.num = some := rfl
    rw [this, List.filterMap_some]
  have hs : sortF (l.map .num) = (l.insertionSort (· ≤ ·)).map .num := by
    unfold sortF
    rw [hi, hi, hf]
    simp
  have hl : 0 < l.length := List.length_pos_iff.mpr hne
  have hlen : (l.insertionSort (· ≤ ·)).length = l.length := List.length_insertionSort _ _
  have hg : ∀ k < l.length, ((l.insertionSort (· ≤ ·)).map Flt.num).getD k .nan = .num ((l.insertionSort (· ≤ ·)).getD k 0) := by
    intro k hk
    rw [List.getD_eq_getElem?_getD, List.getD_eq_getElem?_getD, List.getElem?_map, List.getElem?_eq_getElem (by omega)]
    rfl
  unfold medianF Reject.median
  rw [if_neg hn, hs, List.length_map]
  simp only
  by_cases ho : l.length % 2 = 1
  · rw [if_pos ho, if_pos ho, hg _ (by omega)]
  · rw [if_neg ho, if_neg ho, hg _ (by omega), hg _ (by omega)]
    rfl

/-- **C126** With numbers only, tests and interpolation are those of the model with numbers (C46, C59). -/
theorem C126_numbers {interpF : InterpF} {interp : Interp} (hint : ∀ pts p, interpF (pts.map (fun x => (x.1, Flt.num x.2))) p = .num (interp pts p))
    (cfg : Cfg) (im bm wt : Img ℚ) (hw : wt.WF) (hb : bm.WF) (hr : bm.nr = wt.nr) (hc : bm.nc = wt.nc) :
    epochFlagF cfg bm (wt.map .num) = epochFlag cfg bm wt ∧
    interpBadPixelsF interpF cfg.badFlags (im.map .num) bm (wt.map .num) =
      (interpBadPixels interp cfg.badFlags im bm wt).map (fun r => (r.1.map .num, r.2.1.map .num, r.2.2)) := by
  refine ⟨epochFlagF_num cfg bm wt, ?_⟩
  have e1 : badPixelsF cfg.badFlags bm (wt.map Flt.num) = badPixels cfg.badFlags bm wt := by
    unfold badPixelsF badPixels
    rw [zipWith_map_right]
    rfl
  have hblen : (badPixels cfg.badFlags bm wt).flat.length = wt.flat.length := by
    have hwf : (badPixels cfg.badFlags bm wt).WF := Img.zipWith_WF hb hw hr hc _
    rw [hwf, hw]
    show bm.nr * bm.nc = _
    rw [hr, hc]
  unfold interpBadPixelsF interpBadPixels
  rw [e1]
  simp only
  by_cases h0 : (badPixels cfg.badFlags bm wt).flat.count true = 0
  · rw [if_pos h0, if_pos h0]
    rfl
  · rw [if_neg h0, if_neg h0]
    by_cases hg : ((List.range (badPixels cfg.badFlags bm wt).flat.length).filter (fun k => (badPixels cfg.badFlags bm wt).flat[k]? == some false)).length = 0
    · rw [if_pos hg, if_pos hg]
      rfl
    · rw [if_neg hg, if_neg hg]
      have hi : ∀ k, interpAtF interpF ((List.range (badPixels cfg.badFlags bm wt).flat.length).filter (fun k => (badPixels cfg.badFlags bm wt).flat[k]? == some false)) (im.map .num) k =
          .num (interpAt interp ((List.range (badPixels cfg.badFlags bm wt).flat.length).filter (fun k => (badPixels cfg.badFlags bm wt).flat[k]? == some false)) im k) := by
        intro k
        unfold interpAtF interpAt
        rw [← hint]
        show interpF _ (k / im.nc, k % im.nc) = _
        congr 1
        rw [List.map_filterMap]
        apply List.filterMap_congr
        intro g _
        show Option.map _ ((im.flat.map Flt.num)[g]?) = _
        rw [List.getElem?_map, Option.map_map, Option.map_map]
        rfl
      have hm : ((List.range (badPixels cfg.badFlags bm wt).flat.length).filter (fun k => (badPixels cfg.badFlags bm wt).flat[k]? == some false)).filterMap
          (fun k => (wt.map Flt.num).flat[k]?) = (((List.range (badPixels cfg.badFlags bm wt).flat.length).filter
            (fun k => (badPixels cfg.badFlags bm wt).flat[k]? == some false)).filterMap (fun k => wt.flat[k]?)).map .num := by
        rw [List.map_filterMap]
        apply List.filterMap_congr
        intro g _
        show (wt.flat.map Flt.num)[g]? = _
        rw [List.getElem?_map]
      have hne : ((List.range (badPixels cfg.badFlags bm wt).flat.length).filter
            (fun k => (badPixels cfg.badFlags bm wt).flat[k]? == some false)).filterMap (fun k => wt.flat[k]?) ≠ [] := by
        intro hnil
        obtain ⟨g, hgm⟩ := List.exists_mem_of_length_pos (Nat.pos_of_ne_zero hg)
        have hlt := List.mem_range.mp (List.mem_filter.mp hgm).1
        have : wt.flat[g]'(by omega) ∈ ((List.range (badPixels cfg.badFlags bm wt).flat.length).filter
            (fun k => (badPixels cfg.badFlags bm wt).flat[k]? == some false)).filterMap (fun k => wt.flat[k]?) :=
          List.mem_filterMap.mpr ⟨g, hgm, List.getElem?_eq_getElem _⟩
        rw [hnil] at this
        cases this
      rw [hm, medianF_num hne]
      simp only [hi]
      unfold Img.map
      show Except.ok _ = Except.ok _
      simp only [List.mapIdx_eq_zipIdx_map, List.zipIdx_map, List.map_map]
      congr 3
      · congr 1
        funext x
        exact (apply_ite Flt.num _ _ _).symm
      · congr 1
        congr 1
        funext x
        exact (apply_ite Flt.num _ _ _).symm

/-- **C126** Symmetrizing a square weight map: a pixel becomes zero if the pixel a quarter turn away is zero, and keeps its weight, NaN and infinite ones too, otherwise. -/
theorem C126_symmetrized {n : Nat} {wt : Img Flt} (hr : wt.nr = n) (hc : wt.nc = n) (hw : wt.WF) :
    ∃ wt', symmetrizeWeightF wt = .ok wt' ∧ wt'.WF ∧ wt'.nr = n ∧ wt'.nc = n ∧
      ∀ i j, i < n → j < n → (wt.get? j (n - 1 - i) = some (.num 0) → wt'.get? i j = some (.num 0)) ∧
        (wt.get? j (n - 1 - i) ≠ some (.num 0) → wt'.get? i j = wt.get? i j) := by
  unfold symmetrizeWeightF
  rw [if_neg (by rw [hr, hc]; simp)]
  have hrot : (rot90G Flt.nan wt).WF := Img.ofFn_WF _ _ _
  have s1 : wt.nr = (rot90G Flt.nan wt).nr := by show wt.nr = wt.nc; omega
  have s2 : wt.nc = (rot90G Flt.nan wt).nc := by show wt.nc = wt.nr; omega
  refine ⟨_, rfl, Img.zipWith_WF hw hrot s1 s2 _, hr, hc, ?_⟩
  intro i j hi hj
  obtain ⟨w, ew⟩ := Img.get?_some_of_WF hw (show i < wt.nr by omega) (show j < wt.nc by omega)
  obtain ⟨v, ev⟩ := Img.get?_some_of_WF hw (show j < wt.nr by omega) (show n - 1 - i < wt.nc by omega)
  have er : (rot90G Flt.nan wt).get? i j = some v := by
    unfold rot90G
    rw [Img.ofFn_get? _ (by omega) (by omega), hc, ev]
    rfl
  rw [Img.zipWith_get? s1 s2 _ i j ew er, ev, ew]
  constructor
  · intro e
    injection e with e
    subst e
    rfl
  · intro e
    have : v.eqZero = false := by
      cases v with
      | num q => exact decide_eq_false (fun h => e (by rw [h]))
      | nan => rfl
      | inf s => rfl
    simp [this]

namespace ExNaN

/-- A stamp of 5 by 5 pixels with NaN weight in one corner and zero weight, and a NaN pixel, in the opposite one. -/
def wt : Img Flt := ⟨5, 5, .nan :: List.replicate 23 (.num 2) ++ [.num 0]⟩
def im : Img Flt := ⟨5, 5, List.replicate 24 (.num 7) ++ [.nan]⟩
def bm : Img ℚ := ⟨5, 5, List.replicate 25 0⟩
def mean : InterpF := fun pts _ => .num (((pts.filterMap (fun x => x.2.num?)).sum) / pts.length)

-- the epoch is used; the NaN weight stays and spreads to the pixel that is replaced
example : epochStampF mean (exTests (1 / 2)) im bm wt = .ok (0, some (⟨5, 5, List.replicate 25 (.num 7)⟩, ⟨5, 5, .nan :: List.replicate 23 (.num 2) ++ [.nan]⟩, 1)) := by
  decide +kernel
-- the same with a number in place of NaN
example : epochStampF mean (exTests (1 / 2)) im bm ⟨5, 5, .num 5 :: List.replicate 23 (.num 2) ++ [.num 0]⟩ =
    .ok (0, some (⟨5, 5, List.replicate 25 (.num 7)⟩, ⟨5, 5, .num 5 :: List.replicate 24 (.num 2)⟩, 1)) := by decide +kernel
-- a NaN weight with a bad flag is replaced; an infinite one is kept
example : epochStampF mean (exTests (1 / 2)) im ⟨5, 5, 1 :: List.replicate 24 0⟩ ⟨5, 5, .nan :: List.replicate 23 (.inf false) ++ [.inf true]⟩ =
    .ok (0, some (⟨5, 5, List.replicate 25 (.num 7)⟩, ⟨5, 5, List.replicate 25 (.inf false)⟩, 2)) := by decide +kernel
-- in the central region it excludes the epoch, and so do NaN weights everywhere without that check
example : epochStampF mean (exTests (1 / 2)) im bm ⟨5, 5, List.replicate 6 (.num 2) ++ .nan :: List.replicate 18 (.num 2)⟩ = .ok (8, none) := by decide +kernel
example : epochStampF mean { exTests (1 / 2) with centralCheck := false } im bm ⟨5, 5, List.replicate 25 .nan⟩ = .ok (32, none) := by decide +kernel
-- symmetrizing carries the zero weight, not the NaN, a quarter turn further
example : epochStampF mean { exTests (1 / 2) with symmetrizeMask := true } im bm wt =
    .ok (0, some (⟨5, 5, List.replicate 25 (.num 7)⟩, ⟨5, 5, .nan :: List.replicate 3 (.num 2) ++ [.nan] ++ List.replicate 19 (.num 2) ++ [.nan]⟩, 2)) := by
  decide +kernel
-- numbers, a NaN weight and infinities in the median
example : medianF [.num 3, .inf false, .num 1] = .num 3 ∧ medianF [.num 3, .inf false, .num 1, .inf false] = .inf false ∧ medianF [.num 3, .num 1] = .num 2 ∧
    medianF [.num 3, .nan, .num 1] = .nan ∧ medianF [.inf true, .inf false] = .nan := by decide +kernel

theorem shapes : ShapesAgree bm wt ∧ ShapesAgree im wt := by
  refine ⟨⟨?_, ?_, rfl, rfl⟩, ⟨?_, ?_, rfl, rfl⟩⟩ <;> rfl

end ExNaN

/-- **C126** is false as it stands: an epoch passes all tests, with the central region and the sides checked, and is handed on with NaN weights, one of them on a pixel whose
weight was zero. -/
theorem C126_counterexample : ∃ (interp : InterpF) (cfg : Cfg) (im : Img Flt) (bm : Img ℚ) (wt im' wt' : Img Flt) (n : Nat),
    ShapesAgree bm wt ∧ ShapesAgree im wt ∧ cfg.centralCheck = true ∧ cfg.edgeCheck = true ∧ epochStampF interp cfg im bm wt = .ok (0, some (im', wt', n)) ∧
    wt.get? 4 4 = some (.num 0) ∧ wt'.get? 0 0 = some .nan ∧ wt'.get? 4 4 = some .nan :=
  ⟨ExNaN.mean, exTests (1 / 2), ExNaN.im, ExNaN.bm, ExNaN.wt, ⟨5, 5, List.replicate 25 (.num 7)⟩, ⟨5, 5, .nan :: List.replicate 23 (.num 2) ++ [.nan]⟩, 1,
    ExNaN.shapes.1, ExNaN.shapes.2, rfl, rfl, by decide +kernel, by decide +kernel, by decide +kernel, by decide +kernel⟩

end Meds.Coadd
