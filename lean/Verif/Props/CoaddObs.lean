import Verif.Props.CoaddMask
import Verif.Props.Reject
import Verif.Examples.Coadd

/-!
# The observations handed to the coadding code, and the masks of the coadd (C46, C59, C60, C61)
-/

namespace Meds.Coadd
open Spec

/-! ### The example run of C46 -/

-- object 0: the second epoch hits the edge (flag 2) and is left out; object 1: the centre of the third epoch is masked (flag 8)
example : (match getObslist Ex.coaddExt Ex.coaddCfg Ex.coaddMed 0, getObslist Ex.coaddExt Ex.coaddCfg Ex.coaddMed 1 with
    | .ok r, .ok r' => decide (r.1.map (·.icut) = [1, 3] ∧ r.2 = some [0, 2, 0] ∧ r'.1.map (·.icut) = [1, 2] ∧ r'.2 = some [0, 0, 8])
    | _, _ => false) = true := by decide +kernel

/-! ### Interpolation (C59) -/

theorem badPixels_flat {flags : Option Int} {bm wt : Img ℚ} (hs : SameShape bm wt) :
    (badPixels flags bm wt).flat.length = wt.nr * wt.nc ∧ (badPixels flags bm wt).nc = wt.nc ∧ (badPixels flags bm wt).nr = wt.nr := by
  have := Img.zipWith_WF hs.1 hs.2.1 hs.2.2.1 hs.2.2.2 (fun b w => decide (w ≤ 0) || flagged flags b)
  unfold Img.WF at this
  refine ⟨?_, hs.2.2.2, hs.2.2.1⟩
  unfold badPixels
  rw [this]
  show bm.nr * bm.nc = _
  rw [hs.2.2.1, hs.2.2.2]

theorem get?_flat {α : Type} {im : Img α} {i j : Nat} (hi : i < im.nr) (hj : j < im.nc) : im.get? i j = im.flat[i * im.nc + j]? := by
  unfold Img.get?
  rw [if_pos ⟨hi, hj⟩]

/-- Weights of the usable pixels. -/
def _root_.Meds.Spec.GoodWeights (flags : Option Int) (bm wt : Img ℚ) (l : List ℚ) : Prop :=
  ∃ ps : List (Nat × Nat), ps.Nodup ∧ (∀ i j, (i, j) ∈ ps ↔ i < wt.nr ∧ j < wt.nc ∧ ¬ BadAt flags bm wt i j) ∧ l = ps.filterMap (fun p => wt.get? p.1 p.2)

theorem median_pos {l : List ℚ} (h : l ≠ []) (hp : ∀ x ∈ l, 0 < x) : 0 < Reject.median l := by
  obtain ⟨s, p, _, x, y, hx, hy, e⟩ := Reject.isMedian_median h
  have h1 := hp x (p.subset (List.mem_of_getElem? hx))
  have h2 := hp y (p.subset (List.mem_of_getElem? hy))
  rw [e]
  linarith

theorem good_weights {flags : Option Int} {bm wt : Img ℚ} (hs : SameShape bm wt) :
    GoodWeights flags bm wt (((List.range (badPixels flags bm wt).flat.length).filter (fun k => (badPixels flags bm wt).flat[k]? == some false)).filterMap
      (fun k => wt.flat[k]?)) := by
  obtain ⟨hlen, hnc, hnr⟩ := badPixels_flat (flags := flags) hs
  refine ⟨((List.range (badPixels flags bm wt).flat.length).filter (fun k => (badPixels flags bm wt).flat[k]? == some false)).map
    (fun k => (k / wt.nc, k % wt.nc)), ?_, ?_, ?_⟩
  · apply List.Nodup.map_on
    · intro x _ y _ h
      have h1 : x / wt.nc = y / wt.nc := congrArg Prod.fst h
      have h2 : x % wt.nc = y % wt.nc := congrArg Prod.snd h
      rw [← Nat.div_add_mod x wt.nc, ← Nat.div_add_mod y wt.nc, h1, h2]
    · exact (List.nodup_range).filter _
  · intro i j
    simp only [List.mem_map, List.mem_filter, List.mem_range, Prod.mk.injEq, beq_iff_eq, hlen]
    constructor
    · rintro ⟨k, ⟨hk, hb⟩, rfl, rfl⟩
      have hc0 : 0 < wt.nc := Nat.pos_of_ne_zero (fun h => by rw [h] at hk; omega)
      have hi : k / wt.nc < wt.nr := Nat.div_lt_of_lt_mul (by rw [Nat.mul_comm]; exact hk)
      have hj : k % wt.nc < wt.nc := Nat.mod_lt _ hc0
      refine ⟨hi, hj, ?_⟩
      obtain ⟨v, e, hv⟩ := badPixels_get? (flags := flags) hs hi hj
      rw [get?_flat (by rw [hnr]; exact hi) (by rw [hnc]; exact hj), hnc, Nat.mul_comm, Nat.div_add_mod, hb] at e
      injection e with e
      intro hbad
      have := hv.mpr hbad
      rw [this] at e
      cases e
    · rintro ⟨hi, hj, hn⟩
      refine ⟨i * wt.nc + j, ⟨Img.idx_lt hi hj, ?_⟩, ?_, ?_⟩
      · obtain ⟨v, e, hv⟩ := badPixels_get? (flags := flags) hs hi hj
        rw [get?_flat (by rw [hnr]; exact hi) (by rw [hnc]; exact hj), hnc] at e
        rw [e]
        cases v
        · rfl
        · exact absurd (hv.mp rfl) hn
      · rw [Nat.mul_comm, Nat.mul_add_div (by omega), Nat.div_eq_of_lt hj, Nat.add_zero]
      · rw [Nat.mul_comm, Nat.mul_add_mod, Nat.mod_eq_of_lt hj]
  · rw [List.filterMap_map]
    apply List.filterMap_congr
    intro k hk
    have hk' : k < wt.nr * wt.nc := by
      have := List.mem_range.mp (List.mem_filter.mp hk).1
      omega
    have hc0 : 0 < wt.nc := Nat.pos_of_ne_zero (fun h => by rw [h] at hk'; omega)
    simp only [Function.comp]
    rw [get?_flat (Nat.div_lt_of_lt_mul (by rw [Nat.mul_comm]; exact hk')) (Nat.mod_lt _ hc0), Nat.mul_comm, Nat.div_add_mod]

/-- Positions and values of the usable pixels, row by row. -/
def _root_.Meds.Spec.GoodPoints (flags : Option Int) (bm wt im : Img ℚ) (pts : List ((Nat × Nat) × ℚ)) : Prop :=
  ∃ ps : List (Nat × Nat), ps.Pairwise (fun p q => p.1 < q.1 ∨ (p.1 = q.1 ∧ p.2 < q.2)) ∧
    (∀ i j, (i, j) ∈ ps ↔ i < wt.nr ∧ j < wt.nc ∧ ¬ BadAt flags bm wt i j) ∧ pts = ps.filterMap (fun p => (im.get? p.1 p.2).map (fun v => (p, v)))

theorem good_points {flags : Option Int} {bm wt im : Img ℚ} (hs : SameShape bm wt) (him : SameShape im wt) :
    GoodPoints flags bm wt im (((List.range (badPixels flags bm wt).flat.length).filter (fun k => (badPixels flags bm wt).flat[k]? == some false)).filterMap
      (fun g => (im.flat[g]?).map (fun v => ((g / im.nc, g % im.nc), v)))) := by
  obtain ⟨hlen, hnc, hnr⟩ := badPixels_flat (flags := flags) hs
  have himr := him.2.2.1
  have himc := him.2.2.2
  refine ⟨((List.range (badPixels flags bm wt).flat.length).filter (fun k => (badPixels flags bm wt).flat[k]? == some false)).map
    (fun k => (k / wt.nc, k % wt.nc)), ?_, ?_, ?_⟩
  · rw [List.pairwise_map]
    apply List.Pairwise.filter
    refine List.Pairwise.imp ?_ List.pairwise_lt_range
    intro x y hxy
    have h1 := Nat.div_add_mod x wt.nc
    have h2 := Nat.div_add_mod y wt.nc
    have h3 : x / wt.nc ≤ y / wt.nc := Nat.div_le_div_right hxy.le
    rcases Nat.lt_or_ge (x / wt.nc) (y / wt.nc) with h | h
    · exact .inl h
    · have e : x / wt.nc = y / wt.nc := by omega
      refine .inr ⟨e, ?_⟩
      rw [e] at h1
      show x % wt.nc < y % wt.nc
      omega
  · intro i j
    simp only [List.mem_map, List.mem_filter, List.mem_range, Prod.mk.injEq, beq_iff_eq, hlen]
    constructor
    · rintro ⟨k, ⟨hk, hb⟩, rfl, rfl⟩
      have hc0 : 0 < wt.nc := Nat.pos_of_ne_zero (fun h => by rw [h] at hk; omega)
      have hi : k / wt.nc < wt.nr := Nat.div_lt_of_lt_mul (by rw [Nat.mul_comm]; exact hk)
      have hj : k % wt.nc < wt.nc := Nat.mod_lt _ hc0
      refine ⟨hi, hj, ?_⟩
      obtain ⟨v, e, hv⟩ := badPixels_get? (flags := flags) hs hi hj
      rw [get?_flat (by rw [hnr]; exact hi) (by rw [hnc]; exact hj), hnc, Nat.mul_comm, Nat.div_add_mod, hb] at e
      injection e with e
      intro hbad
      have := hv.mpr hbad
      rw [this] at e
      cases e
    · rintro ⟨hi, hj, hn⟩
      refine ⟨i * wt.nc + j, ⟨Img.idx_lt hi hj, ?_⟩, ?_, ?_⟩
      · obtain ⟨v, e, hv⟩ := badPixels_get? (flags := flags) hs hi hj
        rw [get?_flat (by rw [hnr]; exact hi) (by rw [hnc]; exact hj), hnc] at e
        rw [e]
        cases v
        · rfl
        · exact absurd (hv.mp rfl) hn
      · rw [Nat.mul_comm, Nat.mul_add_div (by omega), Nat.div_eq_of_lt hj, Nat.add_zero]
      · rw [Nat.mul_comm, Nat.mul_add_mod, Nat.mod_eq_of_lt hj]
  · rw [List.filterMap_map]
    apply List.filterMap_congr
    intro k hk
    have hk' : k < wt.nr * wt.nc := by
      have := List.mem_range.mp (List.mem_filter.mp hk).1
      omega
    have hc0 : 0 < wt.nc := Nat.pos_of_ne_zero (fun h => by rw [h] at hk'; omega)
    simp only [Function.comp]
    rw [get?_flat (by rw [himr]; exact Nat.div_lt_of_lt_mul (by rw [Nat.mul_comm]; exact hk')) (by rw [himc]; exact Nat.mod_lt _ hc0), himc, Nat.mul_comm, Nat.div_add_mod]

theorem mapIdx_get? {im : Img ℚ} {f : Nat → ℚ → ℚ} {i j : Nat} (hi : i < im.nr) (hj : j < im.nc) :
    Img.get? { im with flat := im.flat.mapIdx f } i j = (im.get? i j).map (f (i * im.nc + j)) := by
  rw [get?_flat (im := { im with flat := im.flat.mapIdx f }) hi hj, get?_flat hi hj, List.getElem?_mapIdx]

/-- **C59** Before an epoch is coadded its unusable pixels are replaced: good pixels keep value and weight, the weight of every bad pixel becomes the median weight of
the good ones, so that all weights are positive afterwards, and its value that of the interpolator built on the good pixels.  It raises only if no pixel is good. -/
theorem C59_interpolated {interp : Interp} {flags : Option Int} {im bm wt : Img ℚ} (hs : SameShape bm wt) (him : SameShape im wt)
    (hgood : ∃ i j, i < wt.nr ∧ j < wt.nc ∧ ¬ BadAt flags bm wt i j) :
    ∃ im' wt' n, interpBadPixels interp flags im bm wt = .ok (im', wt', n) ∧ SameShape im' wt' ∧ wt'.nr = wt.nr ∧ wt'.nc = wt.nc ∧
      (∀ i j, i < wt.nr → j < wt.nc → ¬ BadAt flags bm wt i j → im'.get? i j = im.get? i j ∧ wt'.get? i j = wt.get? i j) ∧
      (∃ l m, GoodWeights flags bm wt l ∧ IsMedian l m ∧ ∀ i j, i < wt.nr → j < wt.nc → BadAt flags bm wt i j → wt'.get? i j = some m) ∧
      (∀ i j v, wt'.get? i j = some v → 0 < v) ∧ (n = 0 ↔ ¬ ∃ i j, BadAt flags bm wt i j) ∧
      ∃ pts, GoodPoints flags bm wt im pts ∧ ∀ i j, BadAt flags bm wt i j → im'.get? i j = some (interp pts (i, j)) := by
  obtain ⟨hlen, hnc, hnr⟩ := badPixels_flat (flags := flags) hs
  have hbad : ∀ i j, i < wt.nr → j < wt.nc → (BadAt flags bm wt i j ↔ (badPixels flags bm wt).flat[i * wt.nc + j]? = some true) := by
    intro i j hi hj
    obtain ⟨v, e, hv⟩ := badPixels_get? (flags := flags) hs hi hj
    rw [get?_flat (by rw [hnr]; exact hi) (by rw [hnc]; exact hj), hnc] at e
    rw [e, ← hv]
    simp
  have hlt : ∀ {i j}, BadAt flags bm wt i j → i < wt.nr ∧ j < wt.nc := fun ⟨_, _, _, h, _⟩ => Img.get?_lt h
  have hcount : (badPixels flags bm wt).flat.count true = 0 ↔ ¬ ∃ i j, BadAt flags bm wt i j := by
    rw [List.count_eq_zero]
    constructor
    · rintro h ⟨i, j, hb⟩
      exact h (List.mem_of_getElem? ((hbad i j (hlt hb).1 (hlt hb).2).mp hb))
    · intro h hm
      have hwf : (badPixels flags bm wt).WF := Img.zipWith_WF hs.1 hs.2.1 hs.2.2.1 hs.2.2.2 _
      obtain ⟨i, j, e⟩ := Img.flat_mem_get? hwf hm
      have hl := Img.get?_lt e
      rw [hnr, hnc] at hl
      obtain ⟨v, e', hv⟩ := badPixels_get? (flags := flags) hs hl.1 hl.2
      rw [e] at e'
      injection e' with e'
      exact h ⟨i, j, hv.mp e'.symm⟩
  have hgw := good_weights (flags := flags) hs
  have hposw : ∀ i j v, wt.get? i j = some v → ¬ BadAt flags bm wt i j → 0 < v := by
    intro i j v e hn
    by_contra hv
    have hl := Img.get?_lt e
    obtain ⟨b, eb⟩ := Img.get?_some_of_WF hs.1 (show i < bm.nr by rw [hs.2.2.1]; exact hl.1) (show j < bm.nc by rw [hs.2.2.2]; exact hl.2)
    exact hn ⟨b, v, eb, e, .inl (not_lt.mp hv)⟩
  have hpos : ∀ x ∈ (((List.range (badPixels flags bm wt).flat.length).filter (fun k => (badPixels flags bm wt).flat[k]? == some false)).filterMap
      (fun k => wt.flat[k]?)), 0 < x := by
    intro x hx
    obtain ⟨ps, _, hps, e⟩ := hgw
    rw [e, List.mem_filterMap] at hx
    obtain ⟨⟨i, j⟩, hp, hv⟩ := hx
    exact hposw i j x hv ((hps i j).mp hp).2.2
  have hne : (((List.range (badPixels flags bm wt).flat.length).filter (fun k => (badPixels flags bm wt).flat[k]? == some false)).filterMap
      (fun k => wt.flat[k]?)) ≠ [] := by
    obtain ⟨i, j, hi, hj, hn⟩ := hgood
    obtain ⟨ps, _, hps, e⟩ := hgw
    obtain ⟨v, ev⟩ := Img.get?_some_of_WF hs.2.1 hi hj
    intro h0
    rw [h0] at e
    have : v ∈ List.filterMap (fun p : Nat × Nat => wt.get? p.1 p.2) ps := List.mem_filterMap.mpr ⟨(i, j), (hps i j).mpr ⟨hi, hj, hn⟩, ev⟩
    rw [← e] at this
    cases this
  have hmed := Reject.isMedian_median hne
  have hmpos := median_pos hne hpos
  unfold interpBadPixels
  simp only
  by_cases h0 : (badPixels flags bm wt).flat.count true = 0
  · rw [if_pos h0]
    refine ⟨im, wt, 0, rfl, him, rfl, rfl, fun _ _ _ _ _ => ⟨rfl, rfl⟩, ⟨_, _, hgw, hmed, ?_⟩, ?_, by simp [hcount.mp h0], _, good_points hs him, fun i j hb => absurd ⟨i, j, hb⟩ (hcount.mp h0)⟩
    · intro i j _ _ hb
      exact absurd ⟨i, j, hb⟩ (hcount.mp h0)
    · intro i j v e
      exact hposw i j v e (fun hb => hcount.mp h0 ⟨i, j, hb⟩)
  · rw [if_neg h0]
    have hg : (List.filter (fun k => (badPixels flags bm wt).flat[k]? == some false) (List.range (badPixels flags bm wt).flat.length)).length ≠ 0 := by
      intro h
      rw [List.length_eq_zero_iff.mp h] at hne
      exact hne rfl
    rw [if_neg hg]
    refine ⟨_, _, _, rfl, ⟨?_, ?_, him.2.2.1, him.2.2.2⟩, rfl, rfl, ?_, ⟨_, _, hgw, hmed, ?_⟩, ?_, hcount, _, good_points hs him, ?_⟩
    · show (List.mapIdx _ im.flat).length = _
      rw [List.length_mapIdx]; exact him.1
    · show (List.mapIdx _ wt.flat).length = _
      rw [List.length_mapIdx]; exact hs.2.1
    · intro i j hi hj hn
      rw [mapIdx_get? (by rw [him.2.2.1]; exact hi) (by rw [him.2.2.2]; exact hj), mapIdx_get? hi hj, him.2.2.2]
      have : ¬ (badPixels flags bm wt).flat[i * wt.nc + j]? = some true := fun h => hn ((hbad i j hi hj).mpr h)
      simp [this]
    · intro i j hi hj hb
      rw [mapIdx_get? hi hj]
      obtain ⟨v, ev⟩ := Img.get?_some_of_WF hs.2.1 hi hj
      rw [ev]
      simp [(hbad i j hi hj).mp hb]
    · intro i j v e
      have hl0 := Img.get?_lt e
      have hl : i < wt.nr ∧ j < wt.nc := hl0
      rw [mapIdx_get? hl.1 hl.2] at e
      obtain ⟨w, ew⟩ := Img.get?_some_of_WF hs.2.1 hl.1 hl.2
      rw [ew] at e
      simp only [Option.map_some, Option.some.injEq] at e
      by_cases hb : (badPixels flags bm wt).flat[i * wt.nc + j]? = some true
      · rw [if_pos hb] at e
        rw [← e]; exact hmpos
      · rw [if_neg hb] at e
        rw [← e]
        exact hposw i j w ew (fun h => hb ((hbad i j hl.1 hl.2).mp h))
    · intro i j hb
      have hl := hlt hb
      rw [mapIdx_get? (by rw [him.2.2.1]; exact hl.1) (by rw [him.2.2.2]; exact hl.2), him.2.2.2]
      obtain ⟨v, ev⟩ := Img.get?_some_of_WF him.1 (show i < im.nr by rw [him.2.2.1]; exact hl.1) (show j < im.nc by rw [him.2.2.2]; exact hl.2)
      rw [ev, Option.map_some, if_pos ((hbad i j hl.1 hl.2).mp hb)]
      unfold interpAt
      rw [him.2.2.2, show (i * wt.nc + j) / wt.nc = i by rw [Nat.mul_comm, Nat.mul_add_div (by omega), Nat.div_eq_of_lt hl.2, Nat.add_zero],
        show (i * wt.nc + j) % wt.nc = j by rw [Nat.mul_comm, Nat.mul_add_mod, Nat.mod_eq_of_lt hl.2]]

-- one bad pixel (zero weight) in a 2 by 2 stamp: its weight becomes the median 3
example : interpBadPixels (fun _ _ => 50) none ⟨2, 2, [1, 2, 3, 4]⟩ ⟨2, 2, [0, 0, 0, 0]⟩ ⟨2, 2, [1, 0, 3, 7]⟩ = .ok (⟨2, 2, [1, 50, 3, 4]⟩, ⟨2, 2, [1, 3, 3, 7]⟩, 1) := by
  decide +kernel

/-! ### Masks of the coadd (C60) -/

theorem splitMosaic_shape {mos : Img ℚ} (hw : mos.WF) {l : List (Img ℚ)} (h : splitMosaic mos = .ok l) : ∀ im ∈ l, im.nr = mos.nc ∧ im.nc = mos.nc ∧ im.WF := by
  unfold splitMosaic at h
  simp only at h
  split at h
  · cases h
  · rename_i h0
    injection h with h
    intro im him
    rw [← h, List.mem_map] at him
    obtain ⟨k, hk, e⟩ := him
    have hk := List.mem_range.mp hk
    have h1 : (k + 1) * mos.nc ≤ mos.nr := le_trans (Nat.mul_le_mul_right _ hk) (Nat.div_mul_le_self _ _)
    have h2 : min ((k + 1) * mos.nc) mos.nr = (k + 1) * mos.nc := Nat.min_eq_left h1
    have h3 : (k + 1) * mos.nc - k * mos.nc = mos.nc := by rw [Nat.add_mul]; omega
    have hfl : mos.flat.length = mos.nr * mos.nc := hw
    rw [← e]
    refine ⟨?_, rfl, ?_⟩
    · show min _ _ - _ = _
      rw [h2, h3]
    · show (List.drop _ (List.take _ _)).length = (min _ _ - _) * _
      rw [List.length_drop, List.length_take, h2, h3, hfl, Nat.min_eq_left (Nat.mul_le_mul_right _ h1), ← Nat.mul_sub_right_distrib, h3]
      rfl

theorem getMosaic_WF {m : MEDS} {i : Int} {t : String} {mos : Img ℚ} (h : m.getMosaic i t = .ok mos) : mos.WF := by
  unfold MEDS.getMosaic at h
  obtain ⟨_, _, h⟩ := Res.bind_eq_ok.mp h
  obtain ⟨o, _, h⟩ := Res.bind_eq_ok.mp h
  obtain ⟨_, _, h⟩ := Res.bind_eq_ok.mp h
  obtain ⟨_, _, h⟩ := Res.bind_eq_ok.mp h
  obtain ⟨fl, _, h⟩ := Res.bind_eq_ok.mp h
  obtain ⟨h1, h2, h3, e⟩ := reshape_ok h
  rw [e]
  show fl.length = _ * _
  have : ((fl.length : Nat) : Int) = (((o.ncutout * o.boxSize).toNat * o.boxSize.toNat : Nat) : Int) := by
    rw [h3]; push_cast; rw [Int.toNat_of_nonneg h1, Int.toNat_of_nonneg h2]
  exact_mod_cast this

theorem getCutoutList_shape {m : MEDS} {i : Int} {t : String} (ht : t ≠ "psf") {l : List (Img ℚ)} (h : m.getCutoutList i t = .ok l) :
    ∃ b, ∀ im ∈ l, im.nr = b ∧ im.nc = b ∧ im.WF := by
  unfold MEDS.getCutoutList at h
  rw [if_neg ht] at h
  obtain ⟨mos, h1, h⟩ := Res.bind_eq_ok.mp h
  exact ⟨_, splitMosaic_shape (getMosaic_WF h1) h⟩

/-- The masks of the observations are those of their epochs, symmetrized when configured. -/
theorem obs_bmask {ext : Ext} {cfg : Cfg} {m : MEDS} {iobj : Int} {ls : Lists} : ∀ (l : List Nat) {st st' : EpochState},
    (∀ o ∈ st.obs, ∃ bm ∈ ls.bms, ∃ wt w, symmetrized cfg bm wt = .ok (o.bmask, w)) → foldRes (epochStep ext cfg m iobj ls) st l = .ok st' →
    ∀ o ∈ st'.obs, ∃ bm ∈ ls.bms, ∃ wt w, symmetrized cfg bm wt = .ok (o.bmask, w) := by
  intro l st st' h0 h
  refine foldRes_inv (P := fun s => ∀ o ∈ s.obs, ∃ bm ∈ ls.bms, ∃ wt w, symmetrized cfg bm wt = .ok (o.bmask, w)) h0 ?_ h
  intro s s' i _ hs he
  unfold epochStep at he
  obtain ⟨im, h1, he⟩ := Res.bind_eq_ok.mp he
  obtain ⟨wt, h2, he⟩ := Res.bind_eq_ok.mp he
  obtain ⟨seg, h3, he⟩ := Res.bind_eq_ok.mp he
  obtain ⟨bm, h4, he⟩ := Res.bind_eq_ok.mp he
  obtain ⟨sl, h5, he⟩ := Res.bind_eq_ok.mp he
  obtain ⟨bw, h6, he⟩ := Res.bind_eq_ok.mp he
  obtain ⟨f, h7, he⟩ := Res.bind_eq_ok.mp he
  split at he
  · injection he with he
    rw [← he]
    exact hs
  · obtain ⟨o, ho, he⟩ := Res.bind_eq_ok.mp he
    injection he with he
    have hob : o.bmask = bw.1 := by
      unfold makeObs at ho
      obtain ⟨_, _, ho⟩ := Res.bind_eq_ok.mp ho
      obtain ⟨_, _, ho⟩ := Res.bind_eq_ok.mp ho
      obtain ⟨_, _, ho⟩ := Res.bind_eq_ok.mp ho
      injection ho with ho
      rw [← ho]
    rw [← he]
    intro o' ho'
    rw [List.mem_append, List.mem_singleton] at ho'
    rcases ho' with ho' | rfl
    · exact hs o' ho'
    · exact ⟨bm, pyGet_ok h4, wt, bw.2, by rw [h6, hob]⟩

theorem orPixels_fold {b : Nat} : ∀ (l : List Obs) (a : Img ℚ), (a.nr = b ∧ a.nc = b ∧ a.WF) → (∀ o ∈ l, o.bmask.nr = b ∧ o.bmask.nc = b ∧ o.bmask.WF) →
    ∀ i j, i < b → j < b → ∀ va : Int, a.get? i j = some (va : ℚ) → ∃ v : Int, (l.foldl (fun a x => orPixels a x.bmask) a).get? i j = some (v : ℚ) ∧
      ∀ k, v.testBit k = true ↔ va.testBit k = true ∨ ∃ o ∈ l, ∃ w, o.bmask.get? i j = some w ∧ Int.testBit ⌊w⌋ k = true := by
  intro l
  induction l with
  | nil =>
    intro a _ _ i j _ _ va hv
    exact ⟨va, hv, by simp⟩
  | cons o os ih =>
    intro a ha ho i j hi hj va hv
    obtain ⟨o1, o2, o3⟩ := ho o (by simp)
    obtain ⟨w, ew⟩ := Img.get?_some_of_WF o3 (show i < o.bmask.nr by omega) (show j < o.bmask.nc by omega)
    have hz := Img.zipWith_get? (show a.nr = o.bmask.nr by omega) (show a.nc = o.bmask.nc by omega) (fun x y : ℚ => ((Int.lor ⌊x⌋ ⌊y⌋ : Int) : ℚ)) i j hv ew
    simp only [Int.floor_intCast] at hz
    obtain ⟨v, e, hb⟩ := ih (orPixels a o.bmask) ⟨ha.1, ha.2.1, Img.zipWith_WF ha.2.2 o3 (by omega) (by omega) _⟩ (fun x hx => ho x (by simp [hx])) i j hi hj _ hz
    refine ⟨v, e, ?_⟩
    intro k
    rw [hb k, Int.testBit_lor, Bool.or_eq_true]
    constructor
    · rintro ((h | h) | ⟨x, hx, h⟩)
      · exact .inl h
      · exact .inr ⟨o, by simp, w, ew, h⟩
      · exact .inr ⟨x, by simp [hx], h⟩
    · rintro (h | ⟨x, hx, w', ew', h⟩)
      · exact .inl (.inl h)
      · rcases List.mem_cons.mp hx with rfl | hx
        · rw [ew] at ew'; injection ew' with ew'; subst ew'
          exact .inl (.inr h)
        · exact .inr ⟨x, hx, w', ew', h⟩

/-- **C60** The `bmask` of a coadd is zero everywhere, and a bit is set in its `ormask` exactly when it is set, at that pixel, in the mask of one of the epochs that
went into the coadd.  The number of epochs recorded is their number. -/
theorem C60_ormask {ext : Ext} {cfg : Cfg} {combine : List Obs → Stamp} {jm : MEDS.Mat2} {m : MEDS} {iobj : Int} {c : CoaddObs} {fl : Int}
    (h : getCoaddObs ext cfg combine jm m iobj = .ok (some c, fl)) :
    ∃ obs flags b, getObslist ext cfg m iobj = .ok (obs, some flags) ∧ obs ≠ [] ∧ fl = 0 ∧ c.ncoadd = obs.length ∧ c.imflags = flags ∧ c.stamp = combine obs ∧
      c.bmask.nr = b ∧ c.bmask.nc = b ∧ (∀ o ∈ obs, o.bmask.nr = b ∧ o.bmask.nc = b) ∧
      ∀ i j, i < b → j < b → c.bmask.get? i j = some 0 ∧ ∃ v : Int, c.ormask.get? i j = some (v : ℚ) ∧
        ∀ k, v.testBit k = true ↔ ∃ o ∈ obs, ∃ w, o.bmask.get? i j = some w ∧ Int.testBit ⌊w⌋ k = true := by
  unfold getCoaddObs at h
  obtain ⟨r, h1, h⟩ := Res.bind_eq_ok.mp h
  obtain ⟨obs, fls⟩ := r
  cases obs with
  | nil => injection h with h; injection h with h _; cases h
  | cons o os =>
    simp only at h
    obtain ⟨seg, hseg, h⟩ := Res.bind_eq_ok.mp h
    injection h with h
    injection h with hc hf
    injection hc with hc
    have h1' := h1
    unfold getObslist at h1'
    obtain ⟨ims, g1, h1'⟩ := Res.bind_eq_ok.mp h1'
    split at h1'
    · injection h1' with h1'; injection h1' with h1' _; cases h1'
    · obtain ⟨wts, g2, h1'⟩ := Res.bind_eq_ok.mp h1'
      obtain ⟨bms, g3, h1'⟩ := Res.bind_eq_ok.mp h1'
      obtain ⟨wts', g4, h1'⟩ := Res.bind_eq_ok.mp h1'
      obtain ⟨segs, g5, h1'⟩ := Res.bind_eq_ok.mp h1'
      obtain ⟨st, g6, h1'⟩ := Res.bind_eq_ok.mp h1'
      injection h1' with h1'
      injection h1' with e1 e2
      obtain ⟨b, hb⟩ := getCutoutList_shape (by decide) g3
      have hob := obs_bmask _ (by simp) g6
      have hsh : ∀ x ∈ o :: os, x.bmask.nr = b ∧ x.bmask.nc = b ∧ x.bmask.WF := by
        intro x hx
        rw [← e1] at hx
        obtain ⟨bm, hm, wt, w, hs⟩ := hob x hx
        have hbm := hb bm (List.mem_of_mem_drop hm)
        unfold symmetrized at hs
        split at hs
        · obtain ⟨w1, q1, hs⟩ := Res.bind_eq_ok.mp hs
          obtain ⟨b1, q2, hs⟩ := Res.bind_eq_ok.mp hs
          injection hs with hs
          injection hs with hs _
          rw [hs] at q2
          cases hfl : cfg.badFlags with
          | none =>
            rw [hfl] at q2
            unfold symmetrizeBmask at q2
            injection q2 with q2
            rw [← q2]; exact hbm
          | some f =>
            rw [hfl] at q2
            obtain ⟨b2, q3, s1, s2, s3, _⟩ := C47_bmask_partial (f := f) hbm.1 hbm.2.1 hbm.2.2
            rw [q2] at q3
            injection q3 with q3
            subst q3
            exact ⟨s1, s2, s3⟩
        · injection hs with hs
          injection hs with hs _
          rw [← hs]; exact hbm
      have ho := hsh o (by simp)
      have hzero : ∀ i j, i < b → j < b → (o.bmask.map (fun _ => (0 : ℚ))).get? i j = some 0 := by
        intro i j hi hj
        obtain ⟨v, e⟩ := Img.get?_some_of_WF ho.2.2 (show i < o.bmask.nr by omega) (show j < o.bmask.nc by omega)
        rw [Img.map_get?, e]; rfl
      refine ⟨o :: os, st.flags, b, by rw [h1, ← e2], by simp, hf.symm, by rw [← hc], by rw [← hc]; simp [← e2], by rw [← hc], by rw [← hc]; exact ho.1,
        by rw [← hc]; exact ho.2.1, fun x hx => ⟨(hsh x hx).1, (hsh x hx).2.1⟩, ?_⟩
      intro i j hi hj
      refine ⟨by rw [← hc]; exact hzero i j hi hj, ?_⟩
      obtain ⟨v, e, hk⟩ := orPixels_fold (o :: os) (o.bmask.map (fun _ => (0 : ℚ))) ⟨ho.1, ho.2.1, Img.map_WF ho.2.2 _⟩ hsh i j hi hj 0 (by rw [hzero i j hi hj]; rfl)
      refine ⟨v, by rw [← hc]; exact e, ?_⟩
      intro k
      rw [hk k]
      have h0 : Int.testBit 0 k = false := by
        show Nat.testBit 0 k = false
        exact Nat.zero_testBit k
      rw [h0]
      simp only [Bool.false_eq_true, false_or]

-- object 0 of the example: the third epoch brings bits 1 and 16 to the ormask
example : (match getCoaddObs Ex.coaddExt Ex.coaddCfg (fun os => ⟨⟨4, 4, []⟩, ⟨4, 4, []⟩, ⟨4, 4, []⟩, ⟨1, 1, [1]⟩, (os.headD ⟨0, ⟨0, 0, []⟩, ⟨0, 0, []⟩, ⟨0, 0, []⟩, ⟨0, 0, []⟩, ⟨0, 0, 0, 0, 0, 0⟩, 0, 0, ⟨0, 0, []⟩, 0⟩).jac, 0, 0⟩)
      ⟨1, 0, 0, 1⟩ Ex.coaddMed 0 with
    | .ok (some c, 0) => decide (c.ncoadd = 2 ∧ c.imflags = [0, 2, 0] ∧ c.bmask.flat = List.replicate 16 0 ∧ c.ormask.flat = [1, 0, 0, 0, 0, 0, 0, 16, 0, 0, 0, 0, 0, 0, 0, 0])
    | _ => false) = true := by decide +kernel

/-! ### Lists of flags (C61) -/

theorem add_eq_or : ∀ (a b : Nat), a &&& b = 0 → a + b = a ||| b := by
  intro a
  induction a using Nat.strong_induction_on with
  | _ a ih =>
    intro b h
    by_cases h0 : a = 0
    · simp [h0]
    · have hd : a / 2 &&& b / 2 = 0 := by rw [← Nat.and_div_two, h]
      have := ih (a / 2) (by omega) (b / 2) hd
      have h1 : (a ||| b) / 2 = a / 2 ||| b / 2 := Nat.or_div_two
      have h2 := Nat.or_mod_two_eq_one (a := a) (b := b)
      have h3 : ¬ (a % 2 = 1 ∧ b % 2 = 1) := fun hh => by
        have := Nat.and_mod_two_eq_one.mpr hh
        rw [h] at this
        cases this
      omega

theorem testBit_pow_sum (ks : List Nat) (h : ks.Nodup) (j : Nat) : Nat.testBit (ks.map (fun k => 2 ^ k)).sum j = true ↔ j ∈ ks := by
  induction ks generalizing j with
  | nil => simp
  | cons k ks ih =>
    rw [List.nodup_cons] at h
    have hand : 2 ^ k &&& (ks.map (fun k => 2 ^ k)).sum = 0 := by
      apply Nat.eq_of_testBit_eq
      intro i
      rw [Nat.testBit_and, Nat.testBit_two_pow, Nat.zero_testBit]
      by_cases hki : k = i
      · subst hki
        have : ¬ Nat.testBit (ks.map (fun k => 2 ^ k)).sum k = true := fun hb => h.1 ((ih h.2 k).mp hb)
        simp [this]
      · simp [hki]
    rw [List.map_cons, List.sum_cons, add_eq_or _ _ hand, Nat.testBit_or, Bool.or_eq_true, ih h.2, Nat.testBit_two_pow, List.mem_cons]
    simp [eq_comm]

/-- **C61** (part) A list of different single bits: the sum has exactly those bits, so a pixel is flagged exactly when it has one of them. -/
theorem C61_distinct_bits_partial (ks : List Nat) (h : ks.Nodup) (v : ℚ) (hv : 0 ≤ v) :
    flagged (sumFlags (some (ks.map (fun k => (2 : Int) ^ k)))) v = true ↔ ∃ k ∈ ks, Int.testBit ⌊v⌋ k = true := by
  obtain ⟨n, hn⟩ := Int.eq_ofNat_of_zero_le (Int.floor_nonneg.mpr hv)
  have hs : (ks.map (fun k => (2 : Int) ^ k)).sum = (((ks.map (fun k => 2 ^ k)).sum : Nat) : Int) := by
    clear h
    induction ks with
    | nil => rfl
    | cons k ks ih => rw [List.map_cons, List.sum_cons, ih, List.map_cons, List.sum_cons]; push_cast; rfl
  have hand : Int.land (n : Int) (((ks.map (fun k => 2 ^ k)).sum : Nat) : Int) = ((n &&& (ks.map (fun k => 2 ^ k)).sum : Nat) : Int) := rfl
  have hb : ∀ k, Int.testBit (n : Int) k = Nat.testBit n k := fun _ => rfl
  rw [flagged_iff]
  unfold HasFlag sumFlags
  simp only [Option.map_some, Option.some.injEq, exists_eq_left', hs, hn, hand, hb]
  constructor
  · intro hne
    have hne : n &&& (ks.map (fun k => 2 ^ k)).sum ≠ 0 := fun h0 => hne (by rw [h0]; rfl)
    obtain ⟨k, hk⟩ := Nat.exists_testBit_of_ne_zero hne
    rw [Nat.testBit_and, Bool.and_eq_true] at hk
    exact ⟨k, (testBit_pow_sum ks h k).mp hk.2, hk.1⟩
  · rintro ⟨k, hk, hkn⟩ h0
    have h0 : n &&& (ks.map (fun k => 2 ^ k)).sum = 0 := by exact_mod_cast h0
    have : Nat.testBit (n &&& (ks.map (fun k => 2 ^ k)).sum) k = true := by
      rw [Nat.testBit_and, Bool.and_eq_true]
      exact ⟨hkn, (testBit_pow_sum ks h k).mpr hk⟩
    rw [h0, Nat.zero_testBit] at this
    cases this

/-- The bits of any of the masks. -/
def anyBit (fs : List Nat) : Nat := fs.foldr (· ||| ·) 0

theorem testBit_anyBit (fs : List Nat) (k : Nat) : (anyBit fs).testBit k = true ↔ ∃ f ∈ fs, f.testBit k = true := by
  induction fs with
  | nil => simp [anyBit]
  | cons f fs ih =>
    rw [show anyBit (f :: fs) = f ||| anyBit fs from rfl, Nat.testBit_or, Bool.or_eq_true, ih]
    simp

theorem add_eq_or_add_and : ∀ (a b : Nat), a + b = (a ||| b) + (a &&& b) := by
  intro a
  induction a using Nat.strong_induction_on with
  | _ a ih =>
    intro b
    by_cases h0 : a = 0
    · simp [h0]
    · have := ih (a / 2) (by omega) (b / 2)
      have h1 : (a ||| b) / 2 = a / 2 ||| b / 2 := Nat.or_div_two
      have h2 : (a &&& b) / 2 = a / 2 &&& b / 2 := Nat.and_div_two
      have h3 := Nat.or_mod_two_eq_one (a := a) (b := b)
      have h4 := Nat.and_mod_two_eq_one (a := a) (b := b)
      omega

theorem and_anyBit (a : Nat) (fs : List Nat) : a &&& anyBit fs = 0 ↔ ∀ f ∈ fs, a &&& f = 0 := by
  constructor
  · intro h f hf
    apply Nat.eq_of_testBit_eq
    intro k
    rw [Nat.testBit_and, Nat.zero_testBit, Bool.and_eq_false_iff]
    by_contra hc
    rw [not_or, Bool.not_eq_false, Bool.not_eq_false] at hc
    have : (a &&& anyBit fs).testBit k = true := by
      rw [Nat.testBit_and, Bool.and_eq_true]
      exact ⟨hc.1, (testBit_anyBit fs k).mpr ⟨f, hf, hc.2⟩⟩
    rw [h, Nat.zero_testBit] at this
    cases this
  · intro h
    apply Nat.eq_of_testBit_eq
    intro k
    rw [Nat.testBit_and, Nat.zero_testBit, Bool.and_eq_false_iff]
    by_contra hc
    rw [not_or, Bool.not_eq_false, Bool.not_eq_false, testBit_anyBit] at hc
    obtain ⟨h1, f, hf, h2⟩ := hc
    have : (a &&& f).testBit k = true := by
      rw [Nat.testBit_and, Bool.and_eq_true]
      exact ⟨h1, h2⟩
    rw [h f hf, Nat.zero_testBit] at this
    cases this

theorem anyBit_le_sum (fs : List Nat) : anyBit fs ≤ fs.sum ∧ (anyBit fs = fs.sum ↔ fs.Pairwise (fun a b => a &&& b = 0)) := by
  induction fs with
  | nil => simp [anyBit]
  | cons f fs ih =>
    have e := add_eq_or_add_and f (anyBit fs)
    rw [show anyBit (f :: fs) = f ||| anyBit fs from rfl, List.sum_cons, List.pairwise_cons, ← and_anyBit, ← ih.2]
    constructor
    · omega
    · constructor
      · intro h; omega
      · rintro ⟨h1, h2⟩; omega

/-- **C61** The condition: a list of flags (each a number with one or more bits) works for every mask value, a pixel being flagged exactly when it has a bit of one of the
flags, if and only if no two flags of the list have a bit in common. -/
theorem C61_exactly_when_disjoint (fs : List Nat) :
    (∀ v : ℚ, 0 ≤ v → (flagged (sumFlags (some (fs.map (fun f : Nat => (f : Int))))) v = true ↔ ∃ f ∈ fs, ∃ k, Nat.testBit f k = true ∧ Int.testBit ⌊v⌋ k = true)) ↔
      fs.Pairwise (fun a b => a &&& b = 0) := by
  rw [← (anyBit_le_sum fs).2]
  have hs : (fs.map (fun f : Nat => (f : Int))).sum = ((fs.sum : Nat) : Int) := by
    induction fs with
    | nil => rfl
    | cons k ks ih => rw [List.map_cons, List.sum_cons, ih, List.sum_cons]; push_cast; rfl
  have hflag : ∀ n : Nat, flagged (sumFlags (some (fs.map (fun f : Nat => (f : Int))))) (n : ℚ) = true ↔ ∃ k, Nat.testBit fs.sum k = true ∧ Nat.testBit n k = true := by
    intro n
    have hfl : ⌊(n : ℚ)⌋ = (n : Int) := Int.floor_natCast n
    have hand : Int.land (n : Int) ((fs.sum : Nat) : Int) = ((n &&& fs.sum : Nat) : Int) := rfl
    rw [flagged_iff]
    unfold HasFlag sumFlags
    simp only [Option.map_some, Option.some.injEq, exists_eq_left', hs, hfl, hand]
    constructor
    · intro hne
      have hne : n &&& fs.sum ≠ 0 := fun h0 => hne (by rw [h0]; rfl)
      obtain ⟨k, hk⟩ := Nat.exists_testBit_of_ne_zero hne
      rw [Nat.testBit_and, Bool.and_eq_true] at hk
      exact ⟨k, hk.2, hk.1⟩
    · rintro ⟨k, hk, hkn⟩ h0
      have h0 : n &&& fs.sum = 0 := by exact_mod_cast h0
      have : Nat.testBit (n &&& fs.sum) k = true := by
        rw [Nat.testBit_and, Bool.and_eq_true]
        exact ⟨hkn, hk⟩
      rw [h0, Nat.zero_testBit] at this
      cases this
  have hspec : ∀ n : Nat, (∃ f ∈ fs, ∃ k, Nat.testBit f k = true ∧ Int.testBit (n : Int) k = true) ↔ ∃ k, (anyBit fs).testBit k = true ∧ Nat.testBit n k = true := by
    intro n
    constructor
    · rintro ⟨f, hf, k, h1, h2⟩
      exact ⟨k, (testBit_anyBit fs k).mpr ⟨f, hf, h1⟩, h2⟩
    · rintro ⟨k, h1, h2⟩
      obtain ⟨f, hf, h1⟩ := (testBit_anyBit fs k).mp h1
      exact ⟨f, hf, k, h1, h2⟩
  constructor
  · intro h
    apply Nat.eq_of_testBit_eq
    intro k
    have hk := h ((2 ^ k : Nat) : ℚ) (by positivity)
    rw [hflag, Int.floor_natCast, hspec] at hk
    have h1 : ∀ x : Nat, (∃ j, Nat.testBit x j = true ∧ Nat.testBit (2 ^ k) j = true) ↔ Nat.testBit x k = true := by
      intro x
      constructor
      · rintro ⟨j, a, b⟩
        rw [Nat.testBit_two_pow, decide_eq_true_eq] at b
        rwa [b]
      · intro a
        exact ⟨k, a, by rw [Nat.testBit_two_pow_self]⟩
    rw [h1, h1] at hk
    exact Bool.eq_iff_iff.mpr hk.symm
  · intro h v hv
    obtain ⟨n, hn⟩ := Int.eq_ofNat_of_zero_le (Int.floor_nonneg.mpr hv)
    have e : flagged (sumFlags (some (fs.map (fun f : Nat => (f : Int))))) v = true ↔ flagged (sumFlags (some (fs.map (fun f : Nat => (f : Int))))) (n : ℚ) = true := by
      rw [flagged_iff, flagged_iff]
      unfold HasFlag
      rw [Int.floor_natCast, hn]
    rw [e, hflag, hn, hspec, h]

/-- **C61** is false for lists that name a bit twice: the flags are added up, not combined, so listing 1 twice looks at bit 2 and no longer at bit 1. -/
theorem C61_counterexample : flagged (sumFlags (some [1, 1])) 1 = false ∧ flagged (sumFlags (some [1, 1])) 2 = true ∧
    flagged (sumFlags (some [3, 1])) 1 = false := by decide +kernel

-- flags with several bits each that have none in common, and two that do
example : [3, 4, 24].Pairwise (fun a b => a &&& b = 0) ∧ ¬ [3, 1].Pairwise (fun a b => a &&& b = 0) := by decide
example : flagged (sumFlags (some [1, 4, 16])) 20 = true ∧ flagged (sumFlags (some [1, 4, 16])) 10 = false := by decide +kernel

end Meds.Coadd
