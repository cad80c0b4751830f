import Verif.Spec.Uberseg
import Verif.Props.CompositeMosaic
import Verif.Examples.Composite
import Mathlib.Data.List.Dedup

/-!
# The circular mask and the pure Python uberseg (C29, C30)
-/

namespace Meds
open Spec

namespace MEDS

theorem mem_where {im : Img ℚ} {p : ℚ → Bool} {c d : Nat} : (c, d) ∈ «where» im p ↔ ∃ v, im.get? c d = some v ∧ p v = true := by
  unfold «where»
  rw [List.mem_filter]
  constructor
  · rintro ⟨_, h⟩
    cases hg : im.get? c d with
    | none => rw [hg] at h; cases h
    | some v => rw [hg] at h; exact ⟨v, rfl, h⟩
  · rintro ⟨v, h1, h2⟩
    obtain ⟨ha, hb⟩ := Img.get?_lt h1
    refine ⟨?_, by rw [h1]; exact h2⟩
    rw [List.mem_map]
    refine ⟨c * im.nc + d, List.mem_range.mpr (Img.idx_lt ha hb), ?_⟩
    rw [Prod.mk.injEq]
    constructor
    · rw [Nat.mul_comm, Nat.mul_add_div (by omega), Nat.div_eq_of_lt hb]; omega
    · rw [Nat.mul_comm, Nat.mul_add_mod, Nat.mod_eq_of_lt hb]

theorem where_sorted (im : Img ℚ) (p : ℚ → Bool) : («where» im p).Pairwise (fun x y => Before x.1 x.2 y.1 y.2) := by
  unfold «where»
  apply List.Pairwise.filter
  rw [List.pairwise_map]
  rw [List.pairwise_iff_getElem]
  intro i j hi hj hij
  simp only [List.getElem_range]
  rw [List.length_range] at hi hj
  have hnc : 0 < im.nc := Nat.pos_of_ne_zero (by intro h; rw [h] at hi; simp at hi)
  have h1 := Nat.div_add_mod i im.nc
  have h2 := Nat.div_add_mod j im.nc
  have h3 : i / im.nc ≤ j / im.nc := Nat.div_le_div_right hij.le
  unfold Before
  rcases Nat.lt_or_ge (i / im.nc) (j / im.nc) with h | h
  · exact .inl h
  · have e : i / im.nc = j / im.nc := by omega
    right
    refine ⟨e, ?_⟩
    rw [e] at h1
    omega

theorem Before.trans {a b c d e f : Nat} (h : Before a b c d) (h' : Before c d e f) : Before a b e f := by
  unfold Before at *; omega

/-- `argmin`: the pixel found is in the list, and strictly nearer than, or as near as and before, every other. -/
theorem nearestTo_spec (i j : Nat) (p : Nat × Nat) (ps : List (Nat × Nat)) (hs : (p :: ps).Pairwise (fun x y => Before x.1 x.2 y.1 y.2)) :
    nearestTo i j p ps ∈ p :: ps ∧ ∀ x ∈ p :: ps,
      dist2 i j (nearestTo i j p ps).1 (nearestTo i j p ps).2 < dist2 i j x.1 x.2 ∨
      (dist2 i j (nearestTo i j p ps).1 (nearestTo i j p ps).2 = dist2 i j x.1 x.2 ∧
        (x = nearestTo i j p ps ∨ Before (nearestTo i j p ps).1 (nearestTo i j p ps).2 x.1 x.2)) := by
  induction ps generalizing p with
  | nil =>
    refine ⟨by simp [nearestTo], ?_⟩
    intro x hx
    rw [List.mem_singleton] at hx
    subst hx
    exact .inr ⟨rfl, .inl rfl⟩
  | cons q qs ih =>
    rw [List.pairwise_cons] at hs
    obtain ⟨hp, hq⟩ := hs
    unfold nearestTo
    dsimp only
    by_cases h : ((i : Int) - q.1) ^ 2 + ((j : Int) - q.2) ^ 2 < ((i : Int) - p.1) ^ 2 + ((j : Int) - p.2) ^ 2
    · rw [if_pos h]
      obtain ⟨h1, h2⟩ := ih q hq
      refine ⟨List.mem_cons_of_mem _ h1, ?_⟩
      intro x hx
      rcases List.mem_cons.mp hx with rfl | hx
      · left
        have h' : dist2 i j q.1 q.2 < dist2 i j x.1 x.2 := h
        rcases h2 q (by simp) with g | g
        · exact g.trans h'
        · rw [g.1]; exact h'
      · exact h2 x hx
    · rw [if_neg h]
      have h' : dist2 i j p.1 p.2 ≤ dist2 i j q.1 q.2 := not_lt.mp h
      have hp' : (p :: qs).Pairwise (fun x y => Before x.1 x.2 y.1 y.2) := by
        rw [List.pairwise_cons]
        exact ⟨fun x hx => hp x (by simp [hx]), (List.pairwise_cons.mp hq).2⟩
      obtain ⟨h1, h2⟩ := ih p hp'
      refine ⟨?_, ?_⟩
      · rcases List.mem_cons.mp h1 with g | g
        · rw [g]; simp
        · exact List.mem_cons_of_mem _ (List.mem_cons_of_mem _ g)
      · intro x hx
        rcases List.mem_cons.mp hx with rfl | hx
        · exact h2 x (by simp)
        · rcases List.mem_cons.mp hx with rfl | hx
          · rcases h2 p (by simp) with g | g
            · exact .inl (lt_of_lt_of_le g h')
            · rcases lt_or_eq_of_le h' with k | k
              · left; rw [g.1]; exact k
              · right
                refine ⟨g.1.trans k, .inr ?_⟩
                rcases g.2 with e | e
                · rw [← e]; exact hp x (by simp)
                · exact Before.trans e (hp x (by simp))
          · exact h2 x (by simp [hx])

/-- The decision of the pure Python loop at a pixel. -/
theorem slowZero_spec {seg : Img ℚ} {number : Int} (hex : ∃ c d l, Labelled seg c d l) (a b : Nat) :
    ∃ c d l, FirstNearest seg a b c d l ∧ slowZero seg number («where» seg (fun v => decide (v ≠ 0))) a b = .ok (decide (l ≠ number)) := by
  have hmem : ∀ c d, (c, d) ∈ «where» seg (fun v => decide (v ≠ 0)) ↔ ∃ l, Labelled seg c d l := by
    intro c d
    rw [mem_where]
    simp [Labelled]
  obtain ⟨c0, d0, l0, h0⟩ := hex
  have hs := where_sorted seg (fun v => decide (v ≠ 0))
  cases hw : «where» seg (fun v => decide (v ≠ 0)) with
  | nil =>
    have := (hmem c0 d0).mpr ⟨l0, h0⟩
    rw [hw] at this
    cases this
  | cons p ps =>
    rw [hw] at hs hmem
    obtain ⟨h1, h2⟩ := nearestTo_spec a b p ps hs
    obtain ⟨l, hl⟩ := (hmem (nearestTo a b p ps).1 (nearestTo a b p ps).2).mp h1
    refine ⟨(nearestTo a b p ps).1, (nearestTo a b p ps).2, l, ⟨⟨hl, ?_⟩, ?_⟩, ?_⟩
    · intro c' d' l' h'
      rcases h2 (c', d') ((hmem c' d').mpr ⟨l', h'⟩) with g | g
      · exact g.le
      · exact g.1.le
    · intro c' d' l' h'
      rcases h2 (c', d') ((hmem c' d').mpr ⟨l', h'.1⟩) with g | ⟨_, g | g⟩
      · exact absurd (h'.2 _ _ _ hl) (not_le.mpr g)
      · left
        exact Prod.mk.injEq _ _ _ _ |>.mp g
      · exact .inr g
    · unfold slowZero
      dsimp only
      rw [hl.1]

theorem zeroWhere_get? {z : Img Bool} {w : Img ℚ} {a b : Nat} {v : ℚ} {t : Bool} (hv : w.get? a b = some v) (hz : z.get? a b = some t) :
    (zeroWhere z w).get? a b = some (if t = true then 0 else v) := by
  unfold zeroWhere
  rw [Img.mapPix_get?, hv, Option.map_some, hz]
  cases t <;> rfl

/-- The pure Python loop: a pixel is zeroed exactly when the first nearest labelled pixel is another object's. -/
theorem ubersegSlow_pixels {seg w : Img ℚ} (number : Int) (hw : w.WF) (hr : w.nr = seg.nr) (hc : w.nc = seg.nc) (hex : ∃ c d l, Labelled seg c d l) :
    ∃ u, ubersegSlow seg w number = .ok u ∧ u.nr = w.nr ∧ u.nc = w.nc ∧ u.WF ∧
      ∀ a b v, w.get? a b = some v → ∃ c d l, FirstNearest seg a b c d l ∧ u.get? a b = some (if l = number then v else 0) := by
  obtain ⟨z, hz⟩ := Img.ofFnRes_of_forall (nr := seg.nr) (nc := seg.nc) (f := slowZero seg number («where» seg (fun v => decide (v ≠ 0)))) (by
    intro a b _ _
    obtain ⟨_, _, l, _, h⟩ := slowZero_spec (number := number) hex a b
    exact ⟨_, h⟩)
  obtain ⟨h1, h2, h3, h4⟩ := Img.ofFnRes_ok hz
  refine ⟨zeroWhere z w, ?_, rfl, rfl, Img.mapPix_WF hw _, ?_⟩
  · unfold ubersegSlow
    rw [hz]
    rfl
  · intro a b v hv
    obtain ⟨ha, hb⟩ := Img.get?_lt hv
    obtain ⟨t, ht, hs⟩ := h4 a b (by omega) (by omega)
    obtain ⟨c, d, l, hf, hsz⟩ := slowZero_spec (number := number) hex a b
    rw [hsz] at hs
    injection hs with hs
    refine ⟨c, d, l, hf, ?_⟩
    rw [zeroWhere_get? hv ht, ← hs]
    by_cases hl : l = number <;> simp [hl]

variable {m : MEDS} {i k : Nat} {o : ObjRow} {sc se : Slot}

/-- The composite weight in terms of the interpolated seg map. -/
theorem cweight_by_interpolated {iobj icut : Int} {wt seg s : Img ℚ} {ccen : ℚ × ℚ} {own : ℚ} (restrict : Bool)
    (hw : m.getCutout iobj icut "weight" = .ok wt) (hs : m.getCutout iobj 0 "seg" = .ok seg)
    (hcen : m.getCutoutRowcol iobj 0 = .ok ccen) (hown : seg.pyGet2 (truncZ ccen.1) (truncZ ccen.2) = .ok own)
    (hi : m.interpolateCoaddSeg iobj icut = .ok s) (hcen' : ∃ c, m.getCutoutRowcol iobj icut = .ok c) :
    m.getCweightCutout iobj icut restrict = maskBy restrict own s wt := by
  obtain ⟨o1, p1, p2, p3, p4, p5⟩ := getCutout_shape (by decide) hw
  obtain ⟨o2, q1, q2, q3, q4, q5⟩ := getCutout_shape (by decide) hs
  rw [p1] at q1
  injection q1 with q1
  subst q1
  obtain ⟨cen, hcen'⟩ := hcen'
  unfold interpolateCoaddSeg at hi
  rw [hs] at hi; simp only [Res.ok_bind] at hi
  unfold getCweightCutout
  rw [hw]; simp only [Res.ok_bind]
  rw [hs]; simp only [Res.ok_bind]
  unfold makeComposite
  rw [hcen]; simp only [Res.ok_bind]
  rw [hcen'] at hi ⊢; simp only [Res.ok_bind]
  rw [hown]; simp only [Res.ok_bind]
  split at hi
  · rename_i hk
    rw [if_pos hk]
    injection hi with hi
    rw [hi]
  · rename_i hk
    rw [if_neg hk]
    obtain ⟨j, hj, hi⟩ := Res.bind_eq_ok.mp hi
    simp only [Res.ok_bind] at hi
    rw [hj]; simp only [Res.ok_bind]
    unfold interpolateImage at hi
    rw [hs] at hi; simp only [Res.ok_bind] at hi
    obtain ⟨cj, hcj, hi⟩ := Res.bind_eq_ok.mp hi
    rw [hcen] at hi; simp only [Res.ok_bind] at hi
    obtain ⟨cji, hcji, hi⟩ := Res.bind_eq_ok.mp hi
    rw [hcj]; simp only [Res.ok_bind]
    rw [hcji]
    dsimp only
    simp only [Option.getD_some] at hi
    rw [show wt.nr = seg.nr by omega, show wt.nc = seg.nc by omega, hi]
    rfl

/-- What a successful composite weight and interpolated seg map imply about shapes. -/
theorem uberseg_shapes {iobj icut : Int} {cim s : Img ℚ} {r : Bool} (hcw : m.getCweightCutout iobj icut r = .ok cim) (hi : m.interpolateCoaddSeg iobj icut = .ok s) :
    cim.nr = s.nr ∧ cim.nc = s.nc ∧ cim.WF ∧ s.WF := by
  unfold getCweightCutout at hcw
  obtain ⟨wt, hw, hcw⟩ := Res.bind_eq_ok.mp hcw
  obtain ⟨seg, hs, hcw⟩ := Res.bind_eq_ok.mp hcw
  obtain ⟨o1, p1, p2, p3, p4, p5⟩ := getCutout_shape (by decide) hw
  obtain ⟨o2, q1, q2, q3, q4, q5⟩ := getCutout_shape (by decide) hs
  rw [p1] at q1
  injection q1 with q1
  subst q1
  obtain ⟨a1, a2, a3⟩ := makeComposite_shape hcw
  unfold interpolateCoaddSeg at hi
  rw [hs] at hi; simp only [Res.ok_bind] at hi
  split at hi
  · injection hi with hi
    subst hi
    exact ⟨by omega, by omega, a3 p5, q5⟩
  · obtain ⟨_, _, hi⟩ := Res.bind_eq_ok.mp hi
    obtain ⟨_, _, hi⟩ := Res.bind_eq_ok.mp hi
    obtain ⟨b1, b2, b3⟩ := interpolateImage_shape hs hi
    exact ⟨by omega, by omega, a3 p5, b3⟩

/-- **C30 (partial)** `get_uberseg(..., fast=False)` for an interpolated seg map with at least one labelled pixel that does not have exactly two distinct values:
a pixel keeps its composite weight if the nearest labelled pixel (the first in row-major order on ties) is the object's own, and is zero if not.
Missing: maps with exactly two distinct values, where the code returns the composite weight at once (`C30_two_values_early_return`, `C30_two_values_own_label`, `C30_counterexample`). -/
theorem C30_slow_rule_partial (hr : m.cat.rows[i]? = some o) (hnum : m.cat.dtype.hasNumber = true) {cim s : Img ℚ}
    (hcw : m.getCweightCutout i k false = .ok cim) (hi : m.interpolateCoaddSeg i k = .ok s) (hex : ∃ c d l, Labelled s c d l) (h2 : nUnique s ≠ 2) :
    ∃ u, m.getUbersegSlow i k = .ok u ∧ u.nr = cim.nr ∧ u.nc = cim.nc ∧ u.WF ∧
      ∀ a b w, cim.get? a b = some w → ∃ c d l, FirstNearest s a b c d l ∧ u.get? a b = some (if l = o.number then w else 0) := by
  obtain ⟨e1, e2, e3, _⟩ := uberseg_shapes hcw hi
  obtain ⟨u, hu⟩ := ubersegSlow_pixels o.number e3 e1 e2 hex
  refine ⟨u, ?_, hu.2⟩
  unfold getUbersegSlow getUbersegWith
  rw [hcw]; simp only [Res.ok_bind]
  rw [hi]; simp only [Res.ok_bind]
  rw [if_neg h2]
  unfold numberColumn
  rw [if_pos hnum, show m.row (i : Int) = .ok o from pyGet_nat_some hr]
  simp only [Res.ok_bind]
  exact hu.1

/-- **C30** With exactly two distinct values in the seg map the composite weight is returned as it is. -/
theorem C30_two_values_early_return {iobj icut : Int} {cim s : Img ℚ} (hcw : m.getCweightCutout iobj icut false = .ok cim)
    (hi : m.interpolateCoaddSeg iobj icut = .ok s) (h2 : nUnique s = 2) : m.getUbersegSlow iobj icut = .ok cim := by
  unfold getUbersegSlow getUbersegWith
  rw [hcw]; simp only [Res.ok_bind]
  rw [hi]; simp only [Res.ok_bind]
  rw [if_pos h2]

/-- **C30** A seg map without labelled pixels: the pure Python version raises (`argmin` of an empty array). -/
theorem C30_all_sky_raises (hr : m.cat.rows[i]? = some o) (hnum : m.cat.dtype.hasNumber = true) {cim s : Img ℚ}
    (hcw : m.getCweightCutout i k false = .ok cim) (hi : m.interpolateCoaddSeg i k = .ok s) (hex : ¬ ∃ c d l, Labelled s c d l) (hne : s.flat ≠ []) :
    m.getUbersegSlow i k = .error .valueError := by
  obtain ⟨e1, e2, e3, e4⟩ := uberseg_shapes hcw hi
  have hz : ∀ v ∈ s.flat, v = 0 := by
    intro v hv
    obtain ⟨c, d, h⟩ := Img.flat_mem_get? e4 hv
    by_contra hv0
    exact hex ⟨c, d, v, h, hv0⟩
  have h1 : nUnique s ≠ 2 := by
    unfold nUnique
    intro h
    match hd : s.flat.dedup, h with
    | [x, y], _ =>
      have hn := List.nodup_dedup s.flat
      rw [hd] at hn
      have hx := hz x (List.mem_dedup.mp (by rw [hd]; simp))
      have hy := hz y (List.mem_dedup.mp (by rw [hd]; simp))
      rw [hx, hy] at hn
      simp at hn
  have hw : «where» s (fun v => decide (v ≠ 0)) = [] := by
    rw [List.eq_nil_iff_forall_not_mem]
    rintro ⟨c, d⟩ h
    obtain ⟨v, hv, hp⟩ := mem_where.mp h
    exact hex ⟨c, d, v, hv, of_decide_eq_true hp⟩
  unfold getUbersegSlow getUbersegWith
  rw [hcw]; simp only [Res.ok_bind]
  rw [hi]; simp only [Res.ok_bind]
  rw [if_neg h1]
  unfold numberColumn
  rw [if_pos hnum, show m.row (i : Int) = .ok o from pyGet_nat_some hr]
  simp only [Res.ok_bind]
  unfold ubersegSlow Img.ofFnRes
  have hpos : 0 < s.nr * s.nc := by
    rw [← show s.flat.length = s.nr * s.nc from e4]
    exact List.length_pos_iff.mpr hne
  obtain ⟨n, hn⟩ : ∃ n, s.nr * s.nc = n + 1 := ⟨s.nr * s.nc - 1, by omega⟩
  rw [hw, hn, List.range_succ_eq_map, mapRes.eq_2]
  rfl

/-- **C30** Two distinct values, one of them the object's number, which is also the label of the centre pixel: the early return follows the rule too. -/
theorem C30_two_values_own_label (hr : m.cat.rows[i]? = some o) (hsc : o.slots[0]? = some sc) (hse : o.slots[k]? = some se)
    {wt seg cim s : Img ℚ} (hw : m.getCutout i k "weight" = .ok wt) (hs : m.getCutout i 0 "seg" = .ok seg)
    (hc0 : 0 ≤ sc.cutoutRow) (hc1 : 0 ≤ sc.cutoutCol) (hown : seg.get? ⌊sc.cutoutRow⌋.toNat ⌊sc.cutoutCol⌋.toNat = some (o.number : ℚ)) (hn0 : o.number ≠ 0)
    (hcw : m.getCweightCutout i k false = .ok cim) (hi : m.interpolateCoaddSeg i k = .ok s) (h2 : nUnique s = 2) (hin : (o.number : ℚ) ∈ s.flat) :
    ∃ u, m.getUbersegSlow i k = .ok u ∧ u.nr = cim.nr ∧ u.nc = cim.nc ∧ u.WF ∧
      ∀ a b w, cim.get? a b = some w → ∃ c d l, FirstNearest s a b c d l ∧ u.get? a b = some (if l = o.number then w else 0) := by
  obtain ⟨e1, e2, e3, e4⟩ := uberseg_shapes hcw hi
  refine ⟨cim, C30_two_values_early_return hcw hi h2, rfl, rfl, e3, ?_⟩
  have hn0' : (o.number : ℚ) ≠ 0 := by exact_mod_cast hn0
  obtain ⟨x, hx⟩ : ∃ x, ∀ v ∈ s.flat, v = o.number ∨ v = x := by
    unfold nUnique at h2
    match hd : s.flat.dedup, h2 with
    | [x, y], _ =>
      have hmem : ∀ v ∈ s.flat, v = x ∨ v = y := by
        intro v hv
        have := List.mem_dedup.mpr hv
        rw [hd] at this
        simpa using this
      rcases hmem _ hin with h | h
      · exact ⟨y, fun v hv => by rw [h]; exact hmem v hv⟩
      · exact ⟨x, fun v hv => by rw [h]; exact (hmem v hv).symm⟩
  have e0 : m.getCutoutRowcol i 0 = .ok (sc.cutoutRow, sc.cutoutCol) := by
    unfold getCutoutRowcol; rw [show m.slot (i : Int) 0 = .ok sc from slot_nat (k := 0) hr hsc]; rfl
  have e1' : m.getCutoutRowcol i k = .ok (se.cutoutRow, se.cutoutCol) := by
    unfold getCutoutRowcol; rw [slot_nat hr hse]; rfl
  have hp : seg.pyGet2 (truncZ sc.cutoutRow) (truncZ sc.cutoutCol) = .ok (o.number : ℚ) := by
    have := Img.pyGet2_nat hown
    rw [Int.toNat_of_nonneg (Int.floor_nonneg.mpr hc0), Int.toNat_of_nonneg (Int.floor_nonneg.mpr hc1)] at this
    unfold truncZ
    rw [if_pos hc0, if_pos hc1]
    exact this
  have hby := cweight_by_interpolated false hw hs e0 hp hi ⟨_, e1'⟩
  rw [hcw] at hby
  obtain ⟨_, _, _, _, _, p5⟩ := getCutout_shape (by decide) hw
  obtain ⟨y1, y2, _⟩ := maskBy_shape hby.symm
  obtain ⟨cim', m1, _, _, _, m5⟩ := maskBy_ok (r := false) (own := (o.number : ℚ)) (labels := s) p5 (by omega) (by omega)
  rw [← hby] at m1
  injection m1 with m1
  subst m1
  have hself : ∀ a b v, s.get? a b = some v → v ≠ 0 → FirstNearest s a b a b v := by
    intro a b v hv hv0
    have hd0 : dist2 a b a b = 0 := by unfold dist2; simp
    refine ⟨⟨⟨hv, hv0⟩, ?_⟩, ?_⟩
    · intro c' d' l' _
      rw [hd0]
      unfold dist2
      positivity
    · intro c' d' l' h'
      left
      have := h'.2 a b v ⟨hv, hv0⟩
      rw [hd0] at this
      unfold dist2 at this
      have q1 : ((a : Int) - c') ^ 2 = 0 := by nlinarith [sq_nonneg ((a : Int) - c'), sq_nonneg ((b : Int) - d')]
      have q2 : ((b : Int) - d') ^ 2 = 0 := by nlinarith [sq_nonneg ((a : Int) - c'), sq_nonneg ((b : Int) - d')]
      have r1 := pow_eq_zero_iff (by norm_num) |>.mp q1
      have r2 := pow_eq_zero_iff (by norm_num) |>.mp q2
      omega
  intro a b w hab
  obtain ⟨ha, hb⟩ := Img.get?_lt hab
  obtain ⟨l, hl⟩ := Img.get?_some_of_WF e4 (i := a) (j := b) (by omega) (by omega)
  obtain ⟨v, hv⟩ := Img.get?_some_of_WF p5 (i := a) (j := b) (by omega) (by omega)
  have hm := m5 a b v l hv hl
  rw [hab] at hm
  injection hm with hm
  by_cases hl1 : l = o.number
  · refine ⟨a, b, l, hself a b l hl (by rw [hl1]; exact hn0'), ?_⟩
    rw [if_pos hl1, hab]
  · rcases hx l (Img.get?_mem_flat hl) with h | h
    · exact absurd h hl1
    · by_cases hl0 : l = 0
      · obtain ⟨c, d, hcd⟩ := Img.flat_mem_get? e4 hin
        obtain ⟨c', d', l', hf, _⟩ := slowZero_spec (number := o.number) ⟨c, d, _, hcd, hn0'⟩ a b
        refine ⟨c', d', l', hf, ?_⟩
        have : l' = o.number := by
          rcases hx l' (Img.get?_mem_flat hf.1.1.1) with g | g
          · exact g
          · exact absurd (by rw [g, ← h, hl0]) hf.1.1.2
        rw [if_pos this, hab]
      · refine ⟨a, b, l, hself a b l hl hl0, ?_⟩
        rw [if_neg hl1, hab, hm, if_pos ⟨hl1, .inr hl0⟩]

theorem minList_spec (x : ℚ) (l : List ℚ) : minList x l ∈ x :: l ∧ ∀ y ∈ x :: l, minList x l ≤ y := by
  unfold minList
  induction l generalizing x with
  | nil => simp
  | cons a t ih =>
    rw [List.foldl_cons]
    obtain ⟨h1, h2⟩ := ih (min x a)
    constructor
    · rcases List.mem_cons.mp h1 with h | h
      · rw [h]
        rcases min_choice x a with g | g <;> rw [g] <;> simp
      · simp [h]
    · intro y hy
      rcases List.mem_cons.mp hy with rfl | hy
      · exact (h2 (min y a) (by simp)).trans (min_le_left _ _)
      · rcases List.mem_cons.mp hy with rfl | hy
        · exact (h2 (min x y) (by simp)).trans (min_le_right _ _)
        · exact h2 y (by simp [hy])

/-- **C29** `get_cseg_weight`: the weight is kept at the pixels strictly closer to the centre than every pixel of another object, and zero elsewhere;
without pixels of other objects it is the plain weight.  The centre is the recorded position, or with `use_canonical_cen` the middle of the stamp. -/
theorem C29_circular_mask (hr : m.cat.rows[i]? = some o) (hnum : m.cat.dtype.hasNumber = true) (hse : o.slots[k]? = some se) (canonical : Bool)
    {wt seg : Img ℚ} (hw : m.getCutout i k "weight" = .ok wt) (hs : m.getCutout i k "seg" = .ok seg) {cen : ℚ × ℚ}
    (hcen : cen = if canonical then (((o.boxSize : ℚ) - 1) / 2, ((o.boxSize : ℚ) - 1) / 2) else (se.cutoutRow, se.cutoutCol)) :
    ∃ u, m.getCsegWeight i k canonical = .ok u ∧ u.nr = wt.nr ∧ u.nc = wt.nc ∧
      ((∀ c d l, Labelled seg c d l → l = o.number) → u = wt) ∧
      ∀ a b w, wt.get? a b = some w →
        ((∀ c d l, Labelled seg c d l → l ≠ o.number → centreDist2 cen a b < centreDist2 cen c d) → u.get? a b = some w) ∧
        (∀ c d l, Labelled seg c d l → l ≠ o.number → centreDist2 cen c d ≤ centreDist2 cen a b → u.get? a b = some 0) := by
  have hmem : ∀ c d, (c, d) ∈ «where» seg (fun v => decide (v ≠ 0) && decide (v ≠ (o.number : ℚ))) ↔ ∃ l, Labelled seg c d l ∧ l ≠ o.number := by
    intro c d
    rw [mem_where]
    simp [Labelled, and_assoc]
  unfold getCsegWeight
  rw [hs]; simp only [Res.ok_bind]
  rw [hw]; simp only [Res.ok_bind]
  unfold numberColumn
  rw [if_pos hnum, show m.row (i : Int) = .ok o from pyGet_nat_some hr]
  simp only [Res.ok_bind]
  cases hl : «where» seg (fun v => decide (v ≠ 0) && decide (v ≠ (o.number : ℚ))) with
  | nil =>
    refine ⟨wt, rfl, rfl, rfl, fun _ => rfl, ?_⟩
    intro a b w hab
    refine ⟨fun _ => hab, ?_⟩
    intro c d l h1 h2 _
    have := (hmem c d).mpr ⟨l, h1, h2⟩
    rw [hl] at this
    cases this
  | cons x xs =>
    have hc : m.csegCentre i k canonical wt = .ok cen := by
      unfold csegCentre
      cases canonical with
      | true =>
        rw [if_pos rfl, hcen, if_pos rfl]
        obtain ⟨o1, p1, p2, p3, p4, p5⟩ := getCutout_shape (by decide) hw
        rw [show m.row (i : Int) = .ok o from pyGet_nat_some hr] at p1
        injection p1 with p1
        subst p1
        have eb : ((o.boxSize.toNat : Nat) : ℚ) = (o.boxSize : ℚ) := by
          have : ((o.boxSize.toNat : Nat) : Int) = o.boxSize := Int.toNat_of_nonneg p2.le
          exact_mod_cast congrArg (Int.cast : Int → ℚ) this
        rw [p3, p4, eb]
      | false =>
        rw [if_neg (by decide), hcen, if_neg (by decide)]
        unfold getCutoutRowcol
        rw [slot_nat hr hse]
        rfl
    dsimp only
    rw [hc]; simp only [Res.ok_bind]
    obtain ⟨m1, m2⟩ := minList_spec (r2 cen x.1 x.2) (xs.map (fun x => r2 cen x.1 x.2))
    rw [← List.map_cons (f := fun x : Nat × Nat => r2 cen x.1 x.2)] at m1 m2
    refine ⟨_, rfl, rfl, rfl, ?_, ?_⟩
    · intro hall
      have hx := (hmem x.1 x.2).mp (by rw [hl]; simp)
      obtain ⟨l, h1, h2⟩ := hx
      exact absurd (hall _ _ _ h1) h2
    · intro a b w hab
      constructor
      · intro hall
        rw [Img.mapPix_get?, hab, Option.map_some]
        rw [if_pos]
        obtain ⟨y, hy, hy2⟩ := List.mem_map.mp m1
        rw [← hy2]
        obtain ⟨l, h1, h2⟩ := (hmem y.1 y.2).mp (by rw [hl]; exact hy)
        exact hall _ _ _ h1 h2
      · intro c d l h1 h2 hle
        rw [Img.mapPix_get?, hab, Option.map_some]
        rw [if_neg]
        rw [not_lt]
        have := (hmem c d).mpr ⟨l, h1, h2⟩
        rw [hl] at this
        exact (m2 _ (List.mem_map.mpr ⟨(c, d), this, rfl⟩)).trans hle

/-! ### Concrete cases -/

example : Ex.segMed.getCutout 0 0 "seg" = .ok ⟨4, 4, [11, 11, 12, 12, 11, 11, 12, 12, 0, 0, 0, 0, 0, 0, 0, 0]⟩ ∧
    Ex.segMed.getCutout 0 1 "weight" = .ok ⟨4, 4, [4, 0, 0, 4, 0, 0, 4, 4, 0, 4, 4, 0, 4, 4, 0, 0]⟩ ∧
    Ex.segMed.getCweightCutout 0 1 false = .ok ⟨4, 4, [4, 0, 0, 0, 0, 0, 0, 0, 0, 4, 4, 0, 4, 4, 0, 0]⟩ ∧
    Ex.segMed.getCweightCutout 0 1 true = .ok ⟨4, 4, [4, 0, 0, 0, 0, 0, 0, 0, 0, 0, 0, 0, 0, 0, 0, 0]⟩ ∧
    Ex.segMed.interpolateCoaddSeg 0 1 = .ok ⟨4, 4, [11, 11, 12, 12, 11, 11, 12, 12, 0, 0, 0, 0, 0, 0, 0, 0]⟩ := by decide +kernel

-- the hypotheses of C25, C26, C28: object 0 and its two epochs, with an invertible jacobian and a centre pixel labelled 11
example : (match Ex.segMed.cat.rows[0]? with
    | some o => (match o.slots[0]?, o.slots[1]? with
      | some sc, some se => decide (det sc ≠ 0 ∧ sc.cutoutRow = 1 ∧ sc.cutoutCol = 1 ∧ se.cutoutCol = 3 / 2 ∧ o.number = 11 ∧ o.ncutout = 2 ∧
          sc.startRow = 0 ∧ se.startRow = sc.startRow + o.boxSize ^ 2)
      | _, _ => false)
    | none => false) = true := by decide +kernel

example : Ex.segMed.getCsegWeight 0 0 false = .ok ⟨4, 4, [0, 0, 0, 0, 0, 4, 0, 0, 0, 0, 0, 0, 0, 0, 0, 0]⟩ ∧
    Ex.segMed.getUbersegSlow 0 1 = .ok ⟨4, 4, [4, 0, 0, 0, 0, 0, 0, 0, 0, 4, 0, 0, 4, 4, 0, 0]⟩ ∧
    Ex.segMed.cat.dtype.hasNumber = true := by decide +kernel

example : Ex.segMed.getCweightMosaic 0 false = .ok ⟨8, 4, [0, 0, 0, 0, 0, 4, 0, 0, 4, 4, 0, 0, 4, 0, 0, 4, 4, 0, 0, 0, 0, 0, 0, 0, 0, 4, 4, 0, 4, 4, 0, 0]⟩ := by
  decide +kernel

/-- `get_uberseg_list` with either loop: the list has one map for each cutout, in order, and these are the maps of `get_uberseg`; and there is a list whenever `get_uberseg` returns for all
of the cutouts. -/
theorem C30_list {loop : Img ℚ → Img ℚ → Int → Res (Img ℚ)} {i : Nat} {o : ObjRow} (hr : m.cat.rows[i]? = some o) (l : List (Img ℚ)) :
    m.getUbersegListWith loop i = .ok l ↔
      l.length = o.ncutout.toNat ∧ ∀ (k : Nat) (u : Img ℚ), l[k]? = some u → m.getUbersegWith loop i k = .ok u := by
  unfold getUbersegListWith
  have h1 : m.row (i : Int) = .ok o := by
    unfold row
    exact pyGet_nat_some hr
  rw [h1, Res.ok_bind, mapRes_ok_iff, List.forall₂_iff_get]
  constructor
  · rintro ⟨hl, h⟩
    refine ⟨by simpa using hl.symm, fun k u hu => ?_⟩
    obtain ⟨hk, rfl⟩ := List.getElem?_eq_some_iff.mp hu
    have := h k (by omega) hk
    simpa using this
  · rintro ⟨hl, h⟩
    refine ⟨by simp [hl], fun k h2 h3 => ?_⟩
    simpa using h k l[k] (List.getElem?_eq_getElem h3)

example : (match Ex.segMed.getUbersegListWith ubersegSlow 0 with
    | .ok l => l.map (fun u => u.flat)
    | .error _ => []) = [[0, 0, 0, 0, 0, 4, 0, 0, 4, 4, 0, 0, 4, 0, 0, 0], [4, 0, 0, 0, 0, 0, 0, 0, 0, 4, 0, 0, 4, 4, 0, 0]] := by decide +kernel

/-- **C26** is false as documented: the sky pixel (2, 0) of the coadd cutout, which is outside the object's segment, has the object's number. -/
theorem C26_counterexample : ∃ seg cseg : Img ℚ, Ex.segMed.getCutout 0 0 "seg" = .ok seg ∧ Ex.segMed.getCsegCutout 0 0 = .ok cseg ∧
    Ex.segMed.getNumber 0 = .ok 11 ∧ seg.get? 2 0 = some 0 ∧ cseg.get? 2 0 = some 11 :=
  ⟨⟨4, 4, [11, 11, 12, 12, 11, 11, 12, 12, 0, 0, 0, 0, 0, 0, 0, 0]⟩, ⟨4, 4, [11, 11, 0, 0, 11, 11, 0, 0, 11, 11, 11, 11, 11, 11, 11, 11]⟩, by decide +kernel⟩

/-- **C30** is false with exactly two values in the seg map: here the only labelled pixel is another object's, so every pixel should be zero,
but the composite weight of the sky pixels is returned. -/
theorem C30_counterexample : ∃ s u : Img ℚ, Ex.skyMed.interpolateCoaddSeg 0 0 = .ok s ∧ Ex.skyMed.getUbersegSlow 0 0 = .ok u ∧
    (∀ o, Ex.skyMed.cat.rows[0]? = some o → o.number = 11) ∧ Labelled s 0 0 5 ∧ (∀ c d l, Labelled s c d l → l = 5) ∧ u.get? 1 1 = some 4 := by
  refine ⟨⟨4, 4, [5, 0, 0, 0, 0, 0, 0, 0, 0, 0, 0, 0, 0, 0, 0, 0]⟩, ⟨4, 4, [0, 0, 4, 4, 0, 4, 4, 0, 4, 4, 0, 0, 4, 0, 0, 4]⟩, by decide +kernel, by decide +kernel, ?_, ?_, ?_, by decide +kernel⟩
  · have h : (Ex.skyMed.cat.rows[0]?).map (·.number) = some 11 := by decide +kernel
    intro o ho
    rw [ho] at h
    simpa using h
  · exact ⟨by decide +kernel, by decide⟩
  · rintro c d l ⟨h, h0⟩
    have := Img.get?_mem_flat h
    simp only [List.mem_cons, List.not_mem_nil, or_false] at this
    tauto

end MEDS
end Meds
