import Verif.Spec.CoaddPixels
import Verif.Props.Reject
import Mathlib.Tactic.Ring

/-! Outlier rejection on numbers with any square root function, pixel by pixel. -/

namespace Meds.RejectQ
open Spec Reject

/-- There is only one median. -/
theorem isMedian_unique {l l' : List ℚ} (hl : l.Perm l') {m m' : ℚ} (h : IsMedian l m) (h' : IsMedian l' m') : m = m' := by
  obtain ⟨s, p, q, x, y, hx, hy, rfl⟩ := h
  obtain ⟨s', p', q', x', y', hx', hy', rfl⟩ := h'
  have : s = s' := List.Perm.eq_of_pairwise' q q' (p.trans (hl.trans p'.symm))
  subst this
  rw [← hl.length_eq] at hx' hy'
  rw [hx] at hx'
  rw [hy] at hy'
  injection hx' with e1
  injection hy' with e2
  rw [e1, e2]

theorem isMedian_perm {l l' : List ℚ} (hl : l.Perm l') {m : ℚ} (h : IsMedian l m) : IsMedian l' m := by
  obtain ⟨s, p, q, x, y, hx, hy, e⟩ := h
  rw [hl.length_eq] at hx hy
  exact ⟨s, p.trans hl, q, x, y, hx, hy, e⟩

/-- The test the code makes. -/
theorem testQ_iff {rt : ℚ → ℚ} {nsigma A m x w : ℚ} :
    (|m| * A * rt (max w 0) + nsigma) * (|m| * A * rt (max w 0) + nsigma) < (x - m) * (x - m) * max w 0 ↔ OutlierQ rt nsigma A m x w := by
  unfold OutlierQ
  by_cases hw : 0 < w
  · rw [max_eq_left hw.le]
    have e1 : (nsigma + A * |m| * rt w) ^ 2 = (|m| * A * rt w + nsigma) * (|m| * A * rt w + nsigma) := by ring
    have e2 : w * (x - m) ^ 2 = (x - m) * (x - m) * w := by ring
    rw [e1, e2]
    exact ⟨fun h => ⟨hw, h⟩, fun h => h.2⟩
  · rw [max_eq_right (not_lt.mp hw), mul_zero]
    exact iff_of_false (not_lt.mpr (mul_self_nonneg _)) (fun h => hw h.1)

/-- What one turn of the loop leaves in a weight array. -/
def newWt (rt : ℚ → ℚ) (nsigma A : ℚ) (med : Img ℚ) (p : Img ℚ × Img ℚ) : Img ℚ :=
  Img.zipWith (fun bad v => if bad then 0 else v) (outlier rt nsigma A med p.1 (p.2.map (max · 0))) (p.2.map (max · 0))

def newCount (rt : ℚ → ℚ) (nsigma A : ℚ) (med : Img ℚ) (p : Img ℚ × Img ℚ) : Nat :=
  (outlier rt nsigma A med p.1 (p.2.map (max · 0))).flat.count true

theorem outlier_get {rt : ℚ → ℚ} {nsigma A : ℚ} {med im wt : Img ℚ} (h1 : med.nr = im.nr) (h2 : med.nc = im.nc) (h3 : wt.nr = im.nr) (h4 : wt.nc = im.nc)
    {i j : Nat} {m x w : ℚ} (hm : med.get? i j = some m) (hx : im.get? i j = some x) (hw : wt.get? i j = some w) :
    (outlier rt nsigma A med im wt).get? i j =
      some (decide ((|m| * A * rt w + nsigma) * (|m| * A * rt w + nsigma) < (x - m) * (x - m) * w)) := by
  unfold outlier
  simp only
  have a1 := Img.zipWith_get? h1.symm h2.symm (fun a b : ℚ => a - b) i j hx hm
  have a2 := Img.zipWith_get? rfl rfl (fun a b : ℚ => a * b) i j a1 a1
  have a3 := Img.zipWith_get? (a := Img.zipWith (fun a b : ℚ => a * b) (Img.zipWith (fun a b : ℚ => a - b) im med) (Img.zipWith (fun a b : ℚ => a - b) im med))
    h3.symm h4.symm (fun a b : ℚ => a * b) i j a2 hw
  have b1 : ((med.map (fun m => |m|)).map (· * A)).get? i j = some (|m| * A) := by rw [Img.map_get?, Img.map_get?, hm]; rfl
  have b2 : (wt.map rt).get? i j = some (rt w) := by rw [Img.map_get?, hw]; rfl
  have b3 := Img.zipWith_get? (a := (med.map (fun m => |m|)).map (· * A)) (b := wt.map rt) (h1.trans h3.symm) (h2.trans h4.symm) (fun a b : ℚ => a * b) i j b1 b2
  have b4 : ((Img.zipWith (fun a b : ℚ => a * b) ((med.map (fun m => |m|)).map (· * A)) (wt.map rt)).map (· + nsigma)).get? i j =
      some (|m| * A * rt w + nsigma) := by rw [Img.map_get?, b3]; rfl
  have b5 := Img.zipWith_get? rfl rfl (fun a b : ℚ => a * b) i j b4 b4
  exact Img.zipWith_get? (by simpa [Img.zipWith, Img.map] using h1.symm) (by simpa [Img.zipWith, Img.map] using h2.symm) (fun c m : ℚ => decide (m < c)) i j a3 b5

theorem outlier_shape (rt : ℚ → ℚ) (nsigma A : ℚ) (med im wt : Img ℚ) :
    (outlier rt nsigma A med im wt).nr = im.nr ∧ (outlier rt nsigma A med im wt).nc = im.nc := ⟨rfl, rfl⟩

theorem outlier_WF {rt : ℚ → ℚ} {nsigma A : ℚ} {med im wt : Img ℚ} (h1 : med.nr = im.nr) (h2 : med.nc = im.nc) (h3 : wt.nr = im.nr) (h4 : wt.nc = im.nc)
    (hm : med.WF) (hi : im.WF) (hw : wt.WF) : (outlier rt nsigma A med im wt).WF := by
  have e1 : med.flat.length = im.nr * im.nc := by rw [hm, h1, h2]
  have e2 : wt.flat.length = im.nr * im.nc := by rw [hw, h3, h4]
  have e3 : im.flat.length = im.nr * im.nc := hi
  simp [Img.WF, outlier, Img.zipWith, Img.map, e1, e2, e3]

/-- The median image. -/
def medOf (ps : List (Img ℚ × Img ℚ)) (nr nc : Nat) : Img ℚ := medianImage (nr, nc) (ps.map (·.1))

/-- A stack of images and weights of one shape. -/
def Stack (ps : List (Img ℚ × Img ℚ)) (nr nc : Nat) : Prop :=
  ∀ p ∈ ps, p.1.WF ∧ p.2.WF ∧ p.1.nr = nr ∧ p.1.nc = nc ∧ p.2.nr = nr ∧ p.2.nc = nc

theorem loop {rt : ℚ → ℚ} {nsigma A : ℚ} {ps : List (Img ℚ × Img ℚ)} {nr nc : Nat} (hs : Stack ps nr nc) (med : Img ℚ) :
    ∀ j ≤ ps.length, foldRes (step rt nsigma A med) ⟨ps.map (·.1), ps.map (·.2), 0⟩ (List.range j) =
      .ok ⟨ps.map (·.1), (ps.take j).map (newWt rt nsigma A med) ++ (ps.drop j).map (·.2), ((ps.take j).map (newCount rt nsigma A med)).sum⟩ := by
  intro j
  induction j with
  | zero => intro _; simp [foldRes]
  | succ j ih =>
    intro hj
    have hj' : j < ps.length := by omega
    rw [List.range_succ, foldRes_append, ih (by omega)]
    simp only [Res.ok_bind, foldRes]
    have hp : ps[j]? = some ps[j] := List.getElem?_eq_getElem hj'
    obtain ⟨_, _, q1, q2, q3, q4⟩ := hs ps[j] (List.getElem_mem hj')
    have hd : ps.drop j = ps[j] :: ps.drop (j + 1) := List.drop_eq_getElem_cons hj'
    have ht : ps.take (j + 1) = ps.take j ++ [ps[j]] := List.take_succ_eq_append_getElem hj'
    have hlen : ((ps.take j).map (newWt rt nsigma A med)).length = j := by simp; omega
    have g1 : pyGet (ps.map (·.1)) (j : Int) = .ok ps[j].1 := pyGet_nat_some (by rw [List.getElem?_map, hp]; rfl)
    have g2 : pyGet ((ps.take j).map (newWt rt nsigma A med) ++ (ps.drop j).map (·.2)) (j : Int) = .ok ps[j].2 := by
      apply pyGet_nat_some
      rw [List.getElem?_append_right (by omega), hlen, hd, Nat.sub_self, List.map_cons]
      rfl
    unfold step
    simp only [g1, g2, Res.ok_bind]
    rw [if_neg (by simp [Img.map, q1, q2, q3, q4])]
    simp only [Except.ok.injEq, Rejected.mk.injEq, true_and]
    constructor
    · rw [List.set_append_right _ _ (by omega), hlen, hd, ht, Nat.sub_self, List.map_cons, List.set_cons_zero, List.map_append, List.append_assoc]
      rfl
    · rw [ht, List.map_append, List.sum_append]
      rfl

theorem run {rt : ℚ → ℚ} {nsigma A : ℚ} {ps : List (Img ℚ × Img ℚ)} {nr nc : Nat} (hs : Stack ps nr nc) (h3 : 3 ≤ ps.length) :
    rejectOutliers rt nsigma A (ps.map (·.1)) (ps.map (·.2)) =
      .ok ⟨ps.map (·.1), ps.map (newWt rt nsigma A (medOf ps nr nc)), (ps.map (newCount rt nsigma A (medOf ps nr nc))).sum⟩ := by
  unfold rejectOutliers
  rw [if_neg (by simp; omega)]
  cases ps with
  | nil => simp at h3
  | cons p t =>
    simp only [List.map_cons]
    obtain ⟨_, _, q1, q2, q3, q4⟩ := hs p (by simp)
    rw [if_neg]
    · have := loop (rt := rt) (nsigma := nsigma) (A := A) hs (medOf (p :: t) nr nc) (p :: t).length (le_refl _)
      rw [q1, q2]
      simp only [List.take_length, List.drop_length, List.map_nil, List.append_nil] at this
      simpa [medOf] using this
    · rw [List.any_eq_true]
      rintro ⟨im, him, hd⟩
      rw [← List.map_cons (f := fun q : Img ℚ × Img ℚ => q.1), List.mem_map] at him
      obtain ⟨b, hb, rfl⟩ := him
      obtain ⟨_, _, r1, r2, _⟩ := hs b hb
      exact (of_decide_eq_true hd) ⟨by rw [r1, q1], by rw [r2, q2]⟩

theorem filterMap_get {ps : List (Img ℚ × Img ℚ)} {nr nc : Nat} (hs : Stack ps nr nc) {a b : Nat} (ha : a < nr) (hb : b < nc) :
    (ps.filterMap (fun p => p.1.get? a b)).length = ps.length := by
  induction ps with
  | nil => rfl
  | cons p t ih =>
    obtain ⟨q0, _, q1, q2, _⟩ := hs p (by simp)
    obtain ⟨v, hv⟩ := Img.get?_some_of_WF q0 (i := a) (j := b) (by omega) (by omega)
    rw [List.filterMap_cons, hv]
    simp only [List.length_cons]
    rw [ih (fun x hx => hs x (by simp [hx]))]

open Classical in
theorem newWt_get {rt : ℚ → ℚ} {nsigma A : ℚ} {ps : List (Img ℚ × Img ℚ)} {nr nc : Nat} (hs : Stack ps nr nc) {p : Img ℚ × Img ℚ} (hp : p ∈ ps)
    {a b : Nat} {x w : ℚ} (hx : p.1.get? a b = some x) (hw : p.2.get? a b = some w) :
    ∃ m, IsMedian (ps.filterMap (fun q => q.1.get? a b)) m ∧ (medOf ps nr nc).get? a b = some m ∧
      (newWt rt nsigma A (medOf ps nr nc) p).get? a b = some (if OutlierQ rt nsigma A m x w then 0 else max w 0) := by
  obtain ⟨q1, q2, q3, q4, q5, q6⟩ := hs p hp
  have hlt := Img.get?_lt hx
  have ha : a < nr := by omega
  have hb : b < nc := by omega
  have e : (ps.map (·.1)).filterMap (·.get? a b) = ps.filterMap (fun q => q.1.get? a b) := by rw [List.filterMap_map]; rfl
  have hm : (medOf ps nr nc).get? a b = some (median (ps.filterMap (fun q => q.1.get? a b))) := by
    unfold medOf medianImage
    rw [Img.ofFn_get? _ ha hb, e]
  have hne : ps.filterMap (fun q => q.1.get? a b) ≠ [] := by
    intro h
    have := filterMap_get hs ha hb
    rw [h] at this
    have h0 : 0 < ps.length := List.length_pos_of_mem hp
    simp at this
    omega
  refine ⟨_, isMedian_median hne, hm, ?_⟩
  have hw' : (p.2.map (max · 0)).get? a b = some (max w 0) := by rw [Img.map_get?, hw]; rfl
  have ho := outlier_get (rt := rt) (nsigma := nsigma) (A := A) (med := medOf ps nr nc) (im := p.1) (wt := p.2.map (max · 0)) (by simp [medOf, medianImage, q3]) (by simp [medOf, medianImage, q4])
    (by simp [Img.map, q3, q5]) (by simp [Img.map, q4, q6]) hm hx hw'
  unfold newWt
  rw [Img.zipWith_get? (by show p.1.nr = p.2.nr; rw [q3, q5]) (by show p.1.nc = p.2.nc; rw [q4, q6]) _ a b ho hw']
  congr 1
  by_cases h : OutlierQ rt nsigma A (median (ps.filterMap (fun q => q.1.get? a b))) x w
  · rw [if_pos h, decide_eq_true ((testQ_iff).mpr h)]; rfl
  · rw [if_neg h, decide_eq_false (fun h' => h ((testQ_iff).mp h'))]; rfl


end Meds.RejectQ
