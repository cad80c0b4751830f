import Verif.Model.Reject
import Verif.Spec.Reject
import Verif.Lemmas.Basic

/-!
# Outlier rejection (C33, C34)
-/

namespace Meds.Reject
open Spec

/-! ### The median -/

theorem isMedian_median {K : Type} [Field K] [LinearOrder K] [IsStrictOrderedRing K] {l : List K} (h : l ≠ []) : IsMedian l (median l) := by
  have hp := List.perm_insertionSort (· ≤ ·) l
  have hl : (l.insertionSort (· ≤ ·)).length = l.length := hp.length_eq
  have h0 : 0 < l.length := List.length_pos_iff.mpr h
  refine ⟨l.insertionSort (· ≤ ·), hp, List.pairwise_insertionSort (· ≤ ·) l, ?_⟩
  have h1 : (l.length - 1) / 2 < (l.insertionSort (· ≤ ·)).length := by omega
  have h2 : l.length / 2 < (l.insertionSort (· ≤ ·)).length := by omega
  refine ⟨_, _, List.getElem?_eq_getElem h1, List.getElem?_eq_getElem h2, ?_⟩
  unfold median
  simp only
  split
  · rename_i h3
    have e : (l.length - 1) / 2 = l.length / 2 := by omega
    simp only [e, List.getD_eq_getElem?_getD, List.getElem?_eq_getElem h2, Option.getD_some]
    ring
  · rename_i h3
    have e : (l.length - 1) / 2 = l.length / 2 - 1 := by omega
    have h4 : l.length / 2 - 1 < (l.insertionSort (· ≤ ·)).length := by omega
    simp only [e, List.getD_eq_getElem?_getD, List.getElem?_eq_getElem h2, List.getElem?_eq_getElem h4, Option.getD_some]

/-- There is only one median. -/
theorem isMedian_unique {l l' : List ℝ} (hl : l.Perm l') {m m' : ℝ} (h : IsMedian l m) (h' : IsMedian l' m') : m = m' := by
  obtain ⟨s, p, q, x, y, hx, hy, rfl⟩ := h
  obtain ⟨s', p', q', x', y', hx', hy', rfl⟩ := h'
  have : s = s' := List.Perm.eq_of_pairwise' q q' (p.trans (hl.trans p'.symm))
  subst this
  rw [← hl.length_eq] at hx' hy'
  rw [hx] at hx'
  rw [hy] at hy'
  injection hx' with e1
  injection hy' with e2
  rw [e1, e2]

/-! ### One pixel -/

/-- The test the code makes is the documented criterion. -/
theorem test_iff {nsigma A m x w : ℝ} (hn : 0 ≤ nsigma) (hA : 0 ≤ A) :
    (|m| * A * Real.sqrt (max w 0) + nsigma) * (|m| * A * Real.sqrt (max w 0) + nsigma) < (x - m) * (x - m) * max w 0 ↔ Outlier nsigma A m x w := by
  unfold Outlier
  by_cases hw : 0 < w
  · rw [max_eq_left hw.le]
    have hs : 0 < Real.sqrt w := Real.sqrt_pos.mpr hw
    have hss : Real.sqrt w * Real.sqrt w = w := Real.mul_self_sqrt hw.le
    have e : (x - m) * (x - m) * w = (|x - m| * Real.sqrt w) * (|x - m| * Real.sqrt w) := by
      rw [show |x - m| * Real.sqrt w * (|x - m| * Real.sqrt w) = (|x - m| * |x - m|) * (Real.sqrt w * Real.sqrt w) by ring, hss, abs_mul_abs_self]
    rw [e, ← mul_self_lt_mul_self_iff (by positivity) (by positivity)]
    constructor
    · intro h
      refine ⟨hw, ?_⟩
      have : (nsigma / Real.sqrt w + A * |m|) * Real.sqrt w < |x - m| * Real.sqrt w := by
        rw [add_mul, div_mul_cancel₀ _ hs.ne']
        linarith
      exact lt_of_mul_lt_mul_right this hs.le
    · rintro ⟨_, h⟩
      have : (nsigma / Real.sqrt w + A * |m|) * Real.sqrt w < |x - m| * Real.sqrt w := mul_lt_mul_of_pos_right h hs
      rw [add_mul, div_mul_cancel₀ _ hs.ne'] at this
      linarith
  · rw [max_eq_right (not_lt.mp hw)]
    simp only [Real.sqrt_zero, mul_zero, hw, false_and, iff_false, not_lt, zero_add]
    positivity

/-- What one turn of the loop leaves in a weight array. -/
noncomputable def newWt (nsigma A : ℝ) (med : Img ℝ) (p : Img ℝ × Img ℝ) : Img ℝ :=
  Img.zipWith (fun bad v => if bad then 0 else v) (outlier Real.sqrt nsigma A med p.1 (p.2.map (max · 0))) (p.2.map (max · 0))

noncomputable def newCount (nsigma A : ℝ) (med : Img ℝ) (p : Img ℝ × Img ℝ) : Nat :=
  (outlier Real.sqrt nsigma A med p.1 (p.2.map (max · 0))).flat.count true

theorem outlier_get {nsigma A : ℝ} {med im wt : Img ℝ} (h1 : med.nr = im.nr) (h2 : med.nc = im.nc) (h3 : wt.nr = im.nr) (h4 : wt.nc = im.nc)
    {i j : Nat} {m x w : ℝ} (hm : med.get? i j = some m) (hx : im.get? i j = some x) (hw : wt.get? i j = some w) :
    (outlier Real.sqrt nsigma A med im wt).get? i j =
      some (decide ((|m| * A * Real.sqrt w + nsigma) * (|m| * A * Real.sqrt w + nsigma) < (x - m) * (x - m) * w)) := by
  unfold outlier
  simp only
  have a1 := Img.zipWith_get? h1.symm h2.symm (fun a b : ℝ => a - b) i j hx hm
  have a2 := Img.zipWith_get? rfl rfl (fun a b : ℝ => a * b) i j a1 a1
  have a3 := Img.zipWith_get? (a := Img.zipWith (fun a b : ℝ => a * b) (Img.zipWith (fun a b : ℝ => a - b) im med) (Img.zipWith (fun a b : ℝ => a - b) im med))
    h3.symm h4.symm (fun a b : ℝ => a * b) i j a2 hw
  have b1 : ((med.map (fun m => |m|)).map (· * A)).get? i j = some (|m| * A) := by rw [Img.map_get?, Img.map_get?, hm]; rfl
  have b2 : (wt.map Real.sqrt).get? i j = some (Real.sqrt w) := by rw [Img.map_get?, hw]; rfl
  have b3 := Img.zipWith_get? (a := (med.map (fun m => |m|)).map (· * A)) (b := wt.map Real.sqrt) (h1.trans h3.symm) (h2.trans h4.symm) (fun a b : ℝ => a * b) i j b1 b2
  have b4 : ((Img.zipWith (fun a b : ℝ => a * b) ((med.map (fun m => |m|)).map (· * A)) (wt.map Real.sqrt)).map (· + nsigma)).get? i j =
      some (|m| * A * Real.sqrt w + nsigma) := by rw [Img.map_get?, b3]; rfl
  have b5 := Img.zipWith_get? rfl rfl (fun a b : ℝ => a * b) i j b4 b4
  exact Img.zipWith_get? (by simpa [Img.zipWith, Img.map] using h1.symm) (by simpa [Img.zipWith, Img.map] using h2.symm) (fun c m : ℝ => decide (m < c)) i j a3 b5

theorem outlier_shape (nsigma A : ℝ) (med im wt : Img ℝ) :
    (outlier Real.sqrt nsigma A med im wt).nr = im.nr ∧ (outlier Real.sqrt nsigma A med im wt).nc = im.nc := ⟨rfl, rfl⟩

theorem outlier_WF {nsigma A : ℝ} {med im wt : Img ℝ} (h1 : med.nr = im.nr) (h2 : med.nc = im.nc) (h3 : wt.nr = im.nr) (h4 : wt.nc = im.nc)
    (hm : med.WF) (hi : im.WF) (hw : wt.WF) : (outlier Real.sqrt nsigma A med im wt).WF := by
  have e1 : med.flat.length = im.nr * im.nc := by rw [hm, h1, h2]
  have e2 : wt.flat.length = im.nr * im.nc := by rw [hw, h3, h4]
  have e3 : im.flat.length = im.nr * im.nc := hi
  simp [Img.WF, outlier, Img.zipWith, Img.map, e1, e2, e3]

/-- The median image. -/
noncomputable def medOf (ps : List (Img ℝ × Img ℝ)) (nr nc : Nat) : Img ℝ := medianImage (nr, nc) (ps.map (·.1))

/-- A stack of images and weights of one shape. -/
def Stack (ps : List (Img ℝ × Img ℝ)) (nr nc : Nat) : Prop :=
  ∀ p ∈ ps, p.1.WF ∧ p.2.WF ∧ p.1.nr = nr ∧ p.1.nc = nc ∧ p.2.nr = nr ∧ p.2.nc = nc

theorem loop {nsigma A : ℝ} {ps : List (Img ℝ × Img ℝ)} {nr nc : Nat} (hs : Stack ps nr nc) (med : Img ℝ) :
    ∀ j ≤ ps.length, foldRes (step Real.sqrt nsigma A med) ⟨ps.map (·.1), ps.map (·.2), 0⟩ (List.range j) =
      .ok ⟨ps.map (·.1), (ps.take j).map (newWt nsigma A med) ++ (ps.drop j).map (·.2), ((ps.take j).map (newCount nsigma A med)).sum⟩ := by
  intro j
  induction j with
  | zero => intro _; simp [foldRes]
  | succ j ih =>
    intro hj
    have hj' : j < ps.length := by omega
    rw [List.range_succ, foldRes_append, ih (by omega)]
    simp only [Res.ok_bind, foldRes]
    have hp : ps[j]? = some ps[j] := List.getElem?_eq_getElem hj'
    obtain ⟨_, _, q1, q2, q3, q4⟩ := hs ps[j] (List.getElem_mem hj')
    have hd : ps.drop j = ps[j] :: ps.drop (j + 1) := List.drop_eq_getElem_cons hj'
    have ht : ps.take (j + 1) = ps.take j ++ [ps[j]] := List.take_succ_eq_append_getElem hj'
    have hlen : ((ps.take j).map (newWt nsigma A med)).length = j := by simp; omega
    have g1 : pyGet (ps.map (·.1)) (j : Int) = .ok ps[j].1 := pyGet_nat_some (by rw [List.getElem?_map, hp]; rfl)
    have g2 : pyGet ((ps.take j).map (newWt nsigma A med) ++ (ps.drop j).map (·.2)) (j : Int) = .ok ps[j].2 := by
      apply pyGet_nat_some
      rw [List.getElem?_append_right (by omega), hlen, hd, Nat.sub_self, List.map_cons]
      rfl
    unfold step
    simp only [g1, g2, Res.ok_bind]
    rw [if_neg (by simp [Img.map, q1, q2, q3, q4])]
    simp only [Except.ok.injEq, Rejected.mk.injEq, true_and]
    constructor
    · rw [List.set_append_right _ _ (by omega), hlen, hd, ht, Nat.sub_self, List.map_cons, List.set_cons_zero, List.map_append, List.append_assoc]
      rfl
    · rw [ht, List.map_append, List.sum_append]
      rfl

theorem run {nsigma A : ℝ} {ps : List (Img ℝ × Img ℝ)} {nr nc : Nat} (hs : Stack ps nr nc) (h3 : 3 ≤ ps.length) :
    rejectOutliers Real.sqrt nsigma A (ps.map (·.1)) (ps.map (·.2)) =
      .ok ⟨ps.map (·.1), ps.map (newWt nsigma A (medOf ps nr nc)), (ps.map (newCount nsigma A (medOf ps nr nc))).sum⟩ := by
  unfold rejectOutliers
  rw [if_neg (by simp; omega)]
  cases ps with
  | nil => simp at h3
  | cons p t =>
    simp only [List.map_cons]
    obtain ⟨_, _, q1, q2, q3, q4⟩ := hs p (by simp)
    rw [if_neg]
    · have := loop (nsigma := nsigma) (A := A) hs (medOf (p :: t) nr nc) (p :: t).length (le_refl _)
      rw [q1, q2]
      simp only [List.take_length, List.drop_length, List.map_nil, List.append_nil] at this
      simpa [medOf] using this
    · rw [List.any_eq_true]
      rintro ⟨im, him, hd⟩
      rw [← List.map_cons (f := fun q : Img ℝ × Img ℝ => q.1), List.mem_map] at him
      obtain ⟨b, hb, rfl⟩ := him
      obtain ⟨_, _, r1, r2, _⟩ := hs b hb
      exact (of_decide_eq_true hd) ⟨by rw [r1, q1], by rw [r2, q2]⟩

theorem filterMap_get {ps : List (Img ℝ × Img ℝ)} {nr nc : Nat} (hs : Stack ps nr nc) {a b : Nat} (ha : a < nr) (hb : b < nc) :
    (ps.filterMap (fun p => p.1.get? a b)).length = ps.length := by
  induction ps with
  | nil => rfl
  | cons p t ih =>
    obtain ⟨q0, _, q1, q2, _⟩ := hs p (by simp)
    obtain ⟨v, hv⟩ := Img.get?_some_of_WF q0 (i := a) (j := b) (by omega) (by omega)
    rw [List.filterMap_cons, hv]
    simp only [List.length_cons]
    rw [ih (fun x hx => hs x (by simp [hx]))]

open Classical in
theorem newWt_get {nsigma A : ℝ} (hn : 0 ≤ nsigma) (hA : 0 ≤ A) {ps : List (Img ℝ × Img ℝ)} {nr nc : Nat} (hs : Stack ps nr nc) {p : Img ℝ × Img ℝ} (hp : p ∈ ps)
    {a b : Nat} {x w : ℝ} (hx : p.1.get? a b = some x) (hw : p.2.get? a b = some w) :
    ∃ m, IsMedian (ps.filterMap (fun q => q.1.get? a b)) m ∧ (medOf ps nr nc).get? a b = some m ∧
      (newWt nsigma A (medOf ps nr nc) p).get? a b = some (if Outlier nsigma A m x w then 0 else max w 0) := by
  obtain ⟨q1, q2, q3, q4, q5, q6⟩ := hs p hp
  have hlt := Img.get?_lt hx
  have ha : a < nr := by omega
  have hb : b < nc := by omega
  have e : (ps.map (·.1)).filterMap (·.get? a b) = ps.filterMap (fun q => q.1.get? a b) := by rw [List.filterMap_map]; rfl
  have hm : (medOf ps nr nc).get? a b = some (median (ps.filterMap (fun q => q.1.get? a b))) := by
    unfold medOf medianImage
    rw [Img.ofFn_get? _ ha hb, e]
  have hne : ps.filterMap (fun q => q.1.get? a b) ≠ [] := by
    intro h
    have := filterMap_get hs ha hb
    rw [h] at this
    have h0 : 0 < ps.length := List.length_pos_of_mem hp
    simp at this
    omega
  refine ⟨_, isMedian_median hne, hm, ?_⟩
  have hw' : (p.2.map (max · 0)).get? a b = some (max w 0) := by rw [Img.map_get?, hw]; rfl
  have ho := outlier_get (nsigma := nsigma) (A := A) (med := medOf ps nr nc) (im := p.1) (wt := p.2.map (max · 0)) (by simp [medOf, medianImage, q3]) (by simp [medOf, medianImage, q4])
    (by simp [Img.map, q3, q5]) (by simp [Img.map, q4, q6]) hm hx hw'
  unfold newWt
  rw [Img.zipWith_get? (by show p.1.nr = p.2.nr; rw [q3, q5]) (by show p.1.nc = p.2.nc; rw [q4, q6]) _ a b ho hw']
  congr 1
  by_cases h : Outlier nsigma A (median (ps.filterMap (fun q => q.1.get? a b))) x w
  · rw [if_pos h, decide_eq_true ((test_iff hn hA).mpr h)]; rfl
  · rw [if_neg h, decide_eq_false (fun h' => h ((test_iff hn hA).mp h'))]; rfl

open Classical in
/-- Pixel lists: how many tests are true, and how many positive weights became zero. -/
theorem count_zeroed {test : ℝ → ℝ → ℝ → Bool} (ht : ∀ m x w, test m x (max w 0) = true → 0 < w) : ∀ (ms xs ws : List ℝ), ms.length = ws.length → xs.length = ws.length →
    (List.zipWith (fun (xm : ℝ × ℝ) w => test xm.2 xm.1 w) (xs.zip ms) (ws.map (max · 0))).count true =
    (ws.zip (List.zipWith (fun bad v => if bad then 0 else v) (List.zipWith (fun (xm : ℝ × ℝ) w => test xm.2 xm.1 w) (xs.zip ms) (ws.map (max · 0))) (ws.map (max · 0)))).countP
      (fun p => decide (0 < p.1 ∧ p.2 = 0)) := by
  intro ms xs ws
  induction ws generalizing ms xs with
  | nil => intro _ _; simp
  | cons w ws ih =>
    intro h1 h2
    cases ms with
    | nil => simp at h1
    | cons m ms =>
      cases xs with
      | nil => simp at h2
      | cons x xs =>
        simp only [List.map_cons, List.zip_cons_cons, List.zipWith_cons_cons, List.count_cons, List.countP_cons]
        rw [ih ms xs (by simpa using h1) (by simpa using h2)]
        congr 1
        by_cases hb : test m x (max w 0) = true
        · have := ht m x w hb
          simp [hb, this]
        · rw [Bool.not_eq_true] at hb
          simp only [hb, beq_iff_eq, Bool.false_eq_true, if_false, decide_eq_true_eq]
          rw [if_neg]
          rintro ⟨h3, h4⟩
          rw [max_eq_left h3.le] at h4
          linarith

theorem newCount_zeroed {nsigma A : ℝ} {p : Img ℝ × Img ℝ} {med : Img ℝ} (h1 : med.flat.length = p.2.flat.length) (h2 : p.1.flat.length = p.2.flat.length) :
    newCount nsigma A med p = zeroed p.2 (newWt nsigma A med p) := by
  have key := count_zeroed (test := fun m x w => decide ((|m| * A * Real.sqrt w + nsigma) * (|m| * A * Real.sqrt w + nsigma) < (x - m) * (x - m) * w)) (by
    intro m x w h
    have h := of_decide_eq_true h
    by_contra hw
    rw [max_eq_right (not_lt.mp hw)] at h
    simp only [mul_zero, Real.sqrt_zero, zero_add] at h
    nlinarith [mul_self_nonneg nsigma]) med.flat p.1.flat p.2.flat h1 h2
  have e : (outlier Real.sqrt nsigma A med p.1 (p.2.map (max · 0))).flat =
      List.zipWith (fun (xm : ℝ × ℝ) w => decide ((|xm.2| * A * Real.sqrt w + nsigma) * (|xm.2| * A * Real.sqrt w + nsigma) < (xm.1 - xm.2) * (xm.1 - xm.2) * w))
        (p.1.flat.zip med.flat) (p.2.flat.map (max · 0)) := by
    apply List.ext_getElem?
    intro k
    simp only [outlier, Img.zipWith, Img.map, List.getElem?_zipWith, List.getElem?_map, List.zip]
    cases p.1.flat[k]? <;> cases med.flat[k]? <;> cases p.2.flat[k]? <;> simp
  unfold newCount zeroed newWt
  simp only [Img.zipWith] at e ⊢
  rw [e]
  convert key using 2
  rfl

/-! ### The property -/

open Classical in
/-- **C33** `reject_outliers` on three or more images: the images stay; a pixel of a weight becomes zero when it meets the documented criterion and is clipped
at zero otherwise; the return value is the number of positive weights that became zero. -/
theorem C33_criterion {nsigma A : ℝ} (hn : 0 ≤ nsigma) (hA : 0 ≤ A) {ps : List (Img ℝ × Img ℝ)} {nr nc : Nat} (hs : Stack ps nr nc) (h3 : 3 ≤ ps.length) :
    ∃ r, rejectOutliers Real.sqrt nsigma A (ps.map (·.1)) (ps.map (·.2)) = .ok r ∧ r.ims = ps.map (·.1) ∧ r.wts.length = ps.length ∧
      (∀ (k : Nat) p wt', ps[k]? = some p → r.wts[k]? = some wt' → wt'.WF ∧ wt'.nr = nr ∧ wt'.nc = nc ∧
        ∀ a b x w, p.1.get? a b = some x → p.2.get? a b = some w →
          ∃ m, IsMedian (ps.filterMap (fun q => q.1.get? a b)) m ∧ wt'.get? a b = some (if Outlier nsigma A m x w then 0 else max w 0)) ∧
      r.nreject = (List.zipWith zeroed (ps.map (·.2)) r.wts).sum := by
  refine ⟨_, run hs h3, rfl, by simp, ?_, ?_⟩
  · intro k p wt' hk hk'
    simp only [List.getElem?_map, hk, Option.map_some, Option.some.injEq] at hk'
    subst hk'
    have hp := List.mem_of_getElem? hk
    obtain ⟨q1, q2, q3, q4, q5, q6⟩ := hs p hp
    refine ⟨?_, q3, q4, ?_⟩
    · unfold newWt
      refine Img.zipWith_WF (outlier_WF ?_ ?_ ?_ ?_ (Img.ofFn_WF _ _ _) q1 (Img.map_WF q2 _)) (Img.map_WF q2 _) ?_ ?_ _
      · exact q3.symm
      · exact q4.symm
      · exact q5.trans q3.symm
      · exact q6.trans q4.symm
      · exact q3.trans q5.symm
      · exact q4.trans q6.symm
    · intro a b x w hx hw
      obtain ⟨m, m1, _, m3⟩ := newWt_get hn hA hs hp hx hw
      exact ⟨m, m1, m3⟩
  · simp only
    congr 1
    rw [List.zipWith_map, List.zipWith_self]
    apply List.map_congr_left
    intro p hp
    obtain ⟨q1, q2, q3, q4, q5, q6⟩ := hs p hp
    apply newCount_zeroed
    · rw [q2, q5, q6]; exact Img.ofFn_flat_length _ _ _
    · rw [q1, q2, q3, q4, q5, q6]

/-- **C33** Fewer than three images: nothing happens, not even clipping. -/
theorem C33_few_images {K : Type} [Field K] [LinearOrder K] (sqrt : K → K) (nsigma A : K) (ims wts : List (Img K)) (h : ims.length < 3) :
    rejectOutliers sqrt nsigma A ims wts = .ok ⟨ims, wts, 0⟩ := by
  unfold rejectOutliers
  rw [if_pos h]

theorem Stack.perm {ps ps' : List (Img ℝ × Img ℝ)} {nr nc : Nat} (hs : Stack ps nr nc) (h : ps'.Perm ps) : Stack ps' nr nc :=
  fun p hp => hs p (h.mem_iff.mp hp)

theorem median_perm {l l' : List ℝ} (h : l.Perm l') : median l = median l' := by
  have e : l.insertionSort (· ≤ ·) = l'.insertionSort (· ≤ ·) :=
    List.Perm.eq_of_pairwise' (List.pairwise_insertionSort _ _) (List.pairwise_insertionSort _ _)
      ((List.perm_insertionSort _ _).trans (h.trans (List.perm_insertionSort _ _).symm))
  unfold median
  simp only [e, h.length_eq]

/-- **C34** Permuting the pairs permutes the weights in the same way, with the same number of rejections (any `nsigma` and `A`). -/
theorem C34_permutation {nsigma A : ℝ} {ps ps' : List (Img ℝ × Img ℝ)} {nr nc : Nat} (hs : Stack ps nr nc) (σ : Nat → Nat) (hperm : ps'.Perm ps)
    (hσ : ∀ k < ps'.length, ps'[k]? = ps[σ k]?) :
    ∃ r r', rejectOutliers Real.sqrt nsigma A (ps.map (·.1)) (ps.map (·.2)) = .ok r ∧
      rejectOutliers Real.sqrt nsigma A (ps'.map (·.1)) (ps'.map (·.2)) = .ok r' ∧
      r'.nreject = r.nreject ∧ r'.wts.length = r.wts.length ∧ ∀ k < ps'.length, r'.wts[k]? = r.wts[σ k]? := by
  have hlen := hperm.length_eq
  by_cases h3 : 3 ≤ ps.length
  · refine ⟨_, _, run hs h3, run (hs.perm hperm) (by omega), ?_, by simp [hlen], ?_⟩
    all_goals
      have e : medOf ps' nr nc = medOf ps nr nc := by
        unfold medOf medianImage
        congr 1
        funext i j
        exact median_perm ((hperm.map _).filterMap _)
      simp only [e]
    · exact (hperm.map _).sum_eq
    · intro k hk
      rw [List.getElem?_map, List.getElem?_map, hσ k hk]
  · refine ⟨_, _, C33_few_images _ _ _ _ _ (by simp; omega), C33_few_images _ _ _ _ _ (by simp; omega), rfl, by simp [hlen], ?_⟩
    intro k hk
    simp only [List.getElem?_map, hσ k hk]

/-! ### Concrete cases -/

/-- Square root of the weights of the example. -/
def exSqrt (x : ℚ) : ℚ := if x = 4 then 2 else if x = 1 then 1 else 0

/-- Three 1 × 3 images; the second has a high first pixel, the third a low second one with zero weight and a negative weight. -/
def exIms : List (Img ℚ) := [⟨1, 3, [1, 2, 3]⟩, ⟨1, 3, [100, 2, 3]⟩, ⟨1, 3, [2, -100, 4]⟩]
def exWts : List (Img ℚ) := [⟨1, 3, [4, 4, 1]⟩, ⟨1, 3, [4, 4, 1]⟩, ⟨1, 3, [1, 0, -3]⟩]

example : rejectOutliers exSqrt 5 (3 / 10) exIms exWts = .ok ⟨exIms, [⟨1, 3, [4, 4, 1]⟩, ⟨1, 3, [0, 4, 1]⟩, ⟨1, 3, [1, 0, 0]⟩], 1⟩ := by decide +kernel

-- an outlier and a value that is not one, in real arithmetic
example : Outlier 5 (3 / 10) 2 100 4 := by
  refine ⟨by norm_num, ?_⟩
  rw [show (4 : ℝ) = 2 ^ 2 by norm_num, Real.sqrt_sq (by norm_num)]
  rw [abs_of_pos, abs_of_pos] <;> norm_num

example : ¬ Outlier 5 (3 / 10) 2 4 4 := by
  rintro ⟨_, h⟩
  rw [show (4 : ℝ) = 2 ^ 2 by norm_num, Real.sqrt_sq (by norm_num), abs_of_pos, abs_of_pos] at h <;> norm_num at h

-- a stack that meets the hypotheses
example : Stack [(⟨1, 2, [1, 2]⟩, ⟨1, 2, [4, 4]⟩), (⟨1, 2, [100, 2]⟩, ⟨1, 2, [4, 4]⟩), (⟨1, 2, [2, 5]⟩, ⟨1, 2, [4, -1]⟩)] 1 2 := by
  intro p hp
  simp only [List.mem_cons, List.not_mem_nil, or_false] at hp
  rcases hp with rfl | rfl | rfl <;> simp [Img.WF]

end Meds.Reject
