import Verif.Model.RejectNaN
import Verif.Props.Reject

/-!
# Outlier rejection with pixels that are not numbers (C103)
-/

namespace Meds.Reject
open Spec

/-- A stack of images and weights of one shape. -/
def StackN (ps : List (Img (Option ℝ) × Img (Option ℝ))) (nr nc : Nat) : Prop :=
  ∀ p ∈ ps, p.1.WF ∧ p.2.WF ∧ p.1.nr = nr ∧ p.1.nc = nc ∧ p.2.nr = nr ∧ p.2.nc = nc

/-- What one turn of the loop leaves in a weight array. -/
noncomputable def newWtN (nsigma A : ℝ) (med : Img (Option ℝ)) (p : Img (Option ℝ) × Img (Option ℝ)) : Img (Option ℝ) :=
  Img.zipWith (fun bad v => if bad then some 0 else v) (outlierN Real.sqrt nsigma A med p.1 (p.2.map (Option.map (max · 0)))) (p.2.map (Option.map (max · 0)))

noncomputable def newCountN (nsigma A : ℝ) (med : Img (Option ℝ)) (p : Img (Option ℝ) × Img (Option ℝ)) : Nat :=
  (outlierN Real.sqrt nsigma A med p.1 (p.2.map (Option.map (max · 0)))).flat.count true

/-- The test on one pixel. -/
noncomputable def testN (nsigma A : ℝ) (m x w : Option ℝ) : Bool :=
  match m, x, w with
  | some m, some x, some w => decide ((|m| * A * Real.sqrt w + nsigma) * (|m| * A * Real.sqrt w + nsigma) < (x - m) * (x - m) * w)
  | _, _, _ => false

theorem outlierN_get {nsigma A : ℝ} {med im wt : Img (Option ℝ)} (h1 : med.nr = im.nr) (h2 : med.nc = im.nc) (h3 : wt.nr = im.nr) (h4 : wt.nc = im.nc)
    {i j : Nat} {m x w : Option ℝ} (hm : med.get? i j = some m) (hx : im.get? i j = some x) (hw : wt.get? i j = some w) :
    (outlierN Real.sqrt nsigma A med im wt).get? i j = some (testN nsigma A m x w) := by
  unfold outlierN
  simp only
  have a1 := Img.zipWith_get? h1.symm h2.symm (nan2 (fun a b : ℝ => a - b)) i j hx hm
  have a2 := Img.zipWith_get? rfl rfl (nan2 (fun a b : ℝ => a * b)) i j a1 a1
  have a3 := Img.zipWith_get? (a := Img.zipWith (nan2 (fun a b : ℝ => a * b)) (Img.zipWith (nan2 (fun a b : ℝ => a - b)) im med) (Img.zipWith (nan2 (fun a b : ℝ => a - b)) im med))
    h3.symm h4.symm (nan2 (fun a b : ℝ => a * b)) i j a2 hw
  have b1 : ((med.map (Option.map (fun m : ℝ => |m|))).map (Option.map (· * A))).get? i j = some ((m.map (fun m : ℝ => |m|)).map (· * A)) := by
    rw [Img.map_get?, Img.map_get?, hm]; rfl
  have b2 : (wt.map (Option.map Real.sqrt)).get? i j = some (w.map Real.sqrt) := by rw [Img.map_get?, hw]; rfl
  have b3 := Img.zipWith_get? (a := (med.map (Option.map (fun m : ℝ => |m|))).map (Option.map (· * A))) (b := wt.map (Option.map Real.sqrt))
    (h1.trans h3.symm) (h2.trans h4.symm) (nan2 (fun a b : ℝ => a * b)) i j b1 b2
  have b4 : ((Img.zipWith (nan2 (fun a b : ℝ => a * b)) ((med.map (Option.map (fun m : ℝ => |m|))).map (Option.map (· * A))) (wt.map (Option.map Real.sqrt))).map
      (Option.map (· + nsigma))).get? i j = some ((nan2 (fun a b : ℝ => a * b) ((m.map (fun m : ℝ => |m|)).map (· * A)) (w.map Real.sqrt)).map (· + nsigma)) := by
    rw [Img.map_get?, b3]; rfl
  have b5 := Img.zipWith_get? rfl rfl (nan2 (fun a b : ℝ => a * b)) i j b4 b4
  have c := Img.zipWith_get? (by simpa [Img.zipWith, Img.map] using h1.symm) (by simpa [Img.zipWith, Img.map] using h2.symm) gtN i j a3 b5
  refine c.trans ?_
  congr 1
  cases m <;> cases x <;> cases w <;> rfl

theorem outlierN_WF {nsigma A : ℝ} {med im wt : Img (Option ℝ)} (h1 : med.nr = im.nr) (h2 : med.nc = im.nc) (h3 : wt.nr = im.nr) (h4 : wt.nc = im.nc)
    (hm : med.WF) (hi : im.WF) (hw : wt.WF) : (outlierN Real.sqrt nsigma A med im wt).WF := by
  have e1 : med.flat.length = im.nr * im.nc := by rw [hm, h1, h2]
  have e2 : wt.flat.length = im.nr * im.nc := by rw [hw, h3, h4]
  have e3 : im.flat.length = im.nr * im.nc := hi
  simp [Img.WF, outlierN, Img.zipWith, Img.map, e1, e2, e3]

noncomputable def medOfN (ps : List (Img (Option ℝ) × Img (Option ℝ))) (nr nc : Nat) : Img (Option ℝ) := medianImageN (nr, nc) (ps.map (·.1))

theorem loopN {nsigma A : ℝ} {ps : List (Img (Option ℝ) × Img (Option ℝ))} {nr nc : Nat} (hs : StackN ps nr nc) (med : Img (Option ℝ)) :
    ∀ j ≤ ps.length, foldRes (stepN Real.sqrt nsigma A med) ⟨ps.map (·.1), ps.map (·.2), 0⟩ (List.range j) =
      .ok ⟨ps.map (·.1), (ps.take j).map (newWtN nsigma A med) ++ (ps.drop j).map (·.2), ((ps.take j).map (newCountN nsigma A med)).sum⟩ := by
  intro j
  induction j with
  | zero => intro _; simp [foldRes]
  | succ j ih =>
    intro hj
    have hj' : j < ps.length := by omega
    rw [List.range_succ, foldRes_append, ih (by omega)]
    simp only [Res.ok_bind, foldRes]
    have hp : ps[j]? = some ps[j] := List.getElem?_eq_getElem hj'
    obtain ⟨_, _, q1, q2, q3, q4⟩ := hs ps[j] (List.getElem_mem hj')
    have hd : ps.drop j = ps[j] :: ps.drop (j + 1) := List.drop_eq_getElem_cons hj'
    have ht : ps.take (j + 1) = ps.take j ++ [ps[j]] := List.take_succ_eq_append_getElem hj'
    have hlen : ((ps.take j).map (newWtN nsigma A med)).length = j := by simp; omega
    have g1 : pyGet (ps.map (·.1)) (j : Int) = .ok ps[j].1 := pyGet_nat_some (by rw [List.getElem?_map, hp]; rfl)
    have g2 : pyGet ((ps.take j).map (newWtN nsigma A med) ++ (ps.drop j).map (·.2)) (j : Int) = .ok ps[j].2 := by
      apply pyGet_nat_some
      rw [List.getElem?_append_right (by omega), hlen, hd, Nat.sub_self, List.map_cons]
      rfl
    unfold stepN
    simp only [g1, g2, Res.ok_bind]
    rw [if_neg (by simp [Img.map, q1, q2, q3, q4])]
    simp only [Except.ok.injEq, RejectedN.mk.injEq, true_and]
    constructor
    · rw [List.set_append_right _ _ (by omega), hlen, hd, ht, Nat.sub_self, List.map_cons, List.set_cons_zero, List.map_append, List.append_assoc]
      rfl
    · rw [ht, List.map_append, List.sum_append]
      rfl

theorem runN {nsigma A : ℝ} {ps : List (Img (Option ℝ) × Img (Option ℝ))} {nr nc : Nat} (hs : StackN ps nr nc) (h3 : 3 ≤ ps.length) :
    rejectOutliersN Real.sqrt nsigma A (ps.map (·.1)) (ps.map (·.2)) =
      .ok ⟨ps.map (·.1), ps.map (newWtN nsigma A (medOfN ps nr nc)), (ps.map (newCountN nsigma A (medOfN ps nr nc))).sum⟩ := by
  unfold rejectOutliersN
  rw [if_neg (by simp; omega)]
  cases ps with
  | nil => simp at h3
  | cons p t =>
    simp only [List.map_cons]
    obtain ⟨_, _, q1, q2, q3, q4⟩ := hs p (by simp)
    rw [if_neg]
    · have := loopN (nsigma := nsigma) (A := A) hs (medOfN (p :: t) nr nc) (p :: t).length (le_refl _)
      rw [q1, q2]
      simp only [List.take_length, List.drop_length, List.map_nil, List.append_nil] at this
      simpa [medOfN] using this
    · rw [List.any_eq_true]
      rintro ⟨im, him, hd⟩
      rw [← List.map_cons (f := fun q : Img (Option ℝ) × Img (Option ℝ) => q.1), List.mem_map] at him
      obtain ⟨b, hb, rfl⟩ := him
      obtain ⟨_, _, r1, r2, _⟩ := hs b hb
      exact (of_decide_eq_true hd) ⟨by rw [r1, q1], by rw [r2, q2]⟩

/-- The values of the stack at a pixel. -/
def valuesAt (ps : List (Img (Option ℝ) × Img (Option ℝ))) (a b : Nat) : List (Option ℝ) := ps.filterMap (fun q => q.1.get? a b)

theorem newWtN_get {nsigma A : ℝ} {ps : List (Img (Option ℝ) × Img (Option ℝ))} {nr nc : Nat} (hs : StackN ps nr nc) {p : Img (Option ℝ) × Img (Option ℝ)} (hp : p ∈ ps)
    {a b : Nat} {x w : Option ℝ} (hx : p.1.get? a b = some x) (hw : p.2.get? a b = some w) :
    (newWtN nsigma A (medOfN ps nr nc) p).get? a b =
      some (if testN nsigma A (medianN (valuesAt ps a b)) x (w.map (max · 0)) then some 0 else w.map (max · 0)) := by
  obtain ⟨q1, q2, q3, q4, q5, q6⟩ := hs p hp
  have hlt := Img.get?_lt hx
  have ha : a < nr := by omega
  have hb : b < nc := by omega
  have e : (ps.map (·.1)).filterMap (·.get? a b) = valuesAt ps a b := by unfold valuesAt; rw [List.filterMap_map]; rfl
  have hm : (medOfN ps nr nc).get? a b = some (medianN (valuesAt ps a b)) := by
    unfold medOfN medianImageN
    rw [Img.ofFn_get? _ ha hb, e]
  have hw' : (p.2.map (Option.map (max · 0))).get? a b = some (w.map (max · 0)) := by rw [Img.map_get?, hw]; rfl
  have ho := outlierN_get (nsigma := nsigma) (A := A) (med := medOfN ps nr nc) (im := p.1) (wt := p.2.map (Option.map (max · 0)))
    (by simp [medOfN, medianImageN, q3]) (by simp [medOfN, medianImageN, q4]) (by simp [Img.map, q3, q5]) (by simp [Img.map, q4, q6]) hm hx hw'
  unfold newWtN
  rw [Img.zipWith_get? (by show p.1.nr = p.2.nr; rw [q3, q5]) (by show p.1.nc = p.2.nc; rw [q4, q6]) _ a b ho hw']

open Classical in
/-- **C103** `reject_outliers` on three or more images with NaN: the images stay.  At a position where no image is NaN, a weight that is a number is treated as without
NaN anywhere. -/
theorem C103_elsewhere {nsigma A : ℝ} (hn : 0 ≤ nsigma) (hA : 0 ≤ A) {ps : List (Img (Option ℝ) × Img (Option ℝ))} {nr nc : Nat} (hs : StackN ps nr nc) (h3 : 3 ≤ ps.length) :
    ∃ r, rejectOutliersN Real.sqrt nsigma A (ps.map (·.1)) (ps.map (·.2)) = .ok r ∧ r.ims = ps.map (·.1) ∧ r.wts.length = ps.length ∧
      ∀ (k : Nat) p wt', ps[k]? = some p → r.wts[k]? = some wt' → wt'.WF ∧ wt'.nr = nr ∧ wt'.nc = nc ∧
        ∀ a b vs x w, valuesAt ps a b = vs.map some → p.1.get? a b = some (some x) → p.2.get? a b = some (some w) →
          ∃ m, IsMedian vs m ∧ wt'.get? a b = some (some (if Outlier nsigma A m x w then 0 else max w 0)) := by
  refine ⟨_, runN hs h3, rfl, by simp, ?_⟩
  intro k p wt' hk hk'
  simp only [List.getElem?_map, hk, Option.map_some, Option.some.injEq] at hk'
  subst hk'
  have hp := List.mem_of_getElem? hk
  obtain ⟨q1, q2, q3, q4, q5, q6⟩ := hs p hp
  refine ⟨?_, q3, q4, ?_⟩
  · unfold newWtN
    refine Img.zipWith_WF (outlierN_WF ?_ ?_ ?_ ?_ (Img.ofFn_WF _ _ _) q1 (Img.map_WF q2 _)) (Img.map_WF q2 _) ?_ ?_ _
    · exact q3.symm
    · exact q4.symm
    · exact q5.trans q3.symm
    · exact q6.trans q4.symm
    · exact q3.trans q5.symm
    · exact q4.trans q6.symm
  · intro a b vs x w hv hx hw
    have hmem : some x ∈ valuesAt ps a b := List.mem_filterMap.mpr ⟨p, hp, hx⟩
    have hne : vs ≠ [] := by
      rintro rfl
      rw [hv] at hmem
      cases hmem
    refine ⟨median vs, isMedian_median hne, ?_⟩
    have hmed : medianN (valuesAt ps a b) = some (median vs) := by
      unfold medianN
      rw [hv, if_neg]
      · simp [List.filterMap_map]
      · simp
    rw [newWtN_get hs hp hx hw, hmed]
    have ht : testN nsigma A (some (median vs)) (some x) ((some w).map (max · 0)) = true ↔ Outlier nsigma A (median vs) x w := by
      rw [← test_iff hn hA]
      exact decide_eq_true_iff
    by_cases h : Outlier nsigma A (median vs) x w
    · rw [if_pos h, if_pos (ht.mpr h)]
    · rw [if_neg h, if_neg (fun h' => h (ht.mp h'))]; rfl

/-- **C103** At a position where one image is NaN, no epoch is rejected, however far its pixel is from the others: weights are only clipped at zero. -/
theorem C103_nan_disables {nsigma A : ℝ} {ps : List (Img (Option ℝ) × Img (Option ℝ))} {nr nc : Nat} (hs : StackN ps nr nc) (h3 : 3 ≤ ps.length)
    {a b : Nat} {q : Img (Option ℝ) × Img (Option ℝ)} (hq : q ∈ ps) (hnan : q.1.get? a b = some none) :
    ∃ r, rejectOutliersN Real.sqrt nsigma A (ps.map (·.1)) (ps.map (·.2)) = .ok r ∧
      ∀ (k : Nat) p wt' w, ps[k]? = some p → r.wts[k]? = some wt' → p.2.get? a b = some w → wt'.get? a b = some (w.map (max · 0)) := by
  refine ⟨_, runN hs h3, ?_⟩
  intro k p wt' w hk hk' hw
  simp only [List.getElem?_map, hk, Option.map_some, Option.some.injEq] at hk'
  subst hk'
  have hp := List.mem_of_getElem? hk
  obtain ⟨q1, q2, q3, q4, q5, q6⟩ := hs p hp
  have hlt := Img.get?_lt hw
  obtain ⟨x, hx⟩ := Img.get?_some_of_WF q1 (i := a) (j := b) (by omega) (by omega)
  have hmed : medianN (valuesAt ps a b) = none := by
    unfold medianN
    rw [if_pos]
    rw [List.any_eq_true]
    exact ⟨none, List.mem_filterMap.mpr ⟨q, hq, hnan⟩, rfl⟩
  rw [newWtN_get hs hp hx hw, hmed]
  rfl

/-- **C103** A weight that is NaN stays NaN. -/
theorem C103_nan_weight {nsigma A : ℝ} {ps : List (Img (Option ℝ) × Img (Option ℝ))} {nr nc : Nat} (hs : StackN ps nr nc) (h3 : 3 ≤ ps.length) :
    ∃ r, rejectOutliersN Real.sqrt nsigma A (ps.map (·.1)) (ps.map (·.2)) = .ok r ∧
      ∀ (k : Nat) p wt' a b, ps[k]? = some p → r.wts[k]? = some wt' → p.2.get? a b = some none → wt'.get? a b = some none := by
  refine ⟨_, runN hs h3, ?_⟩
  intro k p wt' a b hk hk' hw
  simp only [List.getElem?_map, hk, Option.map_some, Option.some.injEq] at hk'
  subst hk'
  have hp := List.mem_of_getElem? hk
  obtain ⟨q1, q2, q3, q4, q5, q6⟩ := hs p hp
  have hlt := Img.get?_lt hw
  obtain ⟨x, hx⟩ := Img.get?_some_of_WF q1 (i := a) (j := b) (by omega) (by omega)
  rw [newWtN_get hs hp hx hw]
  cases medianN (valuesAt ps a b) <;> cases x <;> rfl

/-! ### Without NaN -/

section Agree
variable {K : Type} [Field K] [LinearOrder K]

/-- An image without NaN. -/
def num (im : Img K) : Img (Option K) := im.map some

/-- A result without NaN. -/
def Rejected.num (r : Rejected K) : RejectedN K := ⟨r.ims.map Reject.num, r.wts.map Reject.num, r.nreject⟩

omit [Field K] [LinearOrder K] in
theorem zipWith_num (f : K → K → K) (a b : Img K) : Img.zipWith (nan2 f) (num a) (num b) = num (Img.zipWith f a b) := by
  simp only [num, Img.zipWith, Img.map, Img.mk.injEq, true_and]
  rw [List.map_zipWith, List.zipWith_map]
  rfl

omit [Field K] [LinearOrder K] in
theorem map_num (f : K → K) (a : Img K) : (num a).map (Option.map f) = num (a.map f) := by
  simp [num, Img.map, List.map_map, Function.comp_def]

theorem outlierN_num (sqrt : K → K) (nsigma A : K) (med im wt : Img K) : outlierN sqrt nsigma A (num med) (num im) (num wt) = outlier sqrt nsigma A med im wt := by
  unfold outlierN outlier
  simp only [zipWith_num, map_num]
  simp only [num, Img.zipWith, Img.map, Img.mk.injEq, true_and]
  rw [List.zipWith_map]
  rfl

theorem medianImageN_num (dims : Nat × Nat) (ims : List (Img K)) : medianImageN dims (ims.map num) = num (medianImage dims ims) := by
  unfold medianImageN medianImage
  have h : ∀ i j, medianN ((ims.map num).filterMap (·.get? i j)) = some (median (ims.filterMap (·.get? i j))) := by
    intro i j
    have e : (ims.map num).filterMap (·.get? i j) = (ims.filterMap (·.get? i j)).map some := by
      rw [List.filterMap_map, List.map_filterMap]
      congr 1
      funext im
      exact Img.map_get? _ _ _ _
    rw [e]
    unfold medianN
    rw [if_neg (by rw [List.any_map, List.any_eq_true]; rintro ⟨x, _, hx⟩; cases hx)]
    simp [List.filterMap_map]
  simp only [h]
  simp [num, Img.map, Img.ofFn]

omit [Field K] [LinearOrder K] in
theorem pyGet_num {l : List (Img K)} {i : Int} : pyGet (l.map num) i = (pyGet l i >>= fun x => .ok (num x)) := by
  unfold pyGet
  rw [List.length_map]
  cases pyIndex l.length i with
  | error e => rfl
  | ok k =>
    simp only [List.getElem?_map]
    cases l[k]? <;> rfl

theorem stepN_num (sqrt : K → K) (nsigma A : K) (med : Img K) (st : Rejected K) (i : Nat) :
    stepN sqrt nsigma A (num med) st.num i = (step sqrt nsigma A med st i >>= fun r => .ok r.num) := by
  unfold stepN step
  simp only [Rejected.num, pyGet_num]
  cases pyGet st.ims i with
  | error e => rfl
  | ok im =>
    simp only [Res.ok_bind]
    cases pyGet st.wts i with
    | error e => rfl
    | ok wt =>
      simp only [Res.ok_bind]
      rw [map_num, outlierN_num]
      by_cases h : (wt.map (max · 0)).nr = im.nr ∧ (wt.map (max · 0)).nc = im.nc
      · rw [if_neg (by rw [not_not]; exact h), if_neg (by rw [not_not]; exact h)]
        simp only [Res.ok_bind, Except.ok.injEq, RejectedN.mk.injEq, true_and, and_true]
        rw [List.map_set]
        congr 1
        simp only [num, Img.zipWith, Img.map, Img.mk.injEq, true_and]
        rw [List.map_zipWith, List.zipWith_map_right]
        congr 1
        funext bad v
        cases bad <;> rfl
      · rw [if_pos h, if_pos (show ¬ ((num (wt.map (max · 0))).nr = (num im).nr ∧ (num (wt.map (max · 0))).nc = (num im).nc) from h)]
        rfl

/-- **C103** Without NaN the function is that of C33 and C34, in all cases. -/
theorem C103_without_nan (sqrt : K → K) (nsigma A : K) (ims wts : List (Img K)) :
    rejectOutliersN sqrt nsigma A (ims.map num) (wts.map num) = (rejectOutliers sqrt nsigma A ims wts >>= fun r => .ok r.num) := by
  unfold rejectOutliersN rejectOutliers
  rw [List.length_map]
  split
  · rfl
  cases ims with
  | nil => rfl
  | cons im0 t =>
    simp only [List.map_cons]
    have e : ∀ im0 : Img K, (num im0 :: t.map num).any (fun im => decide (¬ (im.nr = (num im0).nr ∧ im.nc = (num im0).nc))) =
        (im0 :: t).any (fun im => decide (¬ (im.nr = im0.nr ∧ im.nc = im0.nc))) := by
      intro im0
      rw [← List.map_cons, List.any_map]
      rfl
    rw [e]
    split
    · rfl
    have hm := medianImageN_num (im0.nr, im0.nc) (im0 :: t)
    rw [List.map_cons] at hm
    rw [show ((num im0).nr, (num im0).nc) = (im0.nr, im0.nc) from rfl, hm]
    have key : ∀ (l : List Nat) (st : Rejected K), foldRes (stepN sqrt nsigma A (num (medianImage (im0.nr, im0.nc) (im0 :: t)))) st.num l =
        (foldRes (step sqrt nsigma A (medianImage (im0.nr, im0.nc) (im0 :: t))) st l >>= fun r => .ok r.num) := by
      intro l
      induction l with
      | nil => intro st; rfl
      | cons i l ih =>
        intro st
        simp only [foldRes]
        rw [stepN_num]
        cases step sqrt nsigma A (medianImage (im0.nr, im0.nc) (im0 :: t)) st i with
        | error e => rfl
        | ok st' => exact ih st'
    have := key (List.range (im0 :: t).length) ⟨im0 :: t, wts, 0⟩
    simpa [Rejected.num] using this

end Agree

/-- **C103** is false: a cosmic ray of 1000 errors in the third epoch is rejected, and is not when a masked pixel of another epoch is NaN. -/
theorem C103_counterexample :
    rejectOutliersN exSqrt 5 (3 / 10) [⟨1, 1, [some 1]⟩, ⟨1, 1, [some 2]⟩, ⟨1, 1, [some 1000]⟩, ⟨1, 1, [some 1]⟩] [⟨1, 1, [some 1]⟩, ⟨1, 1, [some 1]⟩, ⟨1, 1, [some 1]⟩, ⟨1, 1, [some 0]⟩] =
      .ok ⟨[⟨1, 1, [some 1]⟩, ⟨1, 1, [some 2]⟩, ⟨1, 1, [some 1000]⟩, ⟨1, 1, [some 1]⟩], [⟨1, 1, [some 1]⟩, ⟨1, 1, [some 1]⟩, ⟨1, 1, [some 0]⟩, ⟨1, 1, [some 0]⟩], 1⟩ ∧
    rejectOutliersN exSqrt 5 (3 / 10) [⟨1, 1, [some 1]⟩, ⟨1, 1, [some 2]⟩, ⟨1, 1, [some 1000]⟩, ⟨1, 1, [none]⟩] [⟨1, 1, [some 1]⟩, ⟨1, 1, [some 1]⟩, ⟨1, 1, [some 1]⟩, ⟨1, 1, [some 0]⟩] =
      .ok ⟨[⟨1, 1, [some 1]⟩, ⟨1, 1, [some 2]⟩, ⟨1, 1, [some 1000]⟩, ⟨1, 1, [none]⟩], [⟨1, 1, [some 1]⟩, ⟨1, 1, [some 1]⟩, ⟨1, 1, [some 1]⟩, ⟨1, 1, [some 0]⟩], 0⟩ := by
  decide +kernel

-- a stack that meets the hypotheses, with NaN in an image and in a weight
example : StackN [(⟨1, 2, [some 1, none]⟩, ⟨1, 2, [some 4, some 4]⟩), (⟨1, 2, [some 100, some 2]⟩, ⟨1, 2, [some 4, none]⟩), (⟨1, 2, [some 2, some 5]⟩, ⟨1, 2, [some 4, some (-1)]⟩)] 1 2 := by
  intro p hp
  simp only [List.mem_cons, List.not_mem_nil, or_false] at hp
  rcases hp with rfl | rfl | rfl <;> simp [Img.WF]

end Meds.Reject
