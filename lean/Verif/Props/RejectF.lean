import Verif.Lemmas.RejectF

/-!
# Outlier rejection with rounding (C107)

`SqrtAccurate` and `Beyond` (`Lemmas/RejectF`), `IsMedian` and `Outlier` (`Spec/Reject`) are the specification.
-/

namespace Meds
open Spec

namespace Reject

/-! ### The loop -/

/-- What one turn of the loop leaves in a weight array. -/
def newWtF (rt : Nat → ℚ → ℚ) (nsigma A : ℚ) (med : Img ℚ) (p : PixArr × PixArr) : PixArr :=
  (p.2.1, Img.zipWith (fun bad v => if bad then 0 else v) (outlierF rt nsigma A med p.1.1 p.2.1 p.1.2 (p.2.2.map (max · 0))) (p.2.2.map (max · 0)))

def newCountF (rt : Nat → ℚ → ℚ) (nsigma A : ℚ) (med : Img ℚ) (p : PixArr × PixArr) : Nat :=
  (outlierF rt nsigma A med p.1.1 p.2.1 p.1.2 (p.2.2.map (max · 0))).flat.count true

theorem outlierF_get {rt : Nat → ℚ → ℚ} {nsigma A : ℚ} {ki kw : PixType} {med im wt : Img ℚ} (h1 : med.nr = im.nr) (h2 : med.nc = im.nc) (h3 : wt.nr = im.nr) (h4 : wt.nc = im.nc)
    {i j : Nat} {m x w : ℚ} (hm : med.get? i j = some m) (hx : im.get? i j = some x) (hw : wt.get? i j = some w) :
    (outlierF rt nsigma A med ki kw im wt).get? i j = some (testF rt nsigma A ki kw m x w) := by
  unfold outlierF
  simp only
  have a1 := Img.zipWith_get? h1.symm h2.symm (fun a b : ℚ => inPlace ki .f8 (a - b)) i j hx hm
  have a2 := Img.zipWith_get? rfl rfl (fun a b : ℚ => inPlace ki ki (a * b)) i j a1 a1
  have a3 := Img.zipWith_get? (a := Img.zipWith (fun a b : ℚ => inPlace ki ki (a * b)) (Img.zipWith (fun a b : ℚ => inPlace ki .f8 (a - b)) im med)
    (Img.zipWith (fun a b : ℚ => inPlace ki .f8 (a - b)) im med)) h3.symm h4.symm (fun a b : ℚ => inPlace ki kw (a * b)) i j a2 hw
  have b1 : ((med.map (fun m => |m|)).map (fun v => inPlace .f8 .f8 (v * A))).get? i j = some (inPlace .f8 .f8 (|m| * A)) := by
    rw [Img.map_get?, Img.map_get?, hm]; rfl
  have b2 : (wt.map (rt kw.bits)).get? i j = some (rt kw.bits w) := by rw [Img.map_get?, hw]; rfl
  have b3 := Img.zipWith_get? (a := (med.map (fun m => |m|)).map (fun v => inPlace .f8 .f8 (v * A))) (b := wt.map (rt kw.bits)) (h1.trans h3.symm) (h2.trans h4.symm)
    (fun a b : ℚ => inPlace .f8 kw (a * b)) i j b1 b2
  have b4 : ((Img.zipWith (fun a b : ℚ => inPlace .f8 kw (a * b)) ((med.map (fun m => |m|)).map (fun v => inPlace .f8 .f8 (v * A))) (wt.map (rt kw.bits))).map
      (fun v => inPlace .f8 .f8 (v + nsigma))).get? i j = some (inPlace .f8 .f8 (inPlace .f8 kw (inPlace .f8 .f8 (|m| * A) * rt kw.bits w) + nsigma)) := by
    rw [Img.map_get?, b3]; rfl
  have b5 := Img.zipWith_get? rfl rfl (fun a b : ℚ => inPlace .f8 .f8 (a * b)) i j b4 b4
  exact Img.zipWith_get? (by simpa [Img.zipWith, Img.map] using h1.symm) (by simpa [Img.zipWith, Img.map] using h2.symm) (fun c m : ℚ => decide (m < c)) i j a3 b5

theorem outlierF_WF {rt : Nat → ℚ → ℚ} {nsigma A : ℚ} {ki kw : PixType} {med im wt : Img ℚ} (h1 : med.nr = im.nr) (h2 : med.nc = im.nc) (h3 : wt.nr = im.nr) (h4 : wt.nc = im.nc)
    (hm : med.WF) (hi : im.WF) (hw : wt.WF) : (outlierF rt nsigma A med ki kw im wt).WF := by
  have e1 : med.flat.length = im.nr * im.nc := by rw [hm, h1, h2]
  have e2 : wt.flat.length = im.nr * im.nc := by rw [hw, h3, h4]
  have e3 : im.flat.length = im.nr * im.nc := hi
  simp [Img.WF, outlierF, Img.zipWith, Img.map, e1, e2, e3]

/-- The median image. -/
def medOfF (ps : List (PixArr × PixArr)) (nr nc : Nat) : Img ℚ := medianImageF (nr, nc) (ps.map (·.1))

/-- A stack of images and weights of floats, of one shape; the two types may differ from pair to pair. -/
def StackF (ps : List (PixArr × PixArr)) (nr nc : Nat) : Prop :=
  ∀ p ∈ ps, p.1.1.isInt = false ∧ p.2.1.isInt = false ∧ p.1.2.WF ∧ p.2.2.WF ∧ p.1.2.nr = nr ∧ p.1.2.nc = nc ∧ p.2.2.nr = nr ∧ p.2.2.nc = nc

theorem loopF {rt : Nat → ℚ → ℚ} {nsigma A : ℚ} {ps : List (PixArr × PixArr)} {nr nc : Nat} (med : Img ℚ) :
    ∀ j ≤ ps.length, StackF (ps.take j) nr nc → foldRes (stepF rt nsigma A med) ⟨ps.map (·.1), ps.map (·.2), 0⟩ (List.range j) =
      .ok ⟨ps.map (·.1), (ps.take j).map (newWtF rt nsigma A med) ++ (ps.drop j).map (·.2), ((ps.take j).map (newCountF rt nsigma A med)).sum⟩ := by
  intro j
  induction j with
  | zero => intro _ _; simp [foldRes]
  | succ j ih =>
    intro hj hs
    have hj' : j < ps.length := by omega
    have ht : ps.take (j + 1) = ps.take j ++ [ps[j]] := List.take_succ_eq_append_getElem hj'
    rw [List.range_succ, foldRes_append, ih (by omega) (fun p hp => hs p (by rw [ht]; exact List.mem_append_left _ hp))]
    simp only [Res.ok_bind, foldRes]
    have hp : ps[j]? = some ps[j] := List.getElem?_eq_getElem hj'
    obtain ⟨t1, t2, _, _, q1, q2, q3, q4⟩ := hs ps[j] (by rw [ht]; exact List.mem_append_right _ (List.mem_singleton_self _))
    have hd : ps.drop j = ps[j] :: ps.drop (j + 1) := List.drop_eq_getElem_cons hj'
    have hlen : ((ps.take j).map (newWtF rt nsigma A med)).length = j := by simp; omega
    have g1 : pyGet (ps.map (·.1)) (j : Int) = .ok ps[j].1 := pyGet_nat_some (by rw [List.getElem?_map, hp]; rfl)
    have g2 : pyGet ((ps.take j).map (newWtF rt nsigma A med) ++ (ps.drop j).map (·.2)) (j : Int) = .ok ps[j].2 := by
      apply pyGet_nat_some
      rw [List.getElem?_append_right (by omega), hlen, hd, Nat.sub_self, List.map_cons]
      rfl
    unfold stepF
    simp only [g1, g2, Res.ok_bind, t1, t2, Bool.false_eq_true, if_false]
    rw [if_neg (by simp [Img.map, q1, q2, q3, q4])]
    simp only [Except.ok.injEq, RejectedF.mk.injEq, true_and]
    constructor
    · rw [List.set_append_right _ _ (by omega), hlen, hd, ht, Nat.sub_self, List.map_cons, List.set_cons_zero, List.map_append, List.append_assoc]
      rfl
    · rw [ht, List.map_append, List.sum_append]
      rfl

theorem runF {rt : Nat → ℚ → ℚ} {nsigma A : ℚ} {ps : List (PixArr × PixArr)} {nr nc : Nat} (hs : StackF ps nr nc) (h3 : 3 ≤ ps.length) :
    rejectOutliersF rt nsigma A (ps.map (·.1)) (ps.map (·.2)) =
      .ok ⟨ps.map (·.1), ps.map (newWtF rt nsigma A (medOfF ps nr nc)), (ps.map (newCountF rt nsigma A (medOfF ps nr nc))).sum⟩ := by
  unfold rejectOutliersF
  rw [if_neg (by simp; omega)]
  cases ps with
  | nil => simp at h3
  | cons p t =>
    simp only [List.map_cons]
    obtain ⟨_, _, _, _, q1, q2, q3, q4⟩ := hs p (by simp)
    rw [if_neg]
    · have := loopF (rt := rt) (nsigma := nsigma) (A := A) (nr := nr) (nc := nc) (medOfF (p :: t) nr nc) (p :: t).length (le_refl _) (by rw [List.take_length]; exact hs)
      rw [q1, q2]
      simp only [List.take_length, List.drop_length, List.map_nil, List.append_nil] at this
      simpa [medOfF] using this
    · rw [List.any_eq_true]
      rintro ⟨im, him, hd⟩
      rw [← List.map_cons (f := fun q : PixArr × PixArr => q.1), List.mem_map] at him
      obtain ⟨b, hb, rfl⟩ := him
      obtain ⟨_, _, _, _, r1, r2, _⟩ := hs b hb
      exact (of_decide_eq_true hd) ⟨by rw [r1, q1], by rw [r2, q2]⟩

/-- The values of one pixel in all the images. -/
def column (ps : List (PixArr × PixArr)) (a b : Nat) : List ℚ := ps.filterMap (fun p => p.1.2.get? a b)

theorem column_length {ps : List (PixArr × PixArr)} {nr nc : Nat} (hs : StackF ps nr nc) {a b : Nat} (ha : a < nr) (hb : b < nc) : (column ps a b).length = ps.length := by
  unfold column
  induction ps with
  | nil => rfl
  | cons p t ih =>
    obtain ⟨_, _, q0, _, q1, q2, _⟩ := hs p (by simp)
    obtain ⟨v, hv⟩ := Img.get?_some_of_WF q0 (i := a) (j := b) (by omega) (by omega)
    rw [List.filterMap_cons, hv]
    simp only [List.length_cons]
    rw [ih (fun x hx => hs x (by simp [hx]))]

theorem newWtF_get {rt : Nat → ℚ → ℚ} {nsigma A : ℚ} {ps : List (PixArr × PixArr)} {nr nc : Nat} (hs : StackF ps nr nc) {p : PixArr × PixArr} (hp : p ∈ ps)
    {a b : Nat} {x w : ℚ} (hx : p.1.2.get? a b = some x) (hw : p.2.2.get? a b = some w) :
    (newWtF rt nsigma A (medOfF ps nr nc) p).2.get? a b =
      some (if testF rt nsigma A p.1.1 p.2.1 (medianF (column ps a b)) x (max w 0) then 0 else max w 0) := by
  obtain ⟨_, _, q1, q2, q3, q4, q5, q6⟩ := hs p hp
  have hlt := Img.get?_lt hx
  have ha : a < nr := by omega
  have hb : b < nc := by omega
  have hm : (medOfF ps nr nc).get? a b = some (medianF (column ps a b)) := by
    unfold medOfF medianImageF column
    rw [Img.ofFn_get? _ ha hb, List.filterMap_map]
    rfl
  have hw' : (p.2.2.map (max · 0)).get? a b = some (max w 0) := by rw [Img.map_get?, hw]; rfl
  have ho := outlierF_get (rt := rt) (nsigma := nsigma) (A := A) (ki := p.1.1) (kw := p.2.1) (med := medOfF ps nr nc) (im := p.1.2) (wt := p.2.2.map (max · 0))
    (by simp [medOfF, medianImageF, q3]) (by simp [medOfF, medianImageF, q4]) (by simp [Img.map, q3, q5]) (by simp [Img.map, q4, q6]) hm hx hw'
  unfold newWtF
  rw [Img.zipWith_get? (by show p.1.2.nr = p.2.2.nr; rw [q3, q5]) (by show p.1.2.nc = p.2.2.nc; rw [q4, q6]) _ a b ho hw']

theorem medianF_perm {l l' : List ℚ} (h : l.Perm l') : medianF l = medianF l' := by
  have e : l.insertionSort (· ≤ ·) = l'.insertionSort (· ≤ ·) :=
    List.Perm.eq_of_pairwise' (List.pairwise_insertionSort _ _) (List.pairwise_insertionSort _ _)
      ((List.perm_insertionSort _ _).trans (h.trans (List.perm_insertionSort _ _).symm))
  unfold medianF
  simp only [e, h.length_eq]

theorem isMedian_cast {l : List ℚ} {m : ℚ} (h : IsMedian l m) : IsMedian (l.map (fun q : ℚ => (q : ℝ))) (m : ℝ) := by
  obtain ⟨s, p, q, x, y, hx, hy, rfl⟩ := h
  refine ⟨s.map (fun q : ℚ => (q : ℝ)), p.map _, ?_, x, y, ?_, ?_, by push_cast; ring⟩
  · rw [List.pairwise_map]
    exact q.imp (fun h => by exact_mod_cast h)
  · rw [List.length_map, List.getElem?_map, hx]; rfl
  · rw [List.length_map, List.getElem?_map, hy]; rfl

theorem beyond_mono {f g n A m x w : ℝ} (hfg : f ≤ g) (hn : 0 ≤ n) (hA : 0 ≤ A) (h : Beyond g n A m x w) : Beyond f n A m x w := by
  refine ⟨h.1, lt_of_le_of_lt ?_ h.2⟩
  exact mul_le_mul_of_nonneg_right hfg (by positivity)

theorem beyond_one {n A m x w : ℝ} : Beyond 1 n A m x w ↔ Outlier n A m x w := by
  unfold Beyond Outlier
  rw [one_mul]

end Reject

namespace Spec
open Reject

/-- No pixel of the stack lies so near the threshold that rounding could decide: none is beyond the threshold with the factor `1 - 2^-18` without being so with
the factor `1 + 2^-18`, the median being the exact one. -/
def NoneBorderline (nsigma A : ℝ) (ps : List (PixArr × PixArr)) : Prop :=
  ∀ p ∈ ps, ∀ a b (x w m : ℚ), p.1.2.get? a b = some x → p.2.2.get? a b = some w → IsMedian (ps.filterMap (fun q => q.1.2.get? a b)) m →
    Beyond (1 - 1 / 2 ^ 18) nsigma A m x w → Beyond (1 + 1 / 2 ^ 18) nsigma A m x w

/-- Number of positive weights that became zero. -/
def zeroedF (before after : PixArr) : Nat := (before.2.flat.zip after.2.flat).countP (fun p => decide (0 < p.1 ∧ p.2 = 0))

/-- The exact numbers of a floating point array. -/
noncomputable def exactly (a : PixArr) : Img ℝ := a.2.map (fun q : ℚ => (q : ℝ))

end Spec

namespace Reject
open Spec

theorem countF_zeroed {test : ℚ → ℚ → ℚ → Bool} (ht : ∀ m x w, test m x (max w 0) = true → 0 < w) : ∀ (ms xs ws : List ℚ), ms.length = ws.length → xs.length = ws.length →
    (List.zipWith (fun (xm : ℚ × ℚ) w => test xm.2 xm.1 w) (xs.zip ms) (ws.map (max · 0))).count true =
    (ws.zip (List.zipWith (fun bad v => if bad then 0 else v) (List.zipWith (fun (xm : ℚ × ℚ) w => test xm.2 xm.1 w) (xs.zip ms) (ws.map (max · 0))) (ws.map (max · 0)))).countP
      (fun p => decide (0 < p.1 ∧ p.2 = 0)) := by
  intro ms xs ws
  induction ws generalizing ms xs with
  | nil => intro _ _; simp
  | cons w ws ih =>
    intro h1 h2
    cases ms with
    | nil => simp at h1
    | cons m ms =>
      cases xs with
      | nil => simp at h2
      | cons x xs =>
        simp only [List.map_cons, List.zip_cons_cons, List.zipWith_cons_cons, List.count_cons, List.countP_cons]
        rw [ih ms xs (by simpa using h1) (by simpa using h2)]
        congr 1
        by_cases hb : test m x (max w 0) = true
        · have := ht m x w hb
          simp [hb, this]
        · rw [Bool.not_eq_true] at hb
          simp only [hb, beq_iff_eq, Bool.false_eq_true, if_false, decide_eq_true_eq]
          rw [if_neg]
          rintro ⟨h3, h4⟩
          rw [max_eq_left h3.le] at h4
          linarith

theorem newCountF_zeroed {rt : Nat → ℚ → ℚ} {nsigma A : ℚ} {p : PixArr × PixArr} {med : Img ℚ} (h1 : med.flat.length = p.2.2.flat.length)
    (h2 : p.1.2.flat.length = p.2.2.flat.length) : newCountF rt nsigma A med p = zeroedF p.2 (newWtF rt nsigma A med p) := by
  have key := countF_zeroed (test := fun m x w => testF rt nsigma A p.1.1 p.2.1 m x w) (by
    intro m x w h
    by_contra hw
    rw [max_eq_right (not_lt.mp hw)] at h
    unfold testF at h
    simp only [mul_zero, decide_eq_true_eq] at h
    have e : inPlace p.1.1 p.2.1 0 = 0 := by unfold inPlace; rw [rndP_zero, rndP_zero]
    rw [e] at h
    have hf := (inPlace_fac .f8 .f8 (inPlace .f8 .f8 (inPlace .f8 p.2.1 (inPlace .f8 .f8 (|m| * A) * rt p.2.1.bits 0) + nsigma) *
      inPlace .f8 .f8 (inPlace .f8 p.2.1 (inPlace .f8 .f8 (|m| * A) * rt p.2.1.bits 0) + nsigma))).bounds (by rw [Rat.cast_mul]; exact mul_self_nonneg _)
    have h0 : (0 : ℝ) ≤ _ := le_trans (mul_nonneg (by rw [Rat.cast_mul]; exact mul_self_nonneg _) (low_nonneg 1)) hf.1
    have h' := (Rat.cast_lt (K := ℝ)).mpr h
    rw [Rat.cast_zero] at h'
    linarith) med.flat p.1.2.flat p.2.2.flat h1 h2
  have e : (outlierF rt nsigma A med p.1.1 p.2.1 p.1.2 (p.2.2.map (max · 0))).flat =
      List.zipWith (fun (xm : ℚ × ℚ) w => testF rt nsigma A p.1.1 p.2.1 xm.2 xm.1 w) (p.1.2.flat.zip med.flat) (p.2.2.flat.map (max · 0)) := by
    apply List.ext_getElem?
    intro k
    simp only [outlierF, Img.zipWith, Img.map, List.getElem?_zipWith, List.getElem?_map, List.zip, testF]
    cases p.1.2.flat[k]? <;> cases med.flat[k]? <;> cases p.2.2.flat[k]? <;> simp
  unfold newCountF zeroedF newWtF
  simp only [Img.zipWith] at e ⊢
  rw [e]
  exact key

/-! ### The property -/

/-- **C107** Rejection on arrays of floats (images and weights in single or double precision): a weight becomes zero when its pixel is beyond the documented threshold
by the relative amount `2^-18`, and is clipped at zero when it is not beyond the threshold less this amount.  Nothing else becomes of a weight.  The images stay, and the
return value is the number of positive weights that became zero. -/
theorem C107_criterion {rt : Nat → ℚ → ℚ} (hrt : SqrtAccurate rt) {nsigma A : ℚ} (hn : 0 ≤ nsigma) (hA : 1 / 2 ^ 30 ≤ A) {ps : List (PixArr × PixArr)} {nr nc : Nat}
    (hs : StackF ps nr nc) (h3 : 3 ≤ ps.length) :
    ∃ r, rejectOutliersF rt nsigma A (ps.map (·.1)) (ps.map (·.2)) = .ok r ∧ r.ims = ps.map (·.1) ∧ r.wts.length = ps.length ∧
      (∀ (k : Nat) p wt', ps[k]? = some p → r.wts[k]? = some wt' → wt'.1 = p.2.1 ∧ wt'.2.WF ∧ wt'.2.nr = nr ∧ wt'.2.nc = nc ∧
        ∀ a b x w, p.1.2.get? a b = some x → p.2.2.get? a b = some w →
          ∃ m, IsMedian (ps.filterMap (fun q => q.1.2.get? a b)) m ∧ ∃ w', wt'.2.get? a b = some w' ∧ (w' = 0 ∨ w' = max w 0) ∧
            (Beyond (1 + 1 / 2 ^ 18) nsigma A m x w → w' = 0) ∧ (¬ Beyond (1 - 1 / 2 ^ 18) nsigma A m x w → w' = max w 0)) ∧
      r.nreject = (List.zipWith zeroedF (ps.map (·.2)) r.wts).sum := by
  refine ⟨_, runF hs h3, rfl, by simp, ?_, ?_⟩
  · intro k p wt' hk hk'
    simp only [List.getElem?_map, hk, Option.map_some, Option.some.injEq] at hk'
    subst hk'
    have hp := List.mem_of_getElem? hk
    obtain ⟨_, _, q1, q2, q3, q4, q5, q6⟩ := hs p hp
    refine ⟨rfl, ?_, q3, q4, ?_⟩
    · unfold newWtF
      refine Img.zipWith_WF (outlierF_WF ?_ ?_ ?_ ?_ (Img.ofFn_WF _ _ _) q1 (Img.map_WF q2 _)) (Img.map_WF q2 _) ?_ ?_ _
      · exact q3.symm
      · exact q4.symm
      · exact q5.trans q3.symm
      · exact q6.trans q4.symm
      · exact q3.trans q5.symm
      · exact q4.trans q6.symm
    · intro a b x w hx hw
      have hlt := Img.get?_lt hx
      have hne : column ps a b ≠ [] := by
        intro h
        have := column_length hs (a := a) (b := b) (by omega) (by omega)
        rw [h] at this
        simp at this
        omega
      refine ⟨median (column ps a b), isMedian_median hne, _, newWtF_get hs hp hx hw, ?_, ?_⟩
      · split <;> simp
      · obtain ⟨t1, t2⟩ := testF_pixel hrt hn hA p.1.1 p.2.1 (x := x) (w := w) (medianF_error (column ps a b))
        exact ⟨fun h => by rw [t1 h, if_pos rfl], fun h => by rw [t2 h, if_neg (by simp)]⟩
  · simp only
    congr 1
    rw [List.zipWith_map, List.zipWith_self]
    apply List.map_congr_left
    intro p hp
    obtain ⟨_, _, q1, q2, q3, q4, q5, q6⟩ := hs p hp
    apply newCountF_zeroed
    · rw [q2, q5, q6]; exact Img.ofFn_flat_length _ _ _
    · rw [q1, q2, q3, q4, q5, q6]

theorem exactly_get {a : PixArr} {i j : Nat} : (exactly a).get? i j = (a.2.get? i j).map (fun q : ℚ => (q : ℝ)) := Img.map_get? _ _ _ _

theorem zeroedF_exact (before after : PixArr) : zeroed (exactly before) (exactly after) = zeroedF before after := by
  unfold zeroed zeroedF exactly Img.map
  rw [List.zip_map, List.countP_map]
  apply List.countP_congr
  intro p _
  simp only [Function.comp, Prod.map, decide_eq_true_eq, Rat.cast_pos, Rat.cast_eq_zero]

theorem newWtF_exact {rt : Nat → ℚ → ℚ} (hrt : SqrtAccurate rt) {nsigma A : ℚ} (hn : 0 ≤ nsigma) (hA : 1 / 2 ^ 30 ≤ A) {ps : List (PixArr × PixArr)} {nr nc : Nat}
    (hs : StackF ps nr nc) (hb : NoneBorderline nsigma A ps) (hs' : Stack (ps.map (fun p => (exactly p.1, exactly p.2))) nr nc) {p : PixArr × PixArr} (hp : p ∈ ps) :
    exactly (newWtF rt nsigma A (medOfF ps nr nc) p) =
      newWt nsigma A (medOf (ps.map (fun p => (exactly p.1, exactly p.2))) nr nc) (exactly p.1, exactly p.2) := by
  have hA0 : (0 : ℝ) ≤ A := by exact_mod_cast le_trans (by positivity) hA
  have hn0 : (0 : ℝ) ≤ nsigma := by exact_mod_cast hn
  obtain ⟨_, _, q1, q2, q3, q4, q5, q6⟩ := hs p hp
  have hp' : (exactly p.1, exactly p.2) ∈ ps.map (fun p => (exactly p.1, exactly p.2)) := List.mem_map_of_mem hp
  obtain ⟨r1, r2, r3, r4, r5, r6⟩ := hs' _ hp'
  have w1 : (newWtF rt nsigma A (medOfF ps nr nc) p).2.WF := by
    unfold newWtF
    refine Img.zipWith_WF (outlierF_WF ?_ ?_ ?_ ?_ (Img.ofFn_WF _ _ _) q1 (Img.map_WF q2 _)) (Img.map_WF q2 _) ?_ ?_ _
    exacts [q3.symm, q4.symm, q5.trans q3.symm, q6.trans q4.symm, q3.trans q5.symm, q4.trans q6.symm]
  have w2 : (newWt nsigma A (medOf (ps.map (fun p => (exactly p.1, exactly p.2))) nr nc) (exactly p.1, exactly p.2)).WF := by
    unfold newWt
    refine Img.zipWith_WF (outlier_WF ?_ ?_ ?_ ?_ (Img.ofFn_WF _ _ _) r1 (Img.map_WF r2 _)) (Img.map_WF r2 _) ?_ ?_ _
    exacts [r3.symm, r4.symm, r5.trans r3.symm, r6.trans r4.symm, r3.trans r5.symm, r4.trans r6.symm]
  refine Img.ext_get (Img.map_WF w1 _) w2 (show p.1.2.nr = p.1.2.nr from rfl) (show p.1.2.nc = p.1.2.nc from rfl) ?_
  intro a b ha hb'
  have ha : a < p.1.2.nr := ha
  have hb' : b < p.1.2.nc := hb'
  obtain ⟨x, hx⟩ := Img.get?_some_of_WF q1 (i := a) (j := b) ha hb'
  obtain ⟨w, hw⟩ := Img.get?_some_of_WF q2 (i := a) (j := b) (by omega) (by omega)
  have hx' : (exactly p.1).get? a b = some (x : ℝ) := by rw [exactly_get, hx]; rfl
  have hw' : (exactly p.2).get? a b = some (w : ℝ) := by rw [exactly_get, hw]; rfl
  obtain ⟨m, m1, _, m3⟩ := newWt_get hn0 hA0 hs' hp' hx' hw'
  rw [m3, exactly_get, newWtF_get hs hp hx hw]
  have hne : column ps a b ≠ [] := by
    intro h
    have := column_length hs (a := a) (b := b) (by omega) (by omega)
    rw [h] at this
    have h0 : 0 < ps.length := List.length_pos_of_mem hp
    simp at this
    omega
  have hmed : IsMedian (column ps a b) (median (column ps a b)) := isMedian_median hne
  have hcol : (ps.map (fun p => (exactly p.1, exactly p.2))).filterMap (fun q => q.1.get? a b) = (column ps a b).map (fun q : ℚ => (q : ℝ)) := by
    unfold column
    rw [List.filterMap_map, List.map_filterMap]
    apply List.filterMap_congr
    intro q _
    simp only [Function.comp, exactly_get]
  rw [hcol] at m1
  have hm : m = (median (column ps a b) : ℚ) := isMedian_unique (List.Perm.refl _) m1 (isMedian_cast hmed)
  subst hm
  obtain ⟨t1, t2⟩ := testF_pixel hrt hn hA p.1.1 p.2.1 (x := x) (w := w) (medianF_error (column ps a b))
  by_cases ho : Outlier nsigma A (median (column ps a b) : ℚ) x w
  · rw [if_pos ho, t1 (hb p hp a b x w _ hx hw hmed (beyond_mono (by norm_num) hn0 hA0 (beyond_one.mpr ho)))]
    simp
  · have : ¬ Beyond (1 - 1 / 2 ^ 18) nsigma A (median (column ps a b) : ℚ) x w := by
      intro h
      exact ho (beyond_one.mp (beyond_mono (by norm_num) hn0 hA0 (hb p hp a b x w _ hx hw hmed h)))
    rw [if_neg ho, t2 this]
    simp

/-- **C107** When no pixel lies next to its threshold, rejection on floats gives the weights and the count of the exact computation (about which C33 speaks). -/
theorem C107_same {rt : Nat → ℚ → ℚ} (hrt : SqrtAccurate rt) {nsigma A : ℚ} (hn : 0 ≤ nsigma) (hA : 1 / 2 ^ 30 ≤ A) {ps : List (PixArr × PixArr)} {nr nc : Nat}
    (hs : StackF ps nr nc) (h3 : 3 ≤ ps.length) (hb : NoneBorderline nsigma A ps) :
    ∃ r r', rejectOutliersF rt nsigma A (ps.map (·.1)) (ps.map (·.2)) = .ok r ∧
      rejectOutliers Real.sqrt nsigma A (ps.map (fun p => exactly p.1)) (ps.map (fun p => exactly p.2)) = .ok r' ∧
      r.wts.map exactly = r'.wts ∧ r.nreject = r'.nreject := by
  have hA0 : (0 : ℝ) ≤ A := by exact_mod_cast le_trans (by positivity) hA
  have hn0 : (0 : ℝ) ≤ nsigma := by exact_mod_cast hn
  have hs' : Stack (ps.map (fun p => (exactly p.1, exactly p.2))) nr nc := by
    intro q hq
    obtain ⟨p, hp, rfl⟩ := List.mem_map.mp hq
    obtain ⟨_, _, q1, q2, q3, q4, q5, q6⟩ := hs p hp
    exact ⟨Img.map_WF q1 _, Img.map_WF q2 _, q3, q4, q5, q6⟩
  have e1 : ps.map (fun p => exactly p.1) = (ps.map (fun p => (exactly p.1, exactly p.2))).map (·.1) := by rw [List.map_map]; rfl
  have e2 : ps.map (fun p => exactly p.2) = (ps.map (fun p => (exactly p.1, exactly p.2))).map (·.2) := by rw [List.map_map]; rfl
  refine ⟨_, _, runF hs h3, by rw [e1, e2]; exact run hs' (by simpa using h3), ?_, ?_⟩
  · simp only [List.map_map]
    exact List.map_congr_left (fun p hp => newWtF_exact hrt hn hA hs hb hs' hp)
  · simp only [List.map_map]
    congr 1
    apply List.map_congr_left
    intro p hp
    obtain ⟨_, _, q1, q2, q3, q4, q5, q6⟩ := hs p hp
    rw [newCountF_zeroed (by rw [q2, q5, q6]; exact Img.ofFn_flat_length _ _ _) (by rw [q1, q2, q3, q4, q5, q6]), ← zeroedF_exact,
      newWtF_exact hrt hn hA hs hb hs' hp]
    simp only [Function.comp]
    rw [newCount_zeroed]
    · have : (exactly p.2).flat.length = nr * nc := by rw [show (exactly p.2).flat.length = p.2.2.flat.length from List.length_map _, q2, q5, q6]
      rw [this]; exact Img.ofFn_flat_length _ _ _
    · rw [show (exactly p.1).flat.length = p.1.2.flat.length from List.length_map _, show (exactly p.2).flat.length = p.2.2.flat.length from List.length_map _, q1, q2, q3, q4, q5, q6]

/-- **C107** Rounding does not make the result depend on the order of the images: permuting the pairs permutes the weights in the same way (any square root, any `nsigma`
and `A`). -/
theorem C107_order (rt : Nat → ℚ → ℚ) (nsigma A : ℚ) {ps ps' : List (PixArr × PixArr)} {nr nc : Nat} (hs : StackF ps nr nc) (σ : Nat → Nat) (hperm : ps'.Perm ps)
    (hσ : ∀ k < ps'.length, ps'[k]? = ps[σ k]?) :
    ∃ r r', rejectOutliersF rt nsigma A (ps.map (·.1)) (ps.map (·.2)) = .ok r ∧
      rejectOutliersF rt nsigma A (ps'.map (·.1)) (ps'.map (·.2)) = .ok r' ∧
      r'.nreject = r.nreject ∧ r'.wts.length = r.wts.length ∧ ∀ k < ps'.length, r'.wts[k]? = r.wts[σ k]? := by
  have hlen := hperm.length_eq
  by_cases h3 : 3 ≤ ps.length
  · refine ⟨_, _, runF hs h3, runF (fun p hp => hs p (hperm.mem_iff.mp hp)) (by omega), ?_, by simp [hlen], ?_⟩
    all_goals
      have e : medOfF ps' nr nc = medOfF ps nr nc := by
        unfold medOfF medianImageF
        congr 1
        funext i j
        exact medianF_perm ((hperm.map _).filterMap _)
      simp only [e]
    · exact (hperm.map _).sum_eq
    · intro k hk
      rw [List.getElem?_map, List.getElem?_map, hσ k hk]
  · refine ⟨⟨ps.map (·.1), ps.map (·.2), 0⟩, ⟨ps'.map (·.1), ps'.map (·.2), 0⟩, by unfold rejectOutliersF; rw [if_pos (by simp; omega)], by unfold rejectOutliersF; rw [if_pos (by simp; omega)], rfl, by simp [hlen], ?_⟩
    intro k hk
    simp only [List.getElem?_map, hσ k hk]

/-- **C107** An image or a weight array of integers among three or more of one shape: a TypeError. -/
theorem C107_integers (rt : Nat → ℚ → ℚ) (nsigma A : ℚ) {ps : List (PixArr × PixArr)} {nr nc : Nat}
    (hs : ∀ p ∈ ps, p.1.2.WF ∧ p.2.2.WF ∧ p.1.2.nr = nr ∧ p.1.2.nc = nc ∧ p.2.2.nr = nr ∧ p.2.2.nc = nc) (h3 : 3 ≤ ps.length)
    (hi : ∃ p ∈ ps, p.1.1.isInt = true ∨ p.2.1.isInt = true) : rejectOutliersF rt nsigma A (ps.map (·.1)) (ps.map (·.2)) = .error .typeError := by
  classical
  have hex : ∃ j, ∃ h : j < ps.length, ps[j].1.1.isInt = true ∨ ps[j].2.1.isInt = true := by
    obtain ⟨p, hp, h⟩ := hi
    obtain ⟨j, hj, rfl⟩ := List.getElem_of_mem hp
    exact ⟨j, hj, h⟩
  obtain ⟨hj, hbad⟩ := Nat.find_spec hex
  have hmin := fun i (h : i < Nat.find hex) => Nat.find_min hex h
  generalize Nat.find hex = j at hj hbad hmin
  have hpre : StackF (ps.take j) nr nc := by
    intro p hp
    obtain ⟨i, hi', rfl⟩ := List.getElem_of_mem hp
    rw [List.getElem_take]
    simp only [List.length_take] at hi'
    have hlt : i < ps.length := by omega
    have hno := hmin i (by omega)
    obtain ⟨s1, s2, s3, s4, s5, s6⟩ := hs ps[i] (List.getElem_mem hlt)
    refine ⟨?_, ?_, s1, s2, s3, s4, s5, s6⟩
    · by_contra h; exact hno ⟨hlt, Or.inl (by simpa using h)⟩
    · by_contra h; exact hno ⟨hlt, Or.inr (by simpa using h)⟩
  unfold rejectOutliersF
  rw [if_neg (by simp; omega)]
  have hfold : ∀ med, foldRes (stepF rt nsigma A med) ⟨ps.map (·.1), ps.map (·.2), 0⟩ (List.range ps.length) = .error .typeError := by
    intro med
    obtain ⟨n, hn⟩ : ∃ n, ps.length = (j + 1) + n := ⟨ps.length - (j + 1), by omega⟩
    have hstep : foldRes (stepF rt nsigma A med) ⟨ps.map (·.1), ps.map (·.2), 0⟩ (List.range (j + 1)) = .error .typeError := by
      rw [List.range_succ, foldRes_append, loopF (nr := nr) (nc := nc) med j hj.le hpre]
      simp only [Res.ok_bind, foldRes]
      have hp : ps[j]? = some ps[j] := List.getElem?_eq_getElem hj
      have hd : ps.drop j = ps[j] :: ps.drop (j + 1) := List.drop_eq_getElem_cons hj
      have hlen : ((ps.take j).map (newWtF rt nsigma A med)).length = j := by simp; omega
      have g1 : pyGet (ps.map (·.1)) (j : Int) = .ok ps[j].1 := pyGet_nat_some (by rw [List.getElem?_map, hp]; rfl)
      have g2 : pyGet ((ps.take j).map (newWtF rt nsigma A med) ++ (ps.drop j).map (·.2)) (j : Int) = .ok ps[j].2 := by
        apply pyGet_nat_some
        rw [List.getElem?_append_right (by omega), hlen, hd, Nat.sub_self, List.map_cons]
        rfl
      unfold stepF
      simp only [g1, g2, Res.ok_bind]
      by_cases hw : ps[j].2.1.isInt = true
      · rw [if_pos hw]
      · rw [if_neg hw, if_pos (hbad.resolve_right hw)]
    rw [hn, List.range_add, foldRes_append, hstep]
    rfl
  cases ps with
  | nil => simp at h3
  | cons p t =>
    simp only [List.map_cons]
    obtain ⟨_, _, q1, q2, q3, q4⟩ := hs p (by simp)
    rw [if_neg]
    · have := hfold (medianImageF (p.1.2.nr, p.1.2.nc) (p.1 :: t.map (·.1)))
      simpa using this
    · rw [List.any_eq_true]
      rintro ⟨im, him, hd⟩
      rw [← List.map_cons (f := fun q : PixArr × PixArr => q.1), List.mem_map] at him
      obtain ⟨b, hb, rfl⟩ := him
      obtain ⟨_, _, r1, r2, _⟩ := hs b hb
      exact (of_decide_eq_true hd) ⟨by rw [r1, q1], by rw [r2, q2]⟩

/-! ### Why the fraction has to be positive -/

theorem rndP_double {q : ℚ} (h : IsDouble q) : rndP 53 q = q := rndD_double h

theorem inPlace_double {q : ℚ} (h : IsDouble q) : inPlace .f8 .f8 q = q := by
  unfold inPlace
  rw [show workBits .f8 .f8 = 53 from rfl, show PixType.f8.bits = 53 from rfl, rndP_double h, rndP_double h]

/-- Four images of one pixel: twice 1, twice the next double. -/
def exTies : List PixArr := [(.f8, ⟨1, 1, [1]⟩), (.f8, ⟨1, 1, [1]⟩), (.f8, ⟨1, 1, [1 + 1 / 2 ^ 52]⟩), (.f8, ⟨1, 1, [1 + 1 / 2 ^ 52]⟩)]
/-- Weights: errors of `2^-53`. -/
def exHeavy : List PixArr := List.replicate 4 (.f8, ⟨1, 1, [2 ^ 106]⟩)

theorem sum_rounds : rndP 53 (1 + (1 + 1 / 2 ^ 52)) = 2 := by
  have hl : Int.log 2 (1 + (1 + 1 / 2 ^ 52) : ℚ) = 1 := by
    have h1 : (1 : ℤ) ≤ Int.log 2 (1 + (1 + 1 / 2 ^ 52) : ℚ) := by
      rw [← Int.zpow_le_iff_le_log (by norm_num) (by norm_num)]; norm_num
    have h2 : Int.log 2 (1 + (1 + 1 / 2 ^ 52) : ℚ) < 2 := by
      rw [← Int.lt_zpow_iff_log_lt (by norm_num) (by norm_num)]; norm_num
    omega
  unfold rndP Uberseg.rnd
  rw [if_pos (by norm_num), hl]
  have : roundHE ((1 + (1 + 1 / 2 ^ 52)) / (2 : ℚ) ^ ((1 : ℤ) - ((53 : Nat) - 1 : ℤ))) = 2 ^ 52 := by
    have : ((1 + (1 + 1 / 2 ^ 52)) / (2 : ℚ) ^ ((1 : ℤ) - ((53 : Nat) - 1 : ℤ))) = 2 ^ 52 + 1 / 2 := by norm_num
    rw [this]
    decide +kernel
  push_cast at this ⊢
  rw [this]
  norm_num

theorem exTies_median : medianF [1, 1, 1 + 1 / 2 ^ 52, 1 + 1 / 2 ^ 52] = 1 := by
  have e : [1, 1, 1 + 1 / 2 ^ 52, 1 + 1 / 2 ^ 52].insertionSort (fun a b : ℚ => a ≤ b) = [1, 1, 1 + 1 / 2 ^ 52, 1 + 1 / 2 ^ 52] := by decide +kernel
  unfold medianF
  simp only [e]
  rw [if_neg (by decide)]
  show rndP 53 (rndP 53 (1 + (1 + 1 / 2 ^ 52)) / 2) = 1
  rw [sum_rounds]
  have : (2 : ℚ) / 2 = 1 := by norm_num
  rw [this]
  exact rndP_double ⟨1, 0, by decide, by norm_num⟩

theorem exTies_test (rt : Nat → ℚ → ℚ) : testF rt (3 / 2) 0 .f8 .f8 1 1 (2 ^ 106) = false ∧ testF rt (3 / 2) 0 .f8 .f8 1 (1 + 1 / 2 ^ 52) (2 ^ 106) = true := by
  have d0 : inPlace .f8 .f8 0 = 0 := inPlace_double ⟨0, 0, by decide, by norm_num⟩
  have d1 : inPlace .f8 .f8 (3 / 2) = 3 / 2 := inPlace_double ⟨3, -1, by decide, by norm_num⟩
  have d2 : inPlace .f8 .f8 (3 / 2 * (3 / 2)) = 9 / 4 := by
    rw [show (3 / 2 * (3 / 2) : ℚ) = 9 / 4 by norm_num]
    exact inPlace_double ⟨9, -2, by decide, by norm_num⟩
  have d3 : inPlace .f8 .f8 (1 + 1 / 2 ^ 52 - 1) = 1 / 2 ^ 52 := by
    rw [show (1 + 1 / 2 ^ 52 - 1 : ℚ) = 1 / 2 ^ 52 by norm_num]
    exact inPlace_double ⟨1, -52, by decide, by norm_num⟩
  have d4 : inPlace .f8 .f8 (1 / 2 ^ 52 * (1 / 2 ^ 52)) = 1 / 2 ^ 104 := by
    rw [show (1 / 2 ^ 52 * (1 / 2 ^ 52) : ℚ) = 1 / 2 ^ 104 by norm_num]
    exact inPlace_double ⟨1, -104, by decide, by norm_num⟩
  have d5 : inPlace .f8 .f8 (1 / 2 ^ 104 * 2 ^ 106) = 4 := by
    rw [show (1 / 2 ^ 104 * 2 ^ 106 : ℚ) = 4 by norm_num]
    exact inPlace_double ⟨4, 0, by decide, by norm_num⟩
  unfold testF
  simp only [sub_self, d0, mul_zero, zero_mul, zero_add, d1, d2, d3, d4, d5]
  exact ⟨by decide +kernel, by decide +kernel⟩

/-- **C107** Without the fraction of the median the rounding of the median decides: of four images with the values 1, 1, 1 + 2^-52, 1 + 2^-52 and errors of 2^-53, `nsigma = 1.5`
and `A = 0` reject the last two, although all four lie one error from the exact median, well within the threshold. -/
theorem C107_fraction_needed (rt : Nat → ℚ → ℚ) :
    rejectOutliersF rt (3 / 2) 0 exTies exHeavy = .ok ⟨exTies, [(.f8, ⟨1, 1, [2 ^ 106]⟩), (.f8, ⟨1, 1, [2 ^ 106]⟩), (.f8, ⟨1, 1, [0]⟩), (.f8, ⟨1, 1, [0]⟩)], 2⟩ ∧
    ∀ m : ℚ, IsMedian [1, 1, 1 + 1 / 2 ^ 52, 1 + 1 / 2 ^ 52] m → ∀ x ∈ [1, 1, 1 + 1 / 2 ^ 52, (1 + 1 / 2 ^ 52 : ℚ)],
      ¬ Beyond (1 - 1 / 2 ^ 18) (3 / 2 : ℚ) (0 : ℚ) m x (2 ^ 106 : ℚ) := by
  constructor
  · have hs : StackF (exTies.zip exHeavy) 1 1 := by
      intro p hp
      revert p
      decide +kernel
    have h := runF (rt := rt) (nsigma := 3 / 2) (A := 0) hs (by decide)
    have e1 : (exTies.zip exHeavy).map (·.1) = exTies := rfl
    have e2 : (exTies.zip exHeavy).map (·.2) = exHeavy := rfl
    rw [e1, e2] at h
    rw [h]
    have hmed : medOfF (exTies.zip exHeavy) 1 1 = ⟨1, 1, [1]⟩ := by
      show (⟨1, 1, [medianF [1, 1, 1 + 1 / 2 ^ 52, 1 + 1 / 2 ^ 52]]⟩ : Img ℚ) = _
      rw [exTies_median]
    obtain ⟨t1, t2⟩ := exTies_test rt
    have hmax : max (2 ^ 106 : ℚ) 0 = 2 ^ 106 := by decide +kernel
    have o (x : ℚ) : outlierF rt (3 / 2) 0 ⟨1, 1, [1]⟩ .f8 .f8 ⟨1, 1, [x]⟩ (Img.map (max · 0) ⟨1, 1, [2 ^ 106]⟩) =
        ⟨1, 1, [testF rt (3 / 2) 0 .f8 .f8 1 x (max (2 ^ 106) 0)]⟩ := rfl
    have n1 : newWtF rt (3 / 2) 0 ⟨1, 1, [1]⟩ ((.f8, ⟨1, 1, [1]⟩), (.f8, ⟨1, 1, [2 ^ 106]⟩)) = (.f8, ⟨1, 1, [2 ^ 106]⟩) := by
      unfold newWtF
      simp only [o, hmax, t1]
      simp [Img.zipWith, Img.map]
    have n2 : newWtF rt (3 / 2) 0 ⟨1, 1, [1]⟩ ((.f8, ⟨1, 1, [1 + 1 / 2 ^ 52]⟩), (.f8, ⟨1, 1, [2 ^ 106]⟩)) = (.f8, ⟨1, 1, [0]⟩) := by
      unfold newWtF
      simp only [o, hmax, t2]
      simp [Img.zipWith, Img.map]
    have c1 : newCountF rt (3 / 2) 0 ⟨1, 1, [1]⟩ ((.f8, ⟨1, 1, [1]⟩), (.f8, ⟨1, 1, [2 ^ 106]⟩)) = 0 := by
      unfold newCountF
      simp only [o, hmax, t1]
      rfl
    have c2 : newCountF rt (3 / 2) 0 ⟨1, 1, [1]⟩ ((.f8, ⟨1, 1, [1 + 1 / 2 ^ 52]⟩), (.f8, ⟨1, 1, [2 ^ 106]⟩)) = 1 := by
      unfold newCountF
      simp only [o, hmax, t2]
      rfl
    have hz : exTies.zip exHeavy = [((.f8, ⟨1, 1, [1]⟩), (.f8, ⟨1, 1, [2 ^ 106]⟩)), ((.f8, ⟨1, 1, [1]⟩), (.f8, ⟨1, 1, [2 ^ 106]⟩)),
        ((.f8, ⟨1, 1, [1 + 1 / 2 ^ 52]⟩), (.f8, ⟨1, 1, [2 ^ 106]⟩)), ((.f8, ⟨1, 1, [1 + 1 / 2 ^ 52]⟩), (.f8, ⟨1, 1, [2 ^ 106]⟩))] := rfl
    rw [hmed, hz]
    simp only [List.map_cons, List.map_nil, n1, n2, c1, c2]
    rfl
  · intro m hm x hx
    have hm' : m = 1 + 1 / 2 ^ 53 := by
      have h1 : IsMedian ([1, 1, 1 + 1 / 2 ^ 52, 1 + 1 / 2 ^ 52] : List ℚ) (1 + 1 / 2 ^ 53) :=
        ⟨[1, 1, 1 + 1 / 2 ^ 52, 1 + 1 / 2 ^ 52], List.Perm.refl _, by decide +kernel, 1, 1 + 1 / 2 ^ 52, rfl, rfl, by norm_num⟩
      have := isMedian_unique (List.Perm.refl _) (isMedian_cast hm) (isMedian_cast h1)
      exact_mod_cast this
    subst hm'
    rintro ⟨_, h⟩
    have hsq : Real.sqrt ((2 ^ 106 : ℚ) : ℝ) = 2 ^ 53 := by
      push_cast
      rw [show (2 : ℝ) ^ 106 = (2 ^ 53) ^ 2 by norm_num, Real.sqrt_sq (by positivity)]
    rw [hsq] at h
    have hd : |(x : ℝ) - ((1 + 1 / 2 ^ 53 : ℚ) : ℝ)| = 1 / 2 ^ 53 := by
      simp only [List.mem_cons, List.not_mem_nil, or_false] at hx
      rcases hx with rfl | rfl | rfl | rfl
      · push_cast; rw [abs_of_neg (by norm_num)]; norm_num
      · push_cast; rw [abs_of_neg (by norm_num)]; norm_num
      · push_cast; rw [abs_of_pos (by norm_num)]; norm_num
      · push_cast; rw [abs_of_pos (by norm_num)]; norm_num
    rw [hd] at h
    push_cast at h
    norm_num at h

/-! ### Concrete cases -/

/-- There is such a square root. -/
theorem sqrtAccurate_exists : ∃ rt, SqrtAccurate rt := by
  have : ∀ (p : Nat) (w : ℚ), ∃ r : ℚ, 0 ≤ w → |(r : ℝ) - Real.sqrt w| ≤ Real.sqrt w / 2 ^ p := by
    intro p w
    by_cases hw : 0 < w
    · have hs : 0 < Real.sqrt w := Real.sqrt_pos.mpr (by exact_mod_cast hw)
      have hlt : Real.sqrt w < Real.sqrt w + Real.sqrt w / 2 ^ p := lt_add_of_pos_right _ (by positivity)
      obtain ⟨r, r1, r2⟩ := exists_rat_btwn hlt
      exact ⟨r, fun _ => by rw [abs_of_pos (by linarith)]; linarith⟩
    · refine ⟨0, fun h => ?_⟩
      have : w = 0 := le_antisymm (not_lt.mp hw) h
      subst this
      simp
  choose rt h using this
  exact ⟨rt, fun p _ w hw => h p w hw⟩

/-- Three images of one row: single precision images, weights of both types; one high pixel, one negative weight. -/
def exPairs : List (PixArr × PixArr) :=
  [((.f4, ⟨1, 2, [1, 2]⟩), (.f4, ⟨1, 2, [4, 4]⟩)), ((.f4, ⟨1, 2, [100, 2]⟩), (.f8, ⟨1, 2, [4, 4]⟩)), ((.f8, ⟨1, 2, [2, 3]⟩), (.f4, ⟨1, 2, [4, -1]⟩))]

theorem exPairs_stack : StackF exPairs 1 2 := by
  intro p hp
  revert p
  decide +kernel

theorem sqrt_four : Real.sqrt ((4 : ℚ) : ℝ) = 2 := by
  rw [show ((4 : ℚ) : ℝ) = 2 ^ 2 by norm_num, Real.sqrt_sq (by norm_num)]

-- its first pixel is far beyond the threshold in the second image and far below it in the others
example : Beyond (1 + 1 / 2 ^ 18) (5 : ℚ) (3 / 10 : ℚ) (2 : ℚ) (100 : ℚ) (4 : ℚ) ∧ ¬ Beyond (1 - 1 / 2 ^ 18) (5 : ℚ) (3 / 10 : ℚ) (2 : ℚ) (1 : ℚ) (4 : ℚ) := by
  unfold Beyond
  rw [sqrt_four]
  constructor
  · push_cast
    rw [abs_of_pos (by norm_num : (0 : ℝ) < 2), abs_of_pos (by norm_num : (0 : ℝ) < 100 - 2)]
    norm_num
  · rintro ⟨_, h⟩
    push_cast at h
    rw [abs_of_pos (by norm_num : (0 : ℝ) < 2), abs_of_neg (by norm_num : (1 : ℝ) - 2 < 0)] at h
    norm_num at h

-- what the theorem says about that pixel: rejected
example {rt : Nat → ℚ → ℚ} (hrt : SqrtAccurate rt) : ∃ r wt', rejectOutliersF rt 5 (3 / 10) (exPairs.map (·.1)) (exPairs.map (·.2)) = .ok r ∧ r.wts[1]? = some wt' ∧
    wt'.2.get? 0 0 = some 0 := by
  obtain ⟨r, h1, _, h3, h4, _⟩ := C107_criterion hrt (nsigma := 5) (A := 3 / 10) (by norm_num) (by norm_num) exPairs_stack (by decide)
  have hl : 1 < r.wts.length := by rw [h3]; decide
  refine ⟨r, r.wts[1], h1, List.getElem?_eq_getElem hl, ?_⟩
  obtain ⟨_, _, _, _, h5⟩ := h4 1 _ _ rfl (List.getElem?_eq_getElem hl)
  obtain ⟨m, hm, w', hw', _, h6, _⟩ := h5 0 0 100 4 rfl rfl
  rw [hw', h6]
  have hm2 : m = 2 := by
    have h1 : IsMedian ([1, 100, 2] : List ℚ) 2 := ⟨[1, 2, 100], by decide +kernel, by decide +kernel, 2, 2, rfl, rfl, by norm_num⟩
    have := isMedian_unique (List.Perm.refl _) (isMedian_cast (l := [1, 100, 2]) hm) (isMedian_cast h1)
    exact_mod_cast this
  subst hm2
  unfold Beyond
  rw [sqrt_four]
  push_cast
  rw [abs_of_pos (by norm_num : (0 : ℝ) < 2), abs_of_pos (by norm_num : (0 : ℝ) < 100 - 2)]
  norm_num

-- none of its pixels is next to its threshold
example : NoneBorderline (5 : ℚ) (3 / 10 : ℚ) exPairs := by
  intro p hp a b x w m hx hw hm hb
  have hmed (l : List ℚ) (v : ℚ) (h : IsMedian l v) (h' : IsMedian l m) : m = v := by
    have := isMedian_unique (List.Perm.refl _) (isMedian_cast h') (isMedian_cast h)
    exact_mod_cast this
  have hlt := Img.get?_lt hx
  have hdim : p.1.2.nr = 1 ∧ p.1.2.nc = 2 := by
    obtain ⟨_, _, _, _, q3, q4, _⟩ := exPairs_stack p hp
    exact ⟨q3, q4⟩
  rw [hdim.1, hdim.2] at hlt
  obtain ⟨ha, hb'⟩ := hlt
  have ha : a = 0 := by omega
  subst ha
  have hw0 : (0 : ℚ) < w := by exact_mod_cast hb.1
  have hcase : b = 0 ∨ b = 1 := by omega
  rcases hcase with rfl | rfl
  · have h2 : m = 2 := hmed [1, 100, 2] 2 ⟨[1, 2, 100], by decide +kernel, by decide +kernel, 2, 2, rfl, rfl, by norm_num⟩ hm
    subst h2
    simp only [exPairs, List.mem_cons, List.not_mem_nil, or_false] at hp
    rcases hp with rfl | rfl | rfl
    all_goals
      obtain rfl := Option.some.inj (show some _ = some x from hx)
      obtain rfl := Option.some.inj (show some _ = some w from hw)
      unfold Beyond at hb ⊢
      rw [sqrt_four] at *
      push_cast at *
    · rw [abs_of_pos (by norm_num : (0 : ℝ) < 2), abs_of_neg (by norm_num : (1 : ℝ) - 2 < 0)] at hb
      norm_num at hb
    · rw [abs_of_pos (by norm_num : (0 : ℝ) < 2), abs_of_pos (by norm_num : (0 : ℝ) < 100 - 2)]
      norm_num
    · rw [abs_of_pos (by norm_num : (0 : ℝ) < 2)] at hb
      norm_num at hb
  · have h2 : m = 2 := hmed [2, 2, 3] 2 ⟨[2, 2, 3], List.Perm.refl _, by decide +kernel, 2, 2, rfl, rfl, by norm_num⟩ hm
    subst h2
    simp only [exPairs, List.mem_cons, List.not_mem_nil, or_false] at hp
    rcases hp with rfl | rfl | rfl
    · obtain rfl := Option.some.inj (show some _ = some x from hx)
      obtain rfl := Option.some.inj (show some _ = some w from hw)
      unfold Beyond at hb
      rw [sqrt_four] at hb
      push_cast at hb
      rw [abs_of_pos (by norm_num : (0 : ℝ) < 2)] at hb
      norm_num at hb
    · obtain rfl := Option.some.inj (show some _ = some x from hx)
      obtain rfl := Option.some.inj (show some _ = some w from hw)
      unfold Beyond at hb
      rw [sqrt_four] at hb
      push_cast at hb
      rw [abs_of_pos (by norm_num : (0 : ℝ) < 2)] at hb
      norm_num at hb
    · obtain rfl := Option.some.inj (show some _ = some w from hw)
      norm_num at hw0

-- the other order of the same pairs, and an image of integers
example (rt : Nat → ℚ → ℚ) : ∃ r r', rejectOutliersF rt 5 (3 / 10) (exPairs.map (·.1)) (exPairs.map (·.2)) = .ok r ∧
    rejectOutliersF rt 5 (3 / 10) (exPairs.reverse.map (·.1)) (exPairs.reverse.map (·.2)) = .ok r' ∧ r'.nreject = r.nreject ∧ r'.wts[0]? = r.wts[2]? := by
  obtain ⟨r, r', h1, h2, h3, _, h5⟩ := C107_order rt 5 (3 / 10) exPairs_stack (fun k => 2 - k) (List.reverse_perm exPairs) (by decide)
  exact ⟨r, r', h1, h2, h3, h5 0 (by decide)⟩

example (rt : Nat → ℚ → ℚ) : rejectOutliersF rt 5 (3 / 10) [(.f4, ⟨1, 1, [1]⟩), (.i2, ⟨1, 1, [2]⟩), (.f4, ⟨1, 1, [3]⟩)] (List.replicate 3 (.f4, ⟨1, 1, [1]⟩)) =
    .error .typeError :=
  C107_integers rt 5 (3 / 10) (nr := 1) (nc := 1)
    (ps := [((.f4, ⟨1, 1, [1]⟩), (.f4, ⟨1, 1, [1]⟩)), ((.i2, ⟨1, 1, [2]⟩), (.f4, ⟨1, 1, [1]⟩)), ((.f4, ⟨1, 1, [3]⟩), (.f4, ⟨1, 1, [1]⟩))])
    (by decide +kernel) (by decide) ⟨((.i2, ⟨1, 1, [2]⟩), (.f4, ⟨1, 1, [1]⟩)), by simp, Or.inl rfl⟩

-- shapes that differ
example (rt : Nat → ℚ → ℚ) : rejectOutliersF rt 5 (3 / 10) [(.f4, ⟨1, 1, [1]⟩), (.f4, ⟨1, 2, [2, 2]⟩), (.f4, ⟨1, 1, [3]⟩)] (List.replicate 3 (.f4, ⟨1, 1, [1]⟩)) = .error .valueError := rfl

end Reject
end Meds
