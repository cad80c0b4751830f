import Verif.Props.Reject
import Mathlib.Tactic.Linarith

/-!
# Masked pixels in outlier rejection (C102)
-/

namespace Meds.Spec

open Classical in
/-- How many elements of the list have the property. -/
noncomputable def howMany {α : Type} (P : α → Prop) (l : List α) : Nat := l.countP (fun x => decide (P x))

end Meds.Spec

namespace Meds.Reject
open Spec

theorem howMany_mono {α : Type} {P Q : α → Prop} {l : List α} (h : ∀ x ∈ l, P x → Q x) : howMany P l ≤ howMany Q l := by
  classical
  refine List.countP_mono_left (fun x hx hp => ?_)
  rw [decide_eq_true_eq] at hp ⊢
  exact h x hx hp

open Classical in
/-- When more than half of the values are in an interval, so is the median. -/
theorem isMedian_between {l : List ℝ} {m lo hi : ℝ} (h : IsMedian l m) (hc : l.length < 2 * howMany (fun x => lo ≤ x ∧ x ≤ hi) l) : lo ≤ m ∧ m ≤ hi := by
  obtain ⟨s, hp, hs, x, y, hx, hy, rfl⟩ := h
  unfold howMany at hc
  rw [← hp.countP_eq, ← hp.length_eq] at hc
  rw [← hp.length_eq] at hx hy
  obtain ⟨P, hP, hc⟩ : ∃ P : ℝ → Bool, (∀ x, P x = true ↔ lo ≤ x ∧ x ≤ hi) ∧ s.length < 2 * s.countP P := by
    refine ⟨_, ?_, hc⟩
    intro x
    simp
  obtain ⟨hxl, ex⟩ := List.getElem?_eq_some_iff.mp hx
  obtain ⟨hyl, ey⟩ := List.getElem?_eq_some_iff.mp hy
  have hmono : ∀ i j (hi : i < s.length) (hj : j < s.length), i ≤ j → s[i] ≤ s[j] := by
    intro i j hi hj hij
    rcases Nat.lt_or_eq_of_le hij with h | rfl
    · exact List.pairwise_iff_getElem.mp hs i j hi hj h
    · exact le_refl _
  have hlo : lo ≤ x := by
    by_contra hlt
    rw [not_le] at hlt
    have h0 : (s.take ((s.length - 1) / 2 + 1)).countP P = 0 := by
      rw [List.countP_eq_zero]
      intro z hz
      obtain ⟨i, hi', e⟩ := List.mem_iff_getElem.mp hz
      rw [List.getElem_take] at e
      have hi2 : i < (s.length - 1) / 2 + 1 := by
        rw [List.length_take] at hi'; omega
      have := hmono i ((s.length - 1) / 2) (by omega) hxl (by omega)
      rw [e, ex] at this
      simp only [hP, not_and]
      intro h; linarith
    have e := congrArg (List.countP P) (List.take_append_drop ((s.length - 1) / 2 + 1) s)
    rw [List.countP_append, h0] at e
    have h1 : (s.drop ((s.length - 1) / 2 + 1)).countP P ≤ s.length - ((s.length - 1) / 2 + 1) := by
      refine le_trans List.countP_le_length ?_
      rw [List.length_drop]
    omega
  have hhi : y ≤ hi := by
    by_contra hlt
    rw [not_le] at hlt
    have h0 : (s.drop (s.length / 2)).countP P = 0 := by
      rw [List.countP_eq_zero]
      intro z hz
      obtain ⟨i, hi', e⟩ := List.mem_iff_getElem.mp hz
      rw [List.getElem_drop] at e
      rw [List.length_drop] at hi'
      have := hmono (s.length / 2) (s.length / 2 + i) hyl (by omega) (by omega)
      rw [e, ey] at this
      simp only [hP, not_and, not_le]
      intro _; linarith
    have e := congrArg (List.countP P) (List.take_append_drop (s.length / 2) s)
    rw [List.countP_append, h0] at e
    have h1 : (s.take (s.length / 2)).countP P ≤ s.length / 2 := by
      refine le_trans List.countP_le_length ?_
      rw [List.length_take]; omega
    omega
  have hxy : x ≤ y := by
    have := hmono ((s.length - 1) / 2) (s.length / 2) hxl hyl (by omega)
    rwa [ex, ey] at this
  constructor <;> linarith

open Classical in
theorem countP_pixels {ps : List (Img ℝ × Img ℝ)} {nr nc : Nat} (hs : Stack ps nr nc) {a b : Nat} (ha : a < nr) (hb : b < nc) (P : ℝ → Prop) :
    howMany P (ps.filterMap (fun q => q.1.get? a b)) = howMany (fun q : Img ℝ × Img ℝ => ∃ x, q.1.get? a b = some x ∧ P x) ps := by
  unfold howMany
  induction ps with
  | nil => rfl
  | cons p t ih =>
    obtain ⟨q0, _, q1, q2, _⟩ := hs p (by simp)
    obtain ⟨v, hv⟩ := Img.get?_some_of_WF q0 (i := a) (j := b) (by omega) (by omega)
    rw [List.filterMap_cons, hv, List.countP_cons, List.countP_cons, ih (fun x hx => hs x (by simp [hx]))]
    simp [hv]

open Classical in
/-- **C102** What holds: where more than half of the epochs have a positive weight and their pixels agree, none of these is rejected, whatever the masked pixels are.  (All
of them are in an interval not longer than `nsigma` errors of the pixel in question.) -/
theorem C102_good_majority_partial {nsigma A : ℝ} (hn : 0 ≤ nsigma) (hA : 0 ≤ A) {ps : List (Img ℝ × Img ℝ)} {nr nc : Nat} (hs : Stack ps nr nc) (h3 : 3 ≤ ps.length)
    {a b : Nat} {lo hi : ℝ} (hgood : ps.length < 2 * howMany (fun q : Img ℝ × Img ℝ => ∃ w, q.2.get? a b = some w ∧ 0 < w) ps)
    (hagree : ∀ q ∈ ps, ∀ x w, q.1.get? a b = some x → q.2.get? a b = some w → 0 < w → lo ≤ x ∧ x ≤ hi)
    {k : Nat} {p : Img ℝ × Img ℝ} (hk : ps[k]? = some p) {w : ℝ} (hw : p.2.get? a b = some w) (hpos : 0 < w) (hlen : hi - lo ≤ nsigma / Real.sqrt w) :
    ∃ r wt', rejectOutliers Real.sqrt nsigma A (ps.map (·.1)) (ps.map (·.2)) = .ok r ∧ r.wts[k]? = some wt' ∧ wt'.get? a b = some w := by
  obtain ⟨r, h1, _, h2, h4, _⟩ := C33_criterion hn hA hs h3
  have hkl : k < r.wts.length := by rw [h2]; exact (List.getElem?_eq_some_iff.mp hk).1
  refine ⟨r, r.wts[k], h1, List.getElem?_eq_getElem hkl, ?_⟩
  have hp := List.mem_of_getElem? hk
  obtain ⟨q1, q2, q3, q4, q5, q6⟩ := hs p hp
  have hlt := Img.get?_lt hw
  obtain ⟨x, hx⟩ := Img.get?_some_of_WF q1 (i := a) (j := b) (by omega) (by omega)
  obtain ⟨_, _, _, h5⟩ := h4 k p r.wts[k] hk (List.getElem?_eq_getElem hkl)
  obtain ⟨m, hm, he⟩ := h5 a b x w hx hw
  have hcount : (ps.filterMap (fun q => q.1.get? a b)).length < 2 * howMany (fun x => lo ≤ x ∧ x ≤ hi) (ps.filterMap (fun q => q.1.get? a b)) := by
    rw [filterMap_get hs (by omega) (by omega), countP_pixels hs (by omega) (by omega)]
    refine lt_of_lt_of_le hgood (Nat.mul_le_mul_left 2 (howMany_mono ?_))
    rintro q hq ⟨w', hw', hp'⟩
    obtain ⟨r1, r2, r3, r4, _⟩ := hs q hq
    obtain ⟨x', hx'⟩ := Img.get?_some_of_WF r1 (i := a) (j := b) (by omega) (by omega)
    exact ⟨x', hx', hagree q hq x' w' hx' hw' hp'⟩
  obtain ⟨m1, m2⟩ := isMedian_between hm hcount
  obtain ⟨x1, x2⟩ := hagree p hp x w hx hw hpos
  rw [he, if_neg, max_eq_left hpos.le]
  rintro ⟨_, ho⟩
  have h6 : |x - m| ≤ hi - lo := by rw [abs_le]; constructor <;> linarith
  have h7 : 0 ≤ A * |m| := by positivity
  linarith

open Classical in
/-- **C102** What happens: where more than half of the images have the same value `v`, masked or not, that value is what all epochs are compared with. -/
theorem C102_equal_majority {nsigma A : ℝ} (hn : 0 ≤ nsigma) (hA : 0 ≤ A) {ps : List (Img ℝ × Img ℝ)} {nr nc : Nat} (hs : Stack ps nr nc) (h3 : 3 ≤ ps.length)
    {a b : Nat} {v : ℝ} (hmaj : ps.length < 2 * howMany (fun q : Img ℝ × Img ℝ => q.1.get? a b = some v) ps)
    {k : Nat} {p : Img ℝ × Img ℝ} (hk : ps[k]? = some p) {x w : ℝ} (hx : p.1.get? a b = some x) (hw : p.2.get? a b = some w) :
    ∃ r wt', rejectOutliers Real.sqrt nsigma A (ps.map (·.1)) (ps.map (·.2)) = .ok r ∧ r.wts[k]? = some wt' ∧
      wt'.get? a b = some (if 0 < w ∧ nsigma / Real.sqrt w + A * |v| < |x - v| then 0 else max w 0) := by
  obtain ⟨r, h1, _, h2, h4, _⟩ := C33_criterion hn hA hs h3
  have hkl : k < r.wts.length := by rw [h2]; exact (List.getElem?_eq_some_iff.mp hk).1
  refine ⟨r, r.wts[k], h1, List.getElem?_eq_getElem hkl, ?_⟩
  have hp := List.mem_of_getElem? hk
  obtain ⟨q1, q2, q3, q4, q5, q6⟩ := hs p hp
  have hlt := Img.get?_lt hw
  obtain ⟨_, _, _, h5⟩ := h4 k p r.wts[k] hk (List.getElem?_eq_getElem hkl)
  obtain ⟨m, hm, he⟩ := h5 a b x w hx hw
  have hcount : (ps.filterMap (fun q => q.1.get? a b)).length < 2 * howMany (fun x => v ≤ x ∧ x ≤ v) (ps.filterMap (fun q => q.1.get? a b)) := by
    rw [filterMap_get hs (by omega) (by omega), countP_pixels hs (by omega) (by omega)]
    refine lt_of_lt_of_le hmaj (Nat.mul_le_mul_left 2 (howMany_mono ?_))
    intro q hq hd
    exact ⟨v, hd, le_refl _, le_refl _⟩
  obtain ⟨m1, m2⟩ := isMedian_between hm hcount
  have : m = v := le_antisymm m2 m1
  subst this
  rw [he]
  by_cases h : Outlier nsigma A m x w
  · rw [if_pos h, if_pos (show 0 < w ∧ nsigma / Real.sqrt w + A * |m| < |x - m| from h)]
  · rw [if_neg h, if_neg (show ¬ (0 < w ∧ nsigma / Real.sqrt w + A * |m| < |x - m|) from h)]

/-- **C102** So where more than half of the epochs are zero (cutouts have zeros outside of the source image and zero weight there), an epoch that does have a pixel loses it
exactly when it is brighter than `nsigma` errors: what is left is the noise. -/
theorem C102_zero_majority {nsigma A : ℝ} (hn : 0 ≤ nsigma) (hA : 0 ≤ A) {ps : List (Img ℝ × Img ℝ)} {nr nc : Nat} (hs : Stack ps nr nc) (h3 : 3 ≤ ps.length)
    {a b : Nat} (hmaj : ps.length < 2 * howMany (fun q : Img ℝ × Img ℝ => q.1.get? a b = some 0) ps)
    {k : Nat} {p : Img ℝ × Img ℝ} (hk : ps[k]? = some p) {x w : ℝ} (hx : p.1.get? a b = some x) (hw : p.2.get? a b = some w) (hpos : 0 < w) :
    ∃ r wt', rejectOutliers Real.sqrt nsigma A (ps.map (·.1)) (ps.map (·.2)) = .ok r ∧ r.wts[k]? = some wt' ∧
      ∃ w', wt'.get? a b = some w' ∧ (w' = 0 ↔ nsigma / Real.sqrt w < |x|) := by
  classical
  obtain ⟨r, wt', h1, h2, h4⟩ := C102_equal_majority hn hA hs h3 hmaj hk hx hw
  refine ⟨r, wt', h1, h2, _, h4, ?_⟩
  simp only [abs_zero, mul_zero, add_zero, sub_zero, hpos, true_and]
  split
  · rename_i h
    simp [h]
  · rename_i h
    rw [max_eq_left hpos.le]
    simp [h, hpos.ne']

section Examples

/-- One epoch with a pixel of value 100 and error 1; two epochs masked there, with the value `v`. -/
noncomputable def exMasked (v : ℝ) : List (Img ℝ × Img ℝ) := [(⟨1, 1, [v]⟩, ⟨1, 1, [0]⟩), (⟨1, 1, [v]⟩, ⟨1, 1, [0]⟩), (⟨1, 1, [100]⟩, ⟨1, 1, [1]⟩)]

theorem exMasked_stack (v : ℝ) : Stack (exMasked v) 1 1 := by
  intro p hp
  simp only [exMasked, List.mem_cons, List.not_mem_nil, or_false] at hp
  rcases hp with rfl | rfl | rfl <;> simp [Img.WF]

theorem exMasked_majority (v : ℝ) : (exMasked v).length < 2 * howMany (fun q : Img ℝ × Img ℝ => q.1.get? 0 0 = some v) (exMasked v) := by
  unfold howMany
  simp only [exMasked, List.countP_cons, List.countP_nil, List.length_cons, List.length_nil, Img.get?]
  split_ifs <;> simp_all

/-- **C102** is false: two stacks with the same weights and the same pixels wherever a weight is positive; in one the only good pixel is rejected, in the other it is
not. -/
theorem C102_counterexample :
    (exMasked 0).map (·.2) = (exMasked 100).map (·.2) ∧
    (∀ (k a b : Nat) p q w, (exMasked 0)[k]? = some p → (exMasked 100)[k]? = some q → p.2.get? a b = some w → 0 < w → p.1.get? a b = q.1.get? a b) ∧
    ∃ r r' wt wt', rejectOutliers Real.sqrt 5 (3 / 10) ((exMasked 0).map (·.1)) ((exMasked 0).map (·.2)) = .ok r ∧
      rejectOutliers Real.sqrt 5 (3 / 10) ((exMasked 100).map (·.1)) ((exMasked 100).map (·.2)) = .ok r' ∧
      r.wts[2]? = some wt ∧ r'.wts[2]? = some wt' ∧ wt.get? 0 0 = some 0 ∧ wt'.get? 0 0 = some 1 := by
  refine ⟨rfl, ?_, ?_⟩
  · intro k a b p q w hp hq hw hpos
    match k with
    | 0 | 1 =>
      simp only [exMasked, List.getElem?_cons_zero, List.getElem?_cons_succ, Option.some.injEq] at hp
      subst hp
      simp only [Img.get?] at hw
      split at hw
      · rename_i h
        have e : a * 1 + b = 0 := by omega
        rw [e] at hw
        simp at hw
        linarith
      · cases hw
    | 2 =>
      simp only [exMasked, List.getElem?_cons_zero, List.getElem?_cons_succ, Option.some.injEq] at hp hq
      subst hp hq
      rfl
    | k + 3 => simp [exMasked] at hp
  · have key : ∀ v : ℝ, _ := fun v => C102_equal_majority (nsigma := 5) (A := 3 / 10) (by norm_num) (by norm_num) (exMasked_stack v) (by simp [exMasked])
      (exMasked_majority v) (k := 2) (p := (⟨1, 1, [100]⟩, ⟨1, 1, [1]⟩)) (x := 100) (w := 1) rfl rfl rfl
    obtain ⟨r, wt, h1, h2, h3⟩ := key 0
    obtain ⟨r', wt', h1', h2', h3'⟩ := key 100
    refine ⟨r, r', wt, wt', h1, h1', h2, h2', ?_, ?_⟩
    · rw [h3, if_pos]
      rw [Real.sqrt_one]
      refine ⟨by norm_num, ?_⟩
      rw [abs_of_nonneg (by norm_num), abs_of_nonneg (by norm_num)]
      norm_num
    · rw [h3', if_neg]
      · norm_num
      · rw [Real.sqrt_one]
        rintro ⟨_, h⟩
        norm_num at h

-- the hypotheses of `C102_good_majority_partial`: two epochs agree, the third is masked and far away
example : ∃ r wt', rejectOutliers Real.sqrt 5 (3 / 10) [⟨1, 1, [10]⟩, ⟨1, 1, [12]⟩, ⟨1, 1, [-900]⟩] [⟨1, 1, [1]⟩, ⟨1, 1, [1]⟩, ⟨1, 1, [0]⟩] = .ok r ∧
    r.wts[0]? = some wt' ∧ wt'.get? 0 0 = some 1 := by
  refine C102_good_majority_partial (ps := [(⟨1, 1, [10]⟩, ⟨1, 1, [1]⟩), (⟨1, 1, [12]⟩, ⟨1, 1, [1]⟩), (⟨1, 1, [-900]⟩, ⟨1, 1, [0]⟩)]) (nr := 1) (nc := 1) (lo := 10) (hi := 12)
    (by norm_num) (by norm_num) ?_ (by simp) ?_ ?_ (k := 0) rfl (by rfl) (by norm_num) ?_
  · intro p hp
    simp only [List.mem_cons, List.not_mem_nil, or_false] at hp
    rcases hp with rfl | rfl | rfl <;> simp [Img.WF]
  · unfold howMany
    simp [Img.get?]
  · intro q hq x w hx hw hpos
    simp only [List.mem_cons, List.not_mem_nil, or_false] at hq
    rcases hq with rfl | rfl | rfl <;> simp [Img.get?] at hx hw <;> subst hx hw
    · norm_num
    · norm_num
    · norm_num at hpos
  · rw [Real.sqrt_one]; norm_num

end Examples

end Meds.Reject
