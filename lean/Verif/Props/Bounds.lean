import Verif.Model.Bounds
import Verif.Lemmas.Basic
import Mathlib.Tactic.Linarith
import Mathlib.Algebra.Order.Field.Basic

/-!
# Rectangles and position conversion (C36, C37)
-/

namespace Meds
open Bounds

namespace Spec

/-- Point membership of the closed rectangle. -/
def InRect (b : Bounds) (row col : ℚ) : Prop := b.rowmin ≤ row ∧ row ≤ b.rowmax ∧ b.colmin ≤ col ∧ col ≤ b.colmax

/-- Point membership of the open rectangle. -/
def InInterior (b : Bounds) (row col : ℚ) : Prop := b.rowmin < row ∧ row < b.rowmax ∧ b.colmin < col ∧ col < b.colmax

/-- The rectangle has a point. -/
def NonEmpty (b : Bounds) : Prop := b.rowmin ≤ b.rowmax ∧ b.colmin ≤ b.colmax

/-- `r` is the smallest rectangle that contains all points satisfying `P`. -/
def IsHull (r : Bounds) (P : ℚ → ℚ → Prop) : Prop :=
  (∀ x y, P x y → InRect r x y) ∧ ∀ r' : Bounds, (∀ x y, P x y → InRect r' x y) → ∀ x y, InRect r x y → InRect r' x y

end Spec
open Spec

/-- **C36** contains_point is membership. -/
theorem C36_contains_point (b : Bounds) (row col : ℚ) : b.containsPoint row col = true ↔ InRect b row col := by
  unfold containsPoint InRect
  simp only [Bool.and_eq_true, decide_eq_true_eq]
  tauto

/-- **C36** contains_bounds is inclusion, for rectangles that have a point. -/
theorem C36_contains_bounds {a b : Bounds} (hb : NonEmpty b) :
    a.containsBounds b = true ↔ ∀ x y, InRect b x y → InRect a x y := by
  unfold containsBounds InRect
  simp only [Bool.and_eq_true, decide_eq_true_eq]
  obtain ⟨h1, h2⟩ := hb
  constructor
  · rintro ⟨⟨⟨a1, a2⟩, a3⟩, a4⟩ x y ⟨b1, b2, b3, b4⟩
    exact ⟨a1.trans b1, b2.trans a2, a3.trans b3, b4.trans a4⟩
  · intro h
    have p := h b.rowmin b.colmin ⟨le_refl _, h1, le_refl _, h2⟩
    have q := h b.rowmax b.colmax ⟨h1, le_refl _, h2, le_refl _⟩
    exact ⟨⟨⟨p.1, q.2.1⟩, p.2.2.1⟩, q.2.2.2⟩

/-- **C36** contains_bounds is reflexive, transitive and antisymmetric (for all rectangles), and compatible with contains_point. -/
theorem C36_contains_order (a b c : Bounds) :
    a.containsBounds a = true ∧
    (a.containsBounds b = true → b.containsBounds c = true → a.containsBounds c = true) ∧
    (a.containsBounds b = true → b.containsBounds a = true → a = b) ∧
    (∀ x y, a.containsBounds b = true → b.containsPoint x y = true → a.containsPoint x y = true) := by
  refine ⟨?_, ?_, ?_, ?_⟩
  · simp [containsBounds]
  · unfold containsBounds
    simp only [Bool.and_eq_true, decide_eq_true_eq]
    rintro ⟨⟨⟨a1, a2⟩, a3⟩, a4⟩ ⟨⟨⟨b1, b2⟩, b3⟩, b4⟩
    exact ⟨⟨⟨a1.trans b1, b2.trans a2⟩, a3.trans b3⟩, b4.trans a4⟩
  · unfold containsBounds
    simp only [Bool.and_eq_true, decide_eq_true_eq]
    rintro ⟨⟨⟨a1, a2⟩, a3⟩, a4⟩ ⟨⟨⟨b1, b2⟩, b3⟩, b4⟩
    cases a; cases b
    simp only [Bounds.mk.injEq] at *
    exact ⟨le_antisymm a1 b1, le_antisymm b2 a2, le_antisymm a3 b3, le_antisymm b4 a4⟩
  · intro x y
    unfold containsBounds containsPoint
    simp only [Bool.and_eq_true, decide_eq_true_eq]
    rintro ⟨⟨⟨a1, a2⟩, a3⟩, a4⟩ ⟨⟨⟨b1, b2⟩, b3⟩, b4⟩
    exact ⟨⟨⟨b1.trans a2, a1.trans b2⟩, b3.trans a4⟩, a3.trans b4⟩

/-- **C36** intersects_bounds: the open rectangles share a point (rectangles that only touch do not count as intersecting), and it is symmetric. -/
theorem C36_intersects {a b : Bounds} (ha : a.rowmin < a.rowmax ∧ a.colmin < a.colmax) (hb : b.rowmin < b.rowmax ∧ b.colmin < b.colmax) :
    (a.intersectsBounds b = true ↔ ∃ x y, InInterior a x y ∧ InInterior b x y) ∧ a.intersectsBounds b = b.intersectsBounds a := by
  have key : ∀ a b : Bounds, a.rowmin < a.rowmax ∧ a.colmin < a.colmax → b.rowmin < b.rowmax ∧ b.colmin < b.colmax →
      (a.intersectsBounds b = true ↔ ∃ x y, InInterior a x y ∧ InInterior b x y) := by
    intro a b ha hb
    unfold intersectsBounds InInterior
    simp only [Bool.and_eq_true, Bool.not_eq_true', decide_eq_false_iff_not, not_le]
    constructor
    · rintro ⟨⟨⟨h1, h2⟩, h3⟩, h4⟩
      obtain ⟨x, x1, x2⟩ := exists_between (show max a.rowmin b.rowmin < min a.rowmax b.rowmax from
        max_lt (lt_min ha.1 h2) (lt_min h1 hb.1))
      obtain ⟨y, y1, y2⟩ := exists_between (show max a.colmin b.colmin < min a.colmax b.colmax from
        max_lt (lt_min ha.2 h4) (lt_min h3 hb.2))
      rw [max_lt_iff] at x1 y1
      rw [lt_min_iff] at x2 y2
      exact ⟨x, y, ⟨x1.1, x2.1, y1.1, y2.1⟩, x1.2, x2.2, y1.2, y2.2⟩
    · rintro ⟨x, y, ⟨a1, a2, a3, a4⟩, b1, b2, b3, b4⟩
      exact ⟨⟨⟨b1.trans a2, a1.trans b2⟩, b3.trans a4⟩, a3.trans b4⟩
  refine ⟨key a b ha hb, ?_⟩
  rw [Bool.eq_iff_iff, key a b ha hb, key b a hb ha]
  constructor <;> rintro ⟨x, y, h1, h2⟩ <;> exact ⟨x, y, h2, h1⟩

theorem isHull_corners {r : Bounds} {P : ℚ → ℚ → Prop} (hc : ∀ x y, P x y → InRect r x y)
    (h1 : ∃ x y, P x y ∧ x = r.rowmin) (h2 : ∃ x y, P x y ∧ x = r.rowmax) (h3 : ∃ x y, P x y ∧ y = r.colmin) (h4 : ∃ x y, P x y ∧ y = r.colmax) :
    IsHull r P := by
  refine ⟨hc, ?_⟩
  intro r' h x y hxy
  obtain ⟨a1, b1, p1, e1⟩ := h1
  obtain ⟨a2, b2, p2, e2⟩ := h2
  obtain ⟨a3, b3, p3, e3⟩ := h3
  obtain ⟨a4, b4, p4, e4⟩ := h4
  have q1 := (h _ _ p1).1
  have q2 := (h _ _ p2).2.1
  have q3 := (h _ _ p3).2.2.1
  have q4 := (h _ _ p4).2.2.2
  subst e1 e2 e3 e4
  exact ⟨q1.trans hxy.1, hxy.2.1.trans q2, q3.trans hxy.2.2.1, hxy.2.2.2.trans q4⟩

theorem expandPoint_eq {b : Bounds} (hb : NonEmpty b) (row col : ℚ) :
    b.expandPoint row col = ⟨min b.rowmin row, max b.rowmax row, min b.colmin col, max b.colmax col⟩ := by
  obtain ⟨h1, h2⟩ := hb
  unfold expandPoint
  cases b with
  | mk a b c d =>
  simp only at h1 h2 ⊢
  by_cases r1 : row < a
  · rw [if_pos r1, min_eq_right r1.le, max_eq_left (by linarith)]
    by_cases c1 : col < c
    · simp only; rw [if_pos c1, min_eq_right c1.le, max_eq_left (by linarith)]
    · simp only; rw [if_neg c1, min_eq_left (by linarith)]
      by_cases c2 : d < col
      · rw [if_pos c2, max_eq_right c2.le]
      · rw [if_neg c2, max_eq_left (by linarith)]
  · rw [if_neg r1, min_eq_left (by linarith)]
    by_cases r2 : b < row
    · rw [if_pos r2, max_eq_right r2.le]
      by_cases c1 : col < c
      · simp only; rw [if_pos c1, min_eq_right c1.le, max_eq_left (by linarith)]
      · simp only; rw [if_neg c1, min_eq_left (by linarith)]
        by_cases c2 : d < col
        · rw [if_pos c2, max_eq_right c2.le]
        · rw [if_neg c2, max_eq_left (by linarith)]
    · rw [if_neg r2, max_eq_left (by linarith)]
      by_cases c1 : col < c
      · simp only; rw [if_pos c1, min_eq_right c1.le, max_eq_left (by linarith)]
      · simp only; rw [if_neg c1, min_eq_left (by linarith)]
        by_cases c2 : d < col
        · rw [if_pos c2, max_eq_right c2.le]
        · rw [if_neg c2, max_eq_left (by linarith)]

/-- A rectangle given by the minima and maxima of two non-empty sets of rows and columns is the hull of a rectangle and a set. -/
theorem hull_of_minmax {b : Bounds} (hb : NonEmpty b) {P : ℚ → ℚ → Prop} {r0 r1 c0 c1 : ℚ}
    (hP : ∀ x y, P x y → r0 ≤ x ∧ x ≤ r1 ∧ c0 ≤ y ∧ y ≤ c1)
    (e0 : ∃ x y, P x y ∧ x = r0) (e1 : ∃ x y, P x y ∧ x = r1) (e2 : ∃ x y, P x y ∧ y = c0) (e3 : ∃ x y, P x y ∧ y = c1) :
    IsHull ⟨min b.rowmin r0, max b.rowmax r1, min b.colmin c0, max b.colmax c1⟩ (fun x y => InRect b x y ∨ P x y) := by
  obtain ⟨h1, h2⟩ := hb
  have lo : InRect b b.rowmin b.colmin := ⟨le_refl _, h1, le_refl _, h2⟩
  have hi : InRect b b.rowmax b.colmax := ⟨h1, le_refl _, h2, le_refl _⟩
  apply isHull_corners
  · rintro x y (h | h)
    · exact ⟨(min_le_left _ _).trans h.1, h.2.1.trans (le_max_left _ _), (min_le_left _ _).trans h.2.2.1, h.2.2.2.trans (le_max_left _ _)⟩
    · have h := hP x y h
      exact ⟨(min_le_right _ _).trans h.1, h.2.1.trans (le_max_right _ _), (min_le_right _ _).trans h.2.2.1, h.2.2.2.trans (le_max_right _ _)⟩
  · rcases min_choice b.rowmin r0 with h | h
    · exact ⟨_, _, .inl lo, h.symm⟩
    · obtain ⟨x, y, p, e⟩ := e0
      exact ⟨x, y, .inr p, by dsimp only; rw [h, e]⟩
  · rcases max_choice b.rowmax r1 with h | h
    · exact ⟨_, _, .inl hi, h.symm⟩
    · obtain ⟨x, y, p, e⟩ := e1
      exact ⟨x, y, .inr p, by dsimp only; rw [h, e]⟩
  · rcases min_choice b.colmin c0 with h | h
    · exact ⟨_, _, .inl lo, h.symm⟩
    · obtain ⟨x, y, p, e⟩ := e2
      exact ⟨x, y, .inr p, by dsimp only; rw [h, e]⟩
  · rcases max_choice b.colmax c1 with h | h
    · exact ⟨_, _, .inl hi, h.symm⟩
    · obtain ⟨x, y, p, e⟩ := e3
      exact ⟨x, y, .inr p, by dsimp only; rw [h, e]⟩

/-- **C36** expand_point returns the smallest rectangle containing the old one and the point. -/
theorem C36_expand_point {b : Bounds} (hb : NonEmpty b) (row col : ℚ) :
    IsHull (b.expandPoint row col) (fun x y => InRect b x y ∨ (x = row ∧ y = col)) := by
  rw [expandPoint_eq hb]
  exact hull_of_minmax hb (P := fun x y => x = row ∧ y = col) (by rintro x y ⟨rfl, rfl⟩; exact ⟨le_refl _, le_refl _, le_refl _, le_refl _⟩)
    ⟨row, col, ⟨rfl, rfl⟩, rfl⟩ ⟨row, col, ⟨rfl, rfl⟩, rfl⟩ ⟨row, col, ⟨rfl, rfl⟩, rfl⟩ ⟨row, col, ⟨rfl, rfl⟩, rfl⟩

theorem listMin_ok {l : List ℚ} {v : ℚ} (h : listMin l = .ok v) : v ∈ l ∧ ∀ x ∈ l, v ≤ x := by
  cases l with
  | nil => cases h
  | cons a l =>
    unfold listMin at h
    injection h with h
    subst h
    have : ∀ (l : List ℚ) (a : ℚ), (l.foldl min a = a ∨ l.foldl min a ∈ l) ∧ l.foldl min a ≤ a ∧ ∀ x ∈ l, l.foldl min a ≤ x := by
      intro l
      induction l with
      | nil => intro a; simp
      | cons b l ih =>
        intro a
        obtain ⟨i1, i2, i3⟩ := ih (min a b)
        rw [List.foldl_cons]
        refine ⟨?_, i2.trans (min_le_left _ _), ?_⟩
        · rcases i1 with i1 | i1
          · rcases min_choice a b with h | h
            · left; rw [i1, h]
            · right; rw [i1, h]; simp
          · right; simp [i1]
        · intro x hx
          rcases List.mem_cons.mp hx with rfl | hx
          · exact i2.trans (min_le_right _ _)
          · exact i3 x hx
    obtain ⟨i1, i2, i3⟩ := this l a
    refine ⟨?_, ?_⟩
    · rcases i1 with h | h
      · rw [h]; simp
      · simp [h]
    · intro x hx
      rcases List.mem_cons.mp hx with rfl | hx
      · exact i2
      · exact i3 x hx

theorem listMax_ok {l : List ℚ} {v : ℚ} (h : listMax l = .ok v) : v ∈ l ∧ ∀ x ∈ l, x ≤ v := by
  cases l with
  | nil => cases h
  | cons a l =>
    unfold listMax at h
    injection h with h
    subst h
    have : ∀ (l : List ℚ) (a : ℚ), (l.foldl max a = a ∨ l.foldl max a ∈ l) ∧ a ≤ l.foldl max a ∧ ∀ x ∈ l, x ≤ l.foldl max a := by
      intro l
      induction l with
      | nil => intro a; simp
      | cons b l ih =>
        intro a
        obtain ⟨i1, i2, i3⟩ := ih (max a b)
        rw [List.foldl_cons]
        refine ⟨?_, (le_max_left _ _).trans i2, ?_⟩
        · rcases i1 with i1 | i1
          · rcases max_choice a b with h | h
            · left; rw [i1, h]
            · right; rw [i1, h]; simp
          · right; simp [i1]
        · intro x hx
          rcases List.mem_cons.mp hx with rfl | hx
          · exact (le_max_right _ _).trans i2
          · exact i3 x hx
    obtain ⟨i1, i2, i3⟩ := this l a
    refine ⟨?_, ?_⟩
    · rcases i1 with h | h
      · rw [h]; simp
      · simp [h]
    · intro x hx
      rcases List.mem_cons.mp hx with rfl | hx
      · exact i2
      · exact i3 x hx

/-- **C36** expand_points returns the smallest rectangle containing the old one and all the points; it fails only for an empty array of points.
`pts` are the (row, col) pairs passed as two arrays. -/
theorem C36_expand_points {b : Bounds} (hb : NonEmpty b) (pts : List (ℚ × ℚ)) :
    (pts = [] → b.expandPoints (pts.map (·.1)) (pts.map (·.2)) = .error .valueError) ∧
    (pts ≠ [] → ∃ r, b.expandPoints (pts.map (·.1)) (pts.map (·.2)) = .ok r ∧ IsHull r (fun x y => InRect b x y ∨ (x, y) ∈ pts)) := by
  constructor
  · rintro rfl; rfl
  · intro hne
    obtain ⟨r0, h0⟩ : ∃ v, listMin (pts.map (·.1)) = .ok v := by cases pts with | nil => exact absurd rfl hne | cons _ _ => exact ⟨_, rfl⟩
    obtain ⟨r1, h1⟩ : ∃ v, listMax (pts.map (·.1)) = .ok v := by cases pts with | nil => exact absurd rfl hne | cons _ _ => exact ⟨_, rfl⟩
    obtain ⟨c0, h2⟩ : ∃ v, listMin (pts.map (·.2)) = .ok v := by cases pts with | nil => exact absurd rfl hne | cons _ _ => exact ⟨_, rfl⟩
    obtain ⟨c1, h3⟩ : ∃ v, listMax (pts.map (·.2)) = .ok v := by cases pts with | nil => exact absurd rfl hne | cons _ _ => exact ⟨_, rfl⟩
    have e : b.expandPoints (pts.map (·.1)) (pts.map (·.2)) = .ok ⟨min b.rowmin r0, max b.rowmax r1, min b.colmin c0, max b.colmax c1⟩ := by
      unfold expandPoints
      rw [h0, h1, h2, h3]
      simp only [Res.ok_bind]
      congr 1
      cases b with
      | mk A B C D =>
        simp only [min_def, max_def]
        by_cases k0 : r0 < A <;> by_cases k1 : B < r1 <;> by_cases k2 : c0 < C <;> by_cases k3 : D < c1 <;>
          simp only [k0, k1, k2, k3, if_true, if_false, Bounds.mk.injEq] <;>
          refine ⟨?_, ?_, ?_, ?_⟩ <;> split <;> linarith
    obtain ⟨m0, a0⟩ := listMin_ok h0
    obtain ⟨m1, a1⟩ := listMax_ok h1
    obtain ⟨m2, a2⟩ := listMin_ok h2
    obtain ⟨m3, a3⟩ := listMax_ok h3
    refine ⟨_, e, hull_of_minmax hb (P := fun x y => (x, y) ∈ pts) ?_ ?_ ?_ ?_ ?_⟩
    · intro x y hxy
      exact ⟨a0 x (List.mem_map.mpr ⟨_, hxy, rfl⟩), a1 x (List.mem_map.mpr ⟨_, hxy, rfl⟩), a2 y (List.mem_map.mpr ⟨_, hxy, rfl⟩),
        a3 y (List.mem_map.mpr ⟨_, hxy, rfl⟩)⟩
    · obtain ⟨p, hp, rfl⟩ := List.mem_map.mp m0; exact ⟨p.1, p.2, hp, rfl⟩
    · obtain ⟨p, hp, rfl⟩ := List.mem_map.mp m1; exact ⟨p.1, p.2, hp, rfl⟩
    · obtain ⟨p, hp, rfl⟩ := List.mem_map.mp m2; exact ⟨p.1, p.2, hp, rfl⟩
    · obtain ⟨p, hp, rfl⟩ := List.mem_map.mp m3; exact ⟨p.1, p.2, hp, rfl⟩

/-- **C36** (as far as it holds) expand_bounds returns the hull of the two rectangles when the argument does not stick out on both sides in one direction. -/
theorem C36_expand_bounds_partial {a b : Bounds} (ha : NonEmpty a) (hb : NonEmpty b)
    (hrow : ¬ (b.rowmin < a.rowmin ∧ a.rowmax < b.rowmax)) (hcol : ¬ (b.colmin < a.colmin ∧ a.colmax < b.colmax)) :
    IsHull (a.expandBounds b) (fun x y => InRect a x y ∨ InRect b x y) := by
  have e : a.expandBounds b = ⟨min a.rowmin b.rowmin, max a.rowmax b.rowmax, min a.colmin b.colmin, max a.colmax b.colmax⟩ := by
    unfold expandBounds
    cases a with
    | mk A B C D =>
      cases b with
      | mk A' B' C' D' =>
      simp only [min_def, max_def] at *
      by_cases k0 : A' < A <;> by_cases k1 : B < B' <;> by_cases k2 : C' < C <;> by_cases k3 : D < D' <;>
        simp only [k0, k1, k2, k3, if_true, if_false, Bounds.mk.injEq, and_self, not_true_eq_false] at hrow hcol ⊢ <;>
        refine ⟨?_, ?_, ?_, ?_⟩ <;> split <;> linarith
  rw [e]
  obtain ⟨h1, h2⟩ := hb
  have lo : InRect b b.rowmin b.colmin := ⟨le_refl _, h1, le_refl _, h2⟩
  have hi : InRect b b.rowmax b.colmax := ⟨h1, le_refl _, h2, le_refl _⟩
  exact hull_of_minmax ha (P := fun x y => InRect b x y) (fun x y h => ⟨h.1, h.2.1, h.2.2.1, h.2.2.2⟩)
    ⟨_, _, lo, rfl⟩ ⟨_, _, hi, rfl⟩ ⟨_, _, lo, rfl⟩ ⟨_, _, hi, rfl⟩

/-- **C36** is false for expand_bounds: expanding a rectangle by one that surrounds it gives a rectangle that does not contain the argument. -/
theorem C36_counterexample : ∃ a b : Bounds, NonEmpty a ∧ NonEmpty b ∧ (a.expandBounds b).containsBounds b = false :=
  ⟨⟨0, 1, 0, 1⟩, ⟨-1, 2, -1, 2⟩, by unfold NonEmpty; norm_num, by unfold NonEmpty; norm_num, by decide +kernel⟩

-- in general: whenever the argument sticks out on both sides in one direction, it is not contained in the result
theorem C36_expand_bounds_misses {a b : Bounds}
    (h : (b.rowmin < a.rowmin ∧ a.rowmax < b.rowmax) ∨ (b.colmin < a.colmin ∧ a.colmax < b.colmax)) : (a.expandBounds b).containsBounds b = false := by
  by_contra hc
  rw [Bool.not_eq_false] at hc
  unfold containsBounds expandBounds at hc
  simp only [Bool.and_eq_true, decide_eq_true_eq] at hc
  obtain h | h := h
  · rw [if_pos h.1] at hc
    split at hc
    · dsimp only at hc; linarith [h.2]
    · split at hc <;> (dsimp only at hc; linarith [h.2])
  · have e : (if b.rowmin < a.rowmin then { a with rowmin := b.rowmin } else if a.rowmax < b.rowmax then { a with rowmax := b.rowmax } else a : Bounds).colmin = a.colmin ∧
        (if b.rowmin < a.rowmin then { a with rowmin := b.rowmin } else if a.rowmax < b.rowmax then { a with rowmax := b.rowmax } else a : Bounds).colmax = a.colmax := by
      split
      · exact ⟨rfl, rfl⟩
      · split <;> exact ⟨rfl, rfl⟩
    rw [if_pos (by rw [e.1]; exact h.1)] at hc
    dsimp only at hc
    rw [e.2] at hc
    linarith [h.2]

/-- **C36** Exactly when expand_bounds returns the hull of the two rectangles: when the argument does not stick out on both sides in one direction. -/
theorem C36_expand_bounds_exactly {a b : Bounds} (ha : NonEmpty a) (hb : NonEmpty b) :
    IsHull (a.expandBounds b) (fun x y => InRect a x y ∨ InRect b x y) ↔
      ¬ (b.rowmin < a.rowmin ∧ a.rowmax < b.rowmax) ∧ ¬ (b.colmin < a.colmin ∧ a.colmax < b.colmax) := by
  constructor
  · intro h
    by_contra hc
    have hm : (b.rowmin < a.rowmin ∧ a.rowmax < b.rowmax) ∨ (b.colmin < a.colmin ∧ a.colmax < b.colmax) := by
      by_contra hn
      rw [not_or] at hn
      exact hc hn
    have := C36_expand_bounds_misses hm
    rw [(C36_contains_bounds hb).mpr (fun x y hxy => h.1 x y (.inr hxy))] at this
    cases this
  · rintro ⟨h1, h2⟩
    exact C36_expand_bounds_partial ha hb h1 h2

-- non-trivial instances
example : NonEmpty ⟨0, 4, 1, 3⟩ ∧ (Bounds.mk 0 4 1 3).expandPoint 5 0 = ⟨0, 5, 0, 3⟩ := ⟨by unfold NonEmpty; norm_num, by decide +kernel⟩
example : (Bounds.mk 0 4 1 3).expandPoints [5, -1] [2, 2] = .ok ⟨-1, 5, 1, 3⟩ := by decide +kernel
example : (Bounds.mk 0 4 1 3).expandBounds ⟨1, 6, -2, 2⟩ = ⟨0, 6, -2, 3⟩ := by decide +kernel
example : (Bounds.mk 0 4 1 3).intersectsBounds ⟨4, 6, 1, 2⟩ = false := by decide +kernel

/-- **C37** `inverse=True` and `inverse=False` undo each other for the same offset, and the two kinds of positions differ by the offset. -/
theorem C37_positions_convert (row col offset : ℚ) :
    (let p := makeWcsPosition row col offset false
     makeWcsPosition p.zrow p.zcol offset true = p) ∧
    (let p := makeWcsPosition row col offset true
     makeWcsPosition p.wcsRow p.wcsCol offset false = p) ∧
    ∀ inverse, let p := makeWcsPosition row col offset inverse
      p.wcsRow - p.zrow = offset ∧ p.wcsCol - p.zcol = offset ∧
      (if inverse then p.zrow = row ∧ p.zcol = col else p.wcsRow = row ∧ p.wcsCol = col) := by
  refine ⟨?_, ?_, ?_⟩
  · simp [makeWcsPosition]
  · simp [makeWcsPosition]
  · intro inverse
    cases inverse <;> simp [makeWcsPosition]

example : makeWcsPosition 3 (7/2) 1 false = ⟨3, 7/2, 2, 5/2⟩ := by decide +kernel

end Meds
