import Verif.Spec.CoaddNaN
import Verif.Props.EpochTests
import Verif.Props.CoaddObs

/-!
# The tests of an epoch with weights of any kind, reduced to those with numbers
-/

namespace Meds.Coadd
open Meds.Spec Meds.Coadd.Spec Compare

/-- A number that is at most zero exactly when the weight is, and zero exactly when the weight is. -/
def lowSide : Flt → ℚ
  | .num q => q
  | .nan => 1
  | .inf s => if s then -1 else 1

/-- A number that is positive exactly when the weight is. -/
def highSide : Flt → ℚ
  | .num q => q
  | .nan => -1
  | .inf s => if s then -1 else 1

theorem lowSide_le (w : Flt) : decide (lowSide w ≤ 0) = w.leZero := by
  rcases w with q | _ | s
  · rfl
  · show decide ((1 : ℚ) ≤ 0) = false; decide +kernel
  · cases s
    · show decide ((1 : ℚ) ≤ 0) = false; decide +kernel
    · show decide ((-1 : ℚ) ≤ 0) = true; decide +kernel

theorem lowSide_eq (w : Flt) : decide (lowSide w = 0) = w.eqZero := by
  rcases w with q | _ | s
  · rfl
  · show decide ((1 : ℚ) = 0) = false; decide +kernel
  · cases s
    · show decide ((1 : ℚ) = 0) = false; decide +kernel
    · show decide ((-1 : ℚ) = 0) = false; decide +kernel

theorem highSide_le (w : Flt) : decide (highSide w ≤ 0) = !w.gtZero := by
  rcases w with q | _ | s
  · show decide (q ≤ 0) = !decide (0 < q)
    rw [← decide_not]
    simp
  · show decide ((-1 : ℚ) ≤ 0) = true; decide +kernel
  · cases s
    · show decide ((1 : ℚ) ≤ 0) = false; decide +kernel
    · show decide ((-1 : ℚ) ≤ 0) = true; decide +kernel

theorem zipWith_map_right {α β γ δ : Type} (f : α → γ → δ) (g : β → γ) (a : Img α) (b : Img β) :
    Img.zipWith f a (b.map g) = Img.zipWith (fun x y => f x (g y)) a b := by
  unfold Img.zipWith Img.map
  simp only [List.zipWith_map_right]

theorem badPixelsF_eq (flags : Option Int) (bm : Img ℚ) (wt : Img Flt) : badPixelsF flags bm wt = badPixels flags bm (wt.map lowSide) := by
  unfold badPixels badPixelsF
  rw [zipWith_map_right]
  simp only [lowSide_le]

theorem okPixelsF_get? (flags : Option Int) (bm : Img ℚ) (wt : Img Flt) (i j : Nat) :
    ((okPixelsF flags bm wt).get? i j == some true) = ((badPixels flags bm (wt.map highSide)).get? i j == some false) := by
  have e : badPixels flags bm (wt.map highSide) = (okPixelsF flags bm wt).map (fun b => !b) := by
    unfold badPixels okPixelsF
    rw [zipWith_map_right]
    simp only [highSide_le]
    unfold Img.zipWith Img.map
    simp only [List.map_zipWith, Bool.not_and, Bool.not_not]
  rw [e, Img.map_get?]
  cases (okPixelsF flags bm wt).get? i j with
  | none => rfl
  | some b => cases b <;> rfl

theorem maskFracF_eq (flags : Option Int) (bm : Img ℚ) (wt : Img Flt) : maskFracF flags bm wt = maskFrac flags bm (wt.map lowSide) := by
  unfold maskFracF maskFrac
  rw [badPixelsF_eq]

theorem centralMaskedF_eq (cfg : Cfg) (bm : Img ℚ) (wt : Img Flt) : centralMaskedF cfg bm wt = centralMasked cfg bm (wt.map highSide) := by
  unfold centralMaskedF centralMasked
  simp only [okPixelsF_get?]
  rfl

theorem someSideG_eq (f : ℚ → Bool) (im : Img ℚ) : someSideG f im = someSide f im := rfl

theorem someSideG_map {α : Type} (f : ℚ → Bool) (g : α → ℚ) (im : Img α) : someSideG (fun x => f (g x)) im = someSide f (im.map g) := by
  unfold someSideG someSide allRow allCol
  simp only [Img.map_get?, Option.map_map]
  rfl

theorem psEdgeMaskedF_eq (cfg : Cfg) (bm : Img ℚ) (wt : Img Flt) : psEdgeMaskedF cfg bm wt = psEdgeMasked cfg bm (wt.map lowSide) := by
  unfold psEdgeMaskedF psEdgeMasked
  rw [← someSideG_map]
  simp only [lowSide_eq, someSideG_eq]
  rfl

/-- With numbers only, the tests are those of `Model/Coadd.lean`. -/
theorem epochFlagF_num (cfg : Cfg) (bm wt : Img ℚ) : epochFlagF cfg bm (wt.map .num) = epochFlag cfg bm wt := by
  have e1 : (wt.map Flt.num).map lowSide = wt := by
    unfold Img.map
    simp only [List.map_map]
    have : (lowSide ∘ Flt.num) = id := rfl
    rw [this, List.map_id]
  have e2 : (wt.map Flt.num).map highSide = wt := by
    unfold Img.map
    simp only [List.map_map]
    have : (highSide ∘ Flt.num) = id := rfl
    rw [this, List.map_id]
  unfold epochFlagF epochFlag
  rw [maskFracF_eq, centralMaskedF_eq, psEdgeMaskedF_eq, e1, e2]
  have e3 : (wt.map Flt.num).flat.all (fun w => !w.gtZero) = wt.flat.all (fun w => decide (w ≤ 0)) := by
    show (wt.flat.map Flt.num).all _ = _
    rw [List.all_map]
    congr 1
    funext q
    exact (highSide_le (.num q)).symm
  rw [e3]

theorem atMostZero_iff (w : Flt) : AtMostZero w ↔ lowSide w ≤ 0 := by
  rw [← decide_eq_true_iff (p := lowSide w ≤ 0), lowSide_le]
  rcases w with q | _ | s
  · show q ≤ 0 ↔ decide (q ≤ 0) = true
    simp
  · show False ↔ false = true
    simp
  · rfl

theorem positive_iff (w : Flt) : Positive w ↔ ¬ highSide w ≤ 0 := by
  rw [← decide_eq_true_iff (p := highSide w ≤ 0), highSide_le]
  rcases w with q | _ | s
  · show 0 < q ↔ ¬ (!decide (0 < q)) = true
    simp
  · show False ↔ ¬ (!false) = true
    simp
  · cases s
    · show false = false ↔ ¬ (!!false) = true
      simp
    · show true = false ↔ ¬ (!!true) = true
      simp

theorem unusableF_iff (flags : Option Int) (bm : Img ℚ) (wt : Img Flt) (i j : Nat) :
    UnusableF flags bm wt i j ↔ BadAt flags bm (wt.map lowSide) i j := by
  unfold UnusableF BadAt
  simp only [Img.map_get?]
  constructor
  · rintro ⟨b, w, hb, hw, h⟩
    exact ⟨b, lowSide w, hb, by rw [hw]; rfl, h.imp (atMostZero_iff w).mp id⟩
  · rintro ⟨b, w, hb, hw, h⟩
    obtain ⟨w', e, rfl⟩ := Option.map_eq_some_iff.mp hw
    exact ⟨b, w', hb, e, h.imp (atMostZero_iff w').mpr id⟩

theorem not_usableF_iff {flags : Option Int} {bm : Img ℚ} {wt : Img Flt} (hs : ShapesAgree bm wt) {i j : Nat} (hi : i < wt.nr) (hj : j < wt.nc) :
    ¬ UsableF flags bm wt i j ↔ BadAt flags bm (wt.map highSide) i j := by
  obtain ⟨b, eb⟩ := Img.get?_some_of_WF hs.1 (show i < bm.nr by rw [hs.2.2.1]; exact hi) (show j < bm.nc by rw [hs.2.2.2]; exact hj)
  obtain ⟨w, ew⟩ := Img.get?_some_of_WF hs.2.1 hi hj
  unfold UsableF BadAt
  simp only [Img.map_get?, eb, ew, Option.map_some, Option.some.injEq]
  constructor
  · intro h
    refine ⟨b, _, rfl, rfl, ?_⟩
    by_contra hc
    rw [not_or] at hc
    exact h ⟨b, w, rfl, rfl, (positive_iff w).mpr hc.1, hc.2⟩
  · rintro ⟨_, _, rfl, rfl, h⟩ ⟨_, _, rfl, rfl, h1, h2⟩
    exact h.elim ((positive_iff w).mp h1) h2

theorem shapes_low {bm : Img ℚ} {wt : Img Flt} (hs : ShapesAgree bm wt) (f : Flt → ℚ) : SameShape bm (wt.map f) :=
  ⟨hs.1, Img.map_WF hs.2.1 f, hs.2.2.1, hs.2.2.2⟩

/-! ### The median of floats -/

theorem count_num (q : ℚ) : ∀ l : List Flt, (l.filterMap Flt.num?).count q = l.count (.num q)
  | [] => rfl
  | .num a :: l => by
    have ih := count_num q l
    simp only [List.filterMap_cons, Flt.num?, List.count_cons, ih]
    by_cases h : a = q
    · subst h; simp
    · have h1 : ((a == q) : Bool) = false := by simpa using h
      have h2 : ((Flt.num a == Flt.num q) : Bool) = false := by simpa using h
      rw [h1, h2]
  | .nan :: l => by
    have ih := count_num q l
    simp only [List.filterMap_cons, Flt.num?, List.count_cons, ih]
    simp
  | .inf s :: l => by
    have ih := count_num q l
    simp only [List.filterMap_cons, Flt.num?, List.count_cons, ih]
    simp

theorem count_map_num (q : ℚ) : ∀ l : List ℚ, (l.map Flt.num).count (.num q) = l.count q
  | [] => rfl
  | a :: l => by
    have ih := count_map_num q l
    simp only [List.map_cons, List.count_cons, ih]
    by_cases h : a = q
    · subst h; simp
    · have h1 : ((a == q) : Bool) = false := by simpa using h
      have h2 : ((Flt.num a == Flt.num q) : Bool) = false := by simpa using h
      rw [h1, h2]

theorem sortF_perm {l : List Flt} (h : Flt.nan ∉ l) : (sortF l).Perm l := by
  rw [List.perm_iff_count]
  have hp := List.perm_insertionSort (· ≤ ·) (l.filterMap Flt.num?)
  intro a
  unfold sortF
  simp only [List.count_append, List.count_replicate]
  rcases a with q | _ | s
  · rw [count_map_num, hp.count_eq, count_num]
    simp
  · rw [List.count_eq_zero.mpr h]
    have : Flt.nan ∉ ((l.filterMap Flt.num?).insertionSort (· ≤ ·)).map Flt.num := by simp
    rw [List.count_eq_zero.mpr this]
    simp
  · have : Flt.inf s ∉ ((l.filterMap Flt.num?).insertionSort (· ≤ ·)).map Flt.num := by simp
    rw [List.count_eq_zero.mpr this]
    cases s <;> simp

theorem sortF_sorted (l : List Flt) : (sortF l).Pairwise LeF := by
  have hs := List.pairwise_insertionSort (α := ℚ) (· ≤ ·) (l.filterMap Flt.num?)
  unfold sortF
  rw [List.pairwise_append, List.pairwise_append]
  refine ⟨⟨?_, ?_, ?_⟩, ?_, ?_⟩
  · rw [List.pairwise_replicate]; exact .inr trivial
  · rw [List.pairwise_map]; exact hs
  · intro a ha b hb
    rw [List.eq_of_mem_replicate ha]
    obtain ⟨q, _, rfl⟩ := List.mem_map.mp hb
    trivial
  · rw [List.pairwise_replicate]; exact .inr trivial
  · intro a ha b hb
    rw [List.eq_of_mem_replicate hb]
    rcases List.mem_append.mp ha with ha | ha
    · rw [List.eq_of_mem_replicate ha]; trivial
    · obtain ⟨q, _, rfl⟩ := List.mem_map.mp ha
      trivial

theorem positive_not_nan {l : List Flt} (h : ∀ x ∈ l, Positive x) : Flt.nan ∉ l := fun hm => h _ hm

theorem mean_self {x : Flt} (h : Positive x) : MeanF x x x := by
  rcases x with q | _ | s
  · show Flt.num q = .num ((q + q) / 2)
    congr 1; ring
  · exact h.elim
  · show Flt.inf s = .inf false
    rw [show s = false from h]

theorem mean_half {x y : Flt} (hx : Positive x) (hy : Positive y) : MeanF x y (x.add y).half := by
  rcases x with p | _ | s
  · rcases y with q | _ | t
    · rfl
    · exact hy.elim
    · show Flt.inf t = .inf false
      rw [show t = false from hy]
  · exact hx.elim
  · have hs : s = false := hx
    subst hs
    rcases y with q | _ | t
    · rfl
    · exact hy.elim
    · have ht : t = false := hy
      subst ht
      rfl

theorem mean_positive {x y m : Flt} (hx : Positive x) (hy : Positive y) (h : MeanF x y m) : Positive m := by
  rcases x with p | _ | s
  · rcases y with q | _ | t
    · have h : m = .num ((p + q) / 2) := h
      rw [h]
      have h1 : 0 < p := hx
      have h2 : 0 < q := hy
      show 0 < (p + q) / 2
      linarith
    · exact hy.elim
    · have h : m = .inf false := h
      rw [h]; exact rfl
  · exact hx.elim
  · have h : m = .inf false := by cases y <;> exact h
    rw [h]; exact rfl

theorem medianF_isMedian {l : List Flt} (hne : l ≠ []) (hp : ∀ x ∈ l, Positive x) : IsMedianF l (medianF l) ∧ Positive (medianF l) := by
  have hn := positive_not_nan hp
  have hperm := sortF_perm hn
  have hlen : (sortF l).length = l.length := hperm.length_eq
  have hl : 0 < l.length := List.length_pos_iff.mpr hne
  have hk : ∀ k < l.length, ∃ x, (sortF l)[k]? = some x ∧ (sortF l).getD k .nan = x ∧ Positive x := by
    intro k hk
    refine ⟨(sortF l)[k]'(by omega), List.getElem?_eq_getElem _, ?_, hp _ (hperm.mem_iff.mp (List.getElem_mem _))⟩
    rw [List.getD_eq_getElem?_getD, List.getElem?_eq_getElem (by omega)]
    rfl
  unfold medianF
  rw [if_neg hn]
  by_cases ho : l.length % 2 = 1
  · rw [if_pos ho]
    obtain ⟨x, h1, h2, h3⟩ := hk (l.length / 2) (by omega)
    rw [h2]
    exact ⟨⟨sortF l, hperm, sortF_sorted l, x, x, by rw [show (l.length - 1) / 2 = l.length / 2 by omega]; exact h1, h1, mean_self h3⟩, h3⟩
  · rw [if_neg ho]
    obtain ⟨x, h1, h2, h3⟩ := hk (l.length / 2 - 1) (by omega)
    obtain ⟨y, k1, k2, k3⟩ := hk (l.length / 2) (by omega)
    rw [h2, k2]
    have hm := mean_half h3 k3
    exact ⟨⟨sortF l, hperm, sortF_sorted l, x, y, by rw [show (l.length - 1) / 2 = l.length / 2 - 1 by omega]; exact h1, k1, hm⟩, mean_positive h3 k3 hm⟩

/-! ### The pixels that are kept -/

/-- The indices of the pixels that are not replaced, as pixels. -/
theorem kept_list {flags : Option Int} {bm : Img ℚ} {wt : Img Flt} (hs : ShapesAgree bm wt) :
    ∃ ps, KeptPixels flags bm wt ps ∧ ((List.range (badPixelsF flags bm wt).flat.length).filter (fun k => (badPixelsF flags bm wt).flat[k]? == some false)).map
      (fun k => (k / wt.nc, k % wt.nc)) = ps := by
  rw [badPixelsF_eq]
  have hs' := shapes_low hs lowSide
  obtain ⟨hlen, hnc, hnr⟩ := badPixels_flat (flags := flags) hs'
  have hlen : (badPixels flags bm (wt.map lowSide)).flat.length = wt.nr * wt.nc := hlen
  have hnc : (badPixels flags bm (wt.map lowSide)).nc = wt.nc := hnc
  have hnr : (badPixels flags bm (wt.map lowSide)).nr = wt.nr := hnr
  refine ⟨_, ⟨?_, ?_⟩, rfl⟩
  · rw [List.pairwise_map]
    apply List.Pairwise.filter
    refine List.Pairwise.imp ?_ List.pairwise_lt_range
    intro x y hxy
    have h1 := Nat.div_add_mod x wt.nc
    have h2 := Nat.div_add_mod y wt.nc
    have h3 : x / wt.nc ≤ y / wt.nc := Nat.div_le_div_right hxy.le
    rcases Nat.lt_or_ge (x / wt.nc) (y / wt.nc) with h | h
    · exact .inl h
    · have e : x / wt.nc = y / wt.nc := by omega
      refine .inr ⟨e, ?_⟩
      rw [e] at h1
      show x % wt.nc < y % wt.nc
      omega
  · intro i j
    simp only [List.mem_map, List.mem_filter, List.mem_range, Prod.mk.injEq, beq_iff_eq, hlen]
    constructor
    · rintro ⟨k, ⟨hk, hb⟩, rfl, rfl⟩
      have hc0 : 0 < wt.nc := Nat.pos_of_ne_zero (fun h => by rw [h] at hk; omega)
      have hi : k / wt.nc < wt.nr := Nat.div_lt_of_lt_mul (by rw [Nat.mul_comm]; exact hk)
      have hj : k % wt.nc < wt.nc := Nat.mod_lt _ hc0
      refine ⟨hi, hj, ?_⟩
      obtain ⟨v, e, hv⟩ := badPixels_get? (flags := flags) hs' (i := k / wt.nc) (j := k % wt.nc) hi hj
      rw [get?_flat (by rw [hnr]; exact hi) (by rw [hnc]; exact hj), hnc, Nat.mul_comm, Nat.div_add_mod, hb] at e
      injection e with e
      intro hbad
      have := hv.mpr ((unusableF_iff _ _ _ _ _).mp hbad)
      rw [this] at e
      cases e
    · rintro ⟨hi, hj, hn⟩
      refine ⟨i * wt.nc + j, ⟨Img.idx_lt hi hj, ?_⟩, ?_, ?_⟩
      · obtain ⟨v, e, hv⟩ := badPixels_get? (flags := flags) hs' (i := i) (j := j) hi hj
        rw [get?_flat (by rw [hnr]; exact hi) (by rw [hnc]; exact hj), hnc] at e
        rw [e]
        cases v
        · rfl
        · exact absurd ((unusableF_iff _ _ _ _ _).mpr (hv.mp rfl)) hn
      · rw [Nat.mul_comm, Nat.mul_add_div (by omega), Nat.div_eq_of_lt hj, Nat.add_zero]
      · rw [Nat.mul_comm, Nat.mul_add_mod, Nat.mod_eq_of_lt hj]

theorem flat_get? {α : Type} {im : Img α} {k : Nat} (hk : k < im.nr * im.nc) : im.flat[k]? = im.get? (k / im.nc) (k % im.nc) := by
  have hc0 : 0 < im.nc := Nat.pos_of_ne_zero (fun h => by rw [h] at hk; omega)
  unfold Img.get?
  rw [if_pos ⟨Nat.div_lt_of_lt_mul (by rw [Nat.mul_comm]; exact hk), Nat.mod_lt _ hc0⟩, Nat.mul_comm, Nat.div_add_mod]

theorem get?_flatG {α : Type} {im : Img α} {i j : Nat} (hi : i < im.nr) (hj : j < im.nc) : im.get? i j = im.flat[i * im.nc + j]? := by
  unfold Img.get?
  rw [if_pos ⟨hi, hj⟩]

theorem mapIdx_get?G {α : Type} {im : Img α} {f : Nat → α → α} {i j : Nat} (hi : i < im.nr) (hj : j < im.nc) :
    Img.get? { im with flat := im.flat.mapIdx f } i j = (im.get? i j).map (f (i * im.nc + j)) := by
  rw [get?_flatG (im := { im with flat := im.flat.mapIdx f }) hi hj, get?_flatG hi hj, List.getElem?_mapIdx]

/-- Whether a pixel is replaced, by its position in the flat array. -/
theorem badF_flat {flags : Option Int} {bm : Img ℚ} {wt : Img Flt} (hs : ShapesAgree bm wt) {i j : Nat} (hi : i < wt.nr) (hj : j < wt.nc) :
    UnusableF flags bm wt i j ↔ (badPixelsF flags bm wt).flat[i * wt.nc + j]? = some true := by
  rw [badPixelsF_eq, unusableF_iff]
  have hs' := shapes_low hs lowSide
  obtain ⟨hlen, hnc, hnr⟩ := badPixels_flat (flags := flags) hs'
  obtain ⟨v, e, hv⟩ := badPixels_get? (flags := flags) hs' (i := i) (j := j) hi hj
  rw [get?_flat (by rw [hnr]; exact hi) (by rw [hnc]; exact hj), hnc] at e
  have e : (badPixels flags bm (wt.map lowSide)).flat[i * wt.nc + j]? = some v := e
  rw [e, ← hv]
  simp

theorem unusableF_lt {flags : Option Int} {bm : Img ℚ} {wt : Img Flt} {i j : Nat} (h : UnusableF flags bm wt i j) : i < wt.nr ∧ j < wt.nc := by
  obtain ⟨_, _, _, h, _⟩ := h
  exact Img.get?_lt h

theorem countF_zero {flags : Option Int} {bm : Img ℚ} {wt : Img Flt} (hs : ShapesAgree bm wt) :
    (badPixelsF flags bm wt).flat.count true = 0 ↔ ¬ ∃ i j, UnusableF flags bm wt i j := by
  rw [List.count_eq_zero]
  constructor
  · rintro h ⟨i, j, hb⟩
    exact h (List.mem_of_getElem? ((badF_flat hs (unusableF_lt hb).1 (unusableF_lt hb).2).mp hb))
  · intro h hm
    have hwf : (badPixelsF flags bm wt).WF := Img.zipWith_WF hs.1 hs.2.1 hs.2.2.1 hs.2.2.2 _
    obtain ⟨i, j, e⟩ := Img.flat_mem_get? hwf hm
    have hl := Img.get?_lt e
    have hnr : (badPixelsF flags bm wt).nr = wt.nr := hs.2.2.1
    have hnc : (badPixelsF flags bm wt).nc = wt.nc := hs.2.2.2
    have e' := e
    rw [get?_flatG hl.1 hl.2, hnc] at e'
    rw [hnr, hnc] at hl
    exact h ⟨i, j, (badF_flat hs hl.1 hl.2).mpr e'⟩

theorem not_unusable_cases {flags : Option Int} {bm : Img ℚ} {wt : Img Flt} (hs : ShapesAgree bm wt) {i j : Nat} (hi : i < wt.nr) (hj : j < wt.nc)
    (h : ¬ UnusableF flags bm wt i j) : UsableF flags bm wt i j ∨ NanWeight flags bm wt i j := by
  obtain ⟨b, eb⟩ := Img.get?_some_of_WF hs.1 (show i < bm.nr by rw [hs.2.2.1]; exact hi) (show j < bm.nc by rw [hs.2.2.2]; exact hj)
  obtain ⟨w, ew⟩ := Img.get?_some_of_WF hs.2.1 hi hj
  have hf : ¬ HasFlag flags b := fun hf => h ⟨b, w, eb, ew, .inr hf⟩
  have hz : ¬ AtMostZero w := fun hz => h ⟨b, w, eb, ew, .inl hz⟩
  rcases w with q | _ | s
  · exact .inl ⟨b, _, eb, ew, not_le.mp hz, hf⟩
  · exact .inr ⟨b, eb, ew, hf⟩
  · exact .inl ⟨b, _, eb, ew, by
      show s = false
      cases s
      · rfl
      · exact (hz rfl).elim, hf⟩

theorem nan_not_unusable {flags : Option Int} {bm : Img ℚ} {wt : Img Flt} {i j : Nat} (h : NanWeight flags bm wt i j) : ¬ UnusableF flags bm wt i j := by
  rintro ⟨b, w, eb, ew, hz⟩
  obtain ⟨b', eb', ew', hf⟩ := h
  rw [eb] at eb'
  rw [ew] at ew'
  injection eb' with eb'
  injection ew' with ew'
  subst eb' ew'
  exact hz.elim id hf

end Meds.Coadd
