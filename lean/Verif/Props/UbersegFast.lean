import Verif.Lemmas.Float32
import Verif.Props.UbersegSlow
import Mathlib.Tactic.IntervalCases

/-!
# The compiled uberseg (C31, C32)
-/

namespace Meds
open Spec

/-- Labels are whole numbers from 0 on, as a seg map has them. -/
def Spec.WholeLabels (s : Img ℚ) : Prop := ∀ v ∈ s.flat, ∃ n : Nat, v = n

namespace Uberseg

theorem truncZ_nat (n : Nat) : truncZ (n : ℚ) = n := by
  unfold truncZ
  rw [if_pos (by positivity)]
  exact Int.floor_natCast n

theorem labelAt_of_get {s : Img ℚ} {a b : Nat} {v : ℚ} (h : s.get? a b = some v) : labelAt (s.map truncZ) a b = truncZ v := by
  unfold labelAt
  rw [Img.map_get?, h]
  rfl

theorem mem_points {F : F32} {s : Img ℚ} {p : Pt} :
    p ∈ points F (s.map truncZ) (MEDS.where s (fun v => decide (v ≠ 0))) ↔ ∃ c d l, Labelled s c d l ∧ p = ⟨F.int c, F.int d, truncZ l⟩ := by
  unfold points
  rw [List.mem_map]
  constructor
  · rintro ⟨⟨c, d⟩, h, rfl⟩
    obtain ⟨v, hv, hp⟩ := MEDS.mem_where.mp h
    exact ⟨c, d, v, ⟨hv, of_decide_eq_true hp⟩, by rw [labelAt_of_get hv]⟩
  · rintro ⟨c, d, l, h, rfl⟩
    exact ⟨(c, d), MEDS.mem_where.mpr ⟨l, h.1, decide_eq_true h.2⟩, by rw [labelAt_of_get h.1]⟩

theorem d2_rounded (F : F32) (a b c d : Nat) (l : Int) : F.d2 ⟨F.int c, F.int d, l⟩ (F.int a, F.int b) = roundedDist2 F.int a b c d := rfl

/-- Integers up to this magnitude are held exactly. -/
def F32.ExactTo (F : F32) (B : Int) : Prop := ∀ k, |k| ≤ B → F.int k = k

theorem F32.ieee_exact (rt : ℚ → ℚ) : (F32.ieee rt).ExactTo (2 ^ 24) := fun _ h => rndZ_exact (by norm_num) h

/-- Inside a stamp whose squared diagonal is held exactly, so are all distances. -/
theorem rounded_eq_dist2 {F : F32} {nr nc : Nat} (hx : F.ExactTo ((nr ^ 2 + nc ^ 2 : Nat) : Int)) {a b c d : Nat} (ha : a < nr) (hb : b < nc) (hc : c < nr) (hd : d < nc) :
    roundedDist2 F.int a b c d = dist2 a b c d := by
  have hB : ((nr ^ 2 + nc ^ 2 : Nat) : Int) = (nr : Int) ^ 2 + (nc : Int) ^ 2 := by push_cast; ring
  rw [hB] at hx
  have q1 : (nr : Int) ≤ (nr : Int) ^ 2 := by nlinarith
  have q2 : (nc : Int) ≤ (nc : Int) ^ 2 := by nlinarith
  have s1 : ((a : Int) - c) * ((a : Int) - c) ≤ (nr : Int) ^ 2 := by
    rw [← sq]
    apply sq_le_sq'
    · omega
    · omega
  have s2 : ((b : Int) - d) * ((b : Int) - d) ≤ (nc : Int) ^ 2 := by
    rw [← sq]
    apply sq_le_sq'
    · omega
    · omega
  have n1 := mul_self_nonneg ((a : Int) - c)
  have n2 := mul_self_nonneg ((b : Int) - d)
  unfold roundedDist2 dist2
  have e : ∀ k : Int, -((nr : Int) ^ 2 + (nc : Int) ^ 2) ≤ k → k ≤ (nr : Int) ^ 2 + (nc : Int) ^ 2 → F.int k = k := fun k h1 h2 => hx k (abs_le.mpr ⟨h1, h2⟩)
  rw [e a (by omega) (by omega), e b (by omega) (by omega), e c (by omega) (by omega), e d (by omega) (by omega), e ((a : Int) - c) (by omega) (by omega),
    e ((b : Int) - d) (by omega) (by omega), e (((a : Int) - c) * ((a : Int) - c)) (by omega) (by omega), e (((b : Int) - d) * ((b : Int) - d)) (by omega) (by omega),
    e _ (by omega) (by omega)]
  ring

/-- A rounded square of a difference of positions inside a range of `n` pixels. -/
theorem sq_close {F : F32} (hF : F.Sound) {a c n : Nat} (ha : a < n) (hc : c < n) :
    ((F.sq (F.int a - F.int c) : Int) : ℚ) ≤ 102 / 100 * ((n : ℚ) - 1) ^ 2 := by
  have bnd : ∀ k : Nat, k < n → 0 ≤ F.int k ∧ ((F.int k : Int) : ℚ) ≤ 1001 / 1000 * ((n : ℚ) - 1) := by
    intro k hk
    refine ⟨hF.nonneg (by omega), (hF.close k (by omega)).trans ?_⟩
    have : ((k : Int) : ℚ) ≤ (n : ℚ) - 1 := by
      have : (k : ℚ) + 1 ≤ n := by exact_mod_cast hk
      push_cast
      linarith
    linarith
  obtain ⟨a0, a1⟩ := bnd a ha
  obtain ⟨c0, c1⟩ := bnd c hc
  have hn : (0 : ℚ) ≤ (n : ℚ) - 1 := by
    have : (1 : ℚ) ≤ n := by exact_mod_cast (show 1 ≤ n by omega)
    linarith
  have key : ∀ x : Int, 0 ≤ x → (x : ℚ) ≤ 1001 / 1000 * ((n : ℚ) - 1) → ((F.sq x : Int) : ℚ) ≤ 102 / 100 * ((n : ℚ) - 1) ^ 2 := by
    intro x h0 h1
    have i0 := hF.nonneg h0
    have i1 := hF.close x h0
    have i2 : ((F.int x : Int) : ℚ) ≤ (1001 / 1000) ^ 2 * ((n : ℚ) - 1) := by linarith
    have i3 : (0 : ℚ) ≤ ((F.int x : Int) : ℚ) := by exact_mod_cast i0
    have j := hF.close (F.int x * F.int x) (mul_nonneg i0 i0)
    unfold F32.sq
    refine j.trans ?_
    push_cast
    have : ((F.int x : Int) : ℚ) * (F.int x : Int) ≤ ((1001 / 1000) ^ 2 * ((n : ℚ) - 1)) * ((1001 / 1000) ^ 2 * ((n : ℚ) - 1)) := mul_self_le_mul_self i3 i2
    nlinarith [sq_nonneg ((n : ℚ) - 1)]
  have a0' : (0 : ℚ) ≤ ((F.int a : Int) : ℚ) := by exact_mod_cast a0
  have c0' : (0 : ℚ) ≤ ((F.int c : Int) : ℚ) := by exact_mod_cast c0
  rcases le_total (F.int c) (F.int a) with h | h
  · exact key _ (by omega) (by push_cast; linarith)
  · rw [hF.sq_sub]
    exact key _ (by omega) (by push_cast; linarith)

theorem rounded_lt {F : F32} (hF : F.Sound) {nr nc : Nat} {a b c d : Nat} (ha : a < nr) (hb : b < nc) (hc : c < nr) (hd : d < nc) :
    ((roundedDist2 F.int a b c d : Int) : ℚ) < 11 / 10 * ((nr ^ 2 + nc ^ 2 : Nat) : ℚ) := by
  have h1 := sq_close hF ha hc
  have h2 := sq_close hF hb hd
  have h3 := hF.close (F.sq (F.int a - F.int c) + F.sq (F.int b - F.int d)) (add_nonneg (hF.sq_nonneg _) (hF.sq_nonneg _))
  have e : ((roundedDist2 F.int a b c d : Int) : ℚ) ≤ 1001 / 1000 * (102 / 100 * ((nr : ℚ) - 1) ^ 2 + 102 / 100 * ((nc : ℚ) - 1) ^ 2) := by
    refine h3.trans ?_
    push_cast
    linarith
  refine lt_of_le_of_lt e ?_
  have r1 : (1 : ℚ) ≤ nr := by exact_mod_cast (show 1 ≤ nr by omega)
  have r2 : (1 : ℚ) ≤ nc := by exact_mod_cast (show 1 ≤ nc by omega)
  push_cast
  nlinarith

theorem nearest_self {F : F32} (hF : F.Sound) {s : Img ℚ} {a b : Nat} {v : ℚ} (hv : s.get? a b = some v) (hv0 : v ≠ 0) : NearestRounded F.int s a b a b v := by
  refine ⟨⟨hv, hv0⟩, ?_⟩
  intro c' d' l' _
  have e : roundedDist2 F.int a b a b = 0 := by
    unfold roundedDist2
    simp only [sub_self, hF.zero, mul_zero, add_zero]
  rw [e, ← d2_rounded F a b c' d' 0]
  exact hF.d2_nonneg _ _

theorem nearest_of_exact {F : F32} {s : Img ℚ} (hx : F.ExactTo ((s.nr ^ 2 + s.nc ^ 2 : Nat) : Int)) {a b c d : Nat} {l : ℚ} (ha : a < s.nr) (hb : b < s.nc)
    (h : NearestRounded F.int s a b c d l) : Nearest s a b c d l := by
  refine ⟨h.1, ?_⟩
  intro c' d' l' h'
  obtain ⟨hc, hd⟩ := Img.get?_lt h.1.1
  obtain ⟨hc', hd'⟩ := Img.get?_lt h'.1
  have := h.2 c' d' l' h'
  rwa [rounded_eq_dist2 hx ha hb hc hd, rounded_eq_dist2 hx ha hb hc' hd'] at this

variable {F : F32} {f32 : ℚ → ℚ} {fuel : Nat}

/-- One pixel of the tree version: it returns, and decides by some labelled pixel at the least rounded distance. -/
theorem treeZero_spec (hF : F.Sound) (hfuel : enough ≤ fuel) {s : Img ℚ} (hs : s.WF) (hl : WholeLabels s) {number : Int} (hn : 0 < number)
    {a b : Nat} (ha : a < s.nr) (hb : b < s.nc) :
    ∃ z, treeZero F fuel (init F (points F (s.map truncZ) (MEDS.where s (fun v => decide (v ≠ 0))))) (F.maxr s.nr s.nc) number
        (labelAt (s.map truncZ) a b) (F.int a, F.int b) = .ok z ∧
      ((∃ c d l, Labelled s c d l) → ∃ c d l, NearestRounded F.int s a b c d l ∧ z = decide (l ≠ number)) ∧
      ((¬ ∃ c d l, Labelled s c d l) → z = false) := by
  obtain ⟨v, hv⟩ := Img.get?_some_of_WF hs ha hb
  obtain ⟨n, hnv⟩ := hl v (Img.get?_mem_flat hv)
  have hlab : labelAt (s.map truncZ) a b = n := by rw [labelAt_of_get hv, hnv, truncZ_nat]
  rw [hlab]
  unfold treeZero
  by_cases h1 : (n : Int) = number
  · rw [if_pos h1]
    refine ⟨false, rfl, ?_, fun _ => rfl⟩
    intro _
    have hv0 : v ≠ 0 := by rw [hnv]; intro h0; have : n = 0 := by exact_mod_cast h0
                           omega
    refine ⟨a, b, v, nearest_self hF hv hv0, ?_⟩
    symm
    rw [decide_eq_false_iff_not, not_not, hnv, ← h1]
    simp
  · rw [if_neg h1]
    by_cases h2 : (n : Int) > 0
    · rw [if_pos ⟨h2, h1⟩]
      have hv0 : v ≠ 0 := by rw [hnv]; intro h0; have : n = 0 := by exact_mod_cast h0
                             omega
      refine ⟨true, rfl, ?_, ?_⟩
      · intro _
        refine ⟨a, b, v, nearest_self hF hv hv0, ?_⟩
        symm
        rw [decide_eq_true_eq, hnv]
        intro h
        exact h1 (by exact_mod_cast h)
      · intro hno
        exact absurd ⟨a, b, v, hv, hv0⟩ hno
    · rw [if_neg (fun h => h2 h.1)]
      obtain ⟨res, hres⟩ := growLoop_returns hF (F.int a, F.int b) (init F (points F (s.map truncZ) (MEDS.where s (fun v => decide (v ≠ 0)))))
        (nextClosest F (F.int a, F.int b) (init F (points F (s.map truncZ) (MEDS.where s (fun v => decide (v ≠ 0)))))) (F.maxr s.nr s.nc) hfuel
      have hmem : ∀ p, p ∈ (init F (points F (s.map truncZ) (MEDS.where s (fun v => decide (v ≠ 0))))).pts ↔ ∃ c d l, Labelled s c d l ∧ p = ⟨F.int c, F.int d, truncZ l⟩ := by
        intro p
        rw [init_mem, mem_points]
      have hcov := growLoop_covers hF (init_ok F _) (nr := s.nr) (nc := s.nc) (by
        intro p hp
        obtain ⟨c, d, l, hlcd, rfl⟩ := (hmem p).mp hp
        rw [d2_rounded]
        obtain ⟨hc, hd⟩ := Img.get?_lt hlcd.1
        exact rounded_lt hF ha hb hc hd) hres
      rw [hres]
      dsimp only
      cases res with
      | nil =>
        refine ⟨false, rfl, ?_, fun _ => rfl⟩
        rintro ⟨c, d, l, h⟩
        obtain ⟨q, hq, _⟩ := hcov.2 _ ((hmem _).mpr ⟨c, d, l, h, rfl⟩)
        cases hq
      | cons x xs =>
        have hseg : ∀ p ∈ x :: xs, p.seg ≠ -1 := by
          intro p hp
          obtain ⟨c, d, l, h, rfl⟩ := (hmem p).mp (hcov.1 p hp)
          obtain ⟨k, hk⟩ := hl l (Img.get?_mem_flat h.1)
          show truncZ l ≠ -1
          rw [hk, truncZ_nat]
          omega
        obtain ⟨p, hp, hp1, hp2⟩ := pick_first hF (F.int a, F.int b) x xs hseg
        obtain ⟨c, d, l, h, rfl⟩ := (hmem p).mp (hcov.1 p hp)
        obtain ⟨k, hk⟩ := hl l (Img.get?_mem_flat h.1)
        rw [hp1]
        have hk' : (⟨F.int c, F.int d, truncZ l⟩ : Pt).seg = k := by show truncZ l = k; rw [hk, truncZ_nat]
        rw [hk', if_neg (by omega)]
        refine ⟨decide ((k : Int) ≠ number), rfl, ?_, fun hno => absurd ⟨c, d, l, h⟩ hno⟩
        intro _
        refine ⟨c, d, l, ⟨h, ?_⟩, ?_⟩
        · intro c' d' l' h'
          obtain ⟨q, hq, hle⟩ := hcov.2 _ ((hmem _).mpr ⟨c', d', l', h', rfl⟩)
          have := (hp2 q hq).trans hle
          rw [d2_rounded, d2_rounded] at this
          exact this
        · rw [hk]
          apply decide_eq_decide.mpr
          constructor
          · intro hh hq
            exact hh (by exact_mod_cast hq)
          · intro hh hq
            exact hh (by exact_mod_cast hq)

/-- **C31** `uberseg_tree` returns for every seg map with whole labels, of any size, after at most 1032 growth steps per pixel.
If some pixel is labelled, each pixel is decided by a labelled pixel whose distance, as rounded, is least: kept if that one is the object's, zeroed if not.
If no pixel is labelled, nothing is zeroed. -/
theorem C31_tree_returns (hF : F.Sound) (hfuel : enough ≤ fuel) {s w : Img ℚ} (hs : s.WF) (hw : w.WF) (hr : w.nr = s.nr) (hc : w.nc = s.nc)
    (hl : WholeLabels s) {number : Int} (hn : 0 < number) :
    ∃ u, fastLoop F f32 fuel s w number = .ok u ∧ u.nr = w.nr ∧ u.nc = w.nc ∧ u.WF ∧
      ∀ a b v, w.get? a b = some v →
        ((∃ c d l, Labelled s c d l) → ∃ c d l, NearestRounded F.int s a b c d l ∧ u.get? a b = some (if l = number then f32 v else 0)) ∧
        ((¬ ∃ c d l, Labelled s c d l) → u.get? a b = some (f32 v)) := by
  obtain ⟨z, hz⟩ := Img.ofFnRes_of_forall (nr := (s.map truncZ).nr) (nc := (s.map truncZ).nc)
    (f := fun x y => treeZero F fuel (init F (points F (s.map truncZ) (MEDS.where s (fun v => decide (v ≠ 0))))) (F.maxr (s.map truncZ).nr (s.map truncZ).nc) number
        (labelAt (s.map truncZ) x y) (F.int x, F.int y)) (by
    intro a b ha hb
    obtain ⟨z, h, _⟩ := treeZero_spec hF hfuel hs hl hn ha hb
    exact ⟨z, h⟩)
  obtain ⟨h1, h2, h3, h4⟩ := Img.ofFnRes_ok hz
  refine ⟨MEDS.zeroWhere z (w.map f32), ?_, rfl, rfl, Img.mapPix_WF (Img.map_WF hw _) _, ?_⟩
  · unfold fastLoop tree
    dsimp only
    rw [hz]
    rfl
  · intro a b v hv
    obtain ⟨ha, hb⟩ := Img.get?_lt hv
    obtain ⟨t, ht, hs'⟩ := h4 a b (by show a < s.nr; omega) (by show b < s.nc; omega)
    obtain ⟨t', ht', hyes, hno⟩ := treeZero_spec (F := F) hF hfuel hs hl hn (a := a) (b := b) (by omega) (by omega)
    have e : t = t' := by
      have := hs'.symm.trans ht'
      injection this
    subst e
    have hvf : (w.map f32).get? a b = some (f32 v) := by rw [Img.map_get?, hv]; rfl
    rw [MEDS.zeroWhere_get? hvf ht]
    constructor
    · intro hex
      obtain ⟨c, d, l, hnear, rfl⟩ := hyes hex
      refine ⟨c, d, l, hnear, ?_⟩
      by_cases hln : l = number <;> simp [hln]
    · intro hex
      rw [hno hex]
      rfl

/-- **C31** In stamps whose squared diagonal `nr² + nc²` is held exactly (in `float`: at most 2^24, `F32.ieee_exact`), each pixel is decided by one of the labelled
pixels nearest to it. -/
theorem C31_tree_returns_nearest (hF : F.Sound) (hfuel : enough ≤ fuel) {s w : Img ℚ} (hx : F.ExactTo ((s.nr ^ 2 + s.nc ^ 2 : Nat) : Int)) (hs : s.WF) (hw : w.WF)
    (hr : w.nr = s.nr) (hc : w.nc = s.nc) (hl : WholeLabels s) {number : Int} (hn : 0 < number) :
    ∃ u, fastLoop F f32 fuel s w number = .ok u ∧ u.nr = w.nr ∧ u.nc = w.nc ∧ u.WF ∧
      ∀ a b v, w.get? a b = some v →
        ((∃ c d l, Labelled s c d l) → ∃ c d l, Nearest s a b c d l ∧ u.get? a b = some (if l = number then f32 v else 0)) ∧
        ((¬ ∃ c d l, Labelled s c d l) → u.get? a b = some (f32 v)) := by
  obtain ⟨u, h1, h2, h3, h4, h5⟩ := C31_tree_returns (f32 := f32) hF hfuel hs hw hr hc hl hn
  refine ⟨u, h1, h2, h3, h4, ?_⟩
  intro a b v hv
  obtain ⟨ha, hb⟩ := Img.get?_lt hv
  refine ⟨fun hex => ?_, (h5 a b v hv).2⟩
  obtain ⟨c, d, l, hnear, e⟩ := (h5 a b v hv).1 hex
  exact ⟨c, d, l, nearest_of_exact hx (by omega) (by omega) hnear, e⟩

variable {m : MEDS} {i k : Nat} {o : ObjRow}

/-- **C31** `get_uberseg(..., fast=True)` returns for every seg map, whenever its inputs can be read. -/
theorem C31_fast_returns (hF : F.Sound) (hfuel : enough ≤ fuel) (hr : m.cat.rows[i]? = some o) (hnum : m.cat.dtype.hasNumber = true) (hpos : 0 < o.number) {cim s : Img ℚ}
    (hcw : m.getCweightCutout i k false = .ok cim) (hi : m.interpolateCoaddSeg i k = .ok s) (hl : WholeLabels s) :
    ∃ u, getUbersegFast F f32 fuel m i k = .ok u := by
  obtain ⟨e1, e2, e3, e4⟩ := MEDS.uberseg_shapes hcw hi
  unfold getUbersegFast MEDS.getUbersegWith
  rw [hcw]; simp only [Res.ok_bind]
  rw [hi]; simp only [Res.ok_bind]
  split
  · exact ⟨_, rfl⟩
  · unfold MEDS.numberColumn
    rw [if_pos hnum, show m.row (i : Int) = .ok o from pyGet_nat_some hr]
    simp only [Res.ok_bind]
    obtain ⟨u, hu, _⟩ := C31_tree_returns (f32 := f32) hF hfuel e4 e3 e1 e2 hl hpos
    exact ⟨u, hu⟩

/-- **C31 (partial)** The rule through `get_uberseg(..., fast=True)`, for seg maps that do not have exactly two distinct values.
Missing: those with exactly two, where the code returns the composite weight before the compiled code is called (as for C30; `C31_counterexample`). -/
theorem C31_fast_rule_partial (hF : F.Sound) (hfuel : enough ≤ fuel) (hr : m.cat.rows[i]? = some o) (hnum : m.cat.dtype.hasNumber = true) (hpos : 0 < o.number) {cim s : Img ℚ}
    (hcw : m.getCweightCutout i k false = .ok cim) (hi : m.interpolateCoaddSeg i k = .ok s) (hl : WholeLabels s) (h2 : MEDS.nUnique s ≠ 2)
    (hx : F.ExactTo ((s.nr ^ 2 + s.nc ^ 2 : Nat) : Int)) 
    (hex : ∃ c d l, Labelled s c d l) :
    ∃ u, getUbersegFast F f32 fuel m i k = .ok u ∧ u.nr = cim.nr ∧ u.nc = cim.nc ∧ u.WF ∧
      ∀ a b w, cim.get? a b = some w → ∃ c d l, Nearest s a b c d l ∧ u.get? a b = some (if l = o.number then f32 w else 0) := by
  obtain ⟨e1, e2, e3, e4⟩ := MEDS.uberseg_shapes hcw hi
  obtain ⟨u, hu, u1, u2, u3, u4⟩ := C31_tree_returns_nearest (f32 := f32) hF hfuel hx e4 e3 e1 e2 hl hpos
  refine ⟨u, ?_, u1, u2, u3, fun a b w hw => (u4 a b w hw).1 hex⟩
  unfold getUbersegFast MEDS.getUbersegWith
  rw [hcw]; simp only [Res.ok_bind]
  rw [hi]; simp only [Res.ok_bind]
  rw [if_neg h2]
  unfold MEDS.numberColumn
  rw [if_pos hnum, show m.row (i : Int) = .ok o from pyGet_nat_some hr]
  simp only [Res.ok_bind]
  exact hu

/-! ### Fast and slow -/

/-- At no pixel do two nearest labelled pixels differ in whether they are the object's. -/
def _root_.Meds.Spec.NoMixedTies (s : Img ℚ) (number : Int) : Prop :=
  ∀ a b c d l c' d' l', a < s.nr → b < s.nc → Nearest s a b c d l → Nearest s a b c' d' l' → (l = number ↔ l' = number)

/-- **C32** Without mixed ties the compiled tree version and the Python loop give the same image (weights that `float32` holds exactly). -/
theorem C32_tree_equals_python (hF : F.Sound) (hfuel : enough ≤ fuel) {s w : Img ℚ} (hx : F.ExactTo ((s.nr ^ 2 + s.nc ^ 2 : Nat) : Int)) (hs : s.WF) (hw : w.WF) (hr : w.nr = s.nr) (hc : w.nc = s.nc)
    (hl : WholeLabels s) {number : Int} (hn : 0 < number) (hex : ∃ c d l, Labelled s c d l) (hties : NoMixedTies s number) (hf : ∀ v ∈ w.flat, f32 v = v) :
    fastLoop F f32 fuel s w number = MEDS.ubersegSlow s w number := by
  obtain ⟨u, hu, u1, u2, u3, u4⟩ := C31_tree_returns_nearest (f32 := f32) hF hfuel hx hs hw hr hc hl hn
  obtain ⟨u', hu', v1, v2, v3, v4⟩ := MEDS.ubersegSlow_pixels number hw hr hc hex
  rw [hu, hu']
  congr 1
  refine Img.ext_get u3 v3 (by rw [u1, v1]) (by rw [u2, v2]) ?_
  intro a b ha hb
  obtain ⟨v, hv⟩ := Img.get?_some_of_WF hw (i := a) (j := b) (by omega) (by omega)
  obtain ⟨c, d, l, n1, e1⟩ := (u4 a b v hv).1 hex
  obtain ⟨c', d', l', n2, e2⟩ := v4 a b v hv
  rw [e1, e2, hf v (Img.get?_mem_flat hv)]
  have := hties a b c d l c' d' l' (by omega) (by omega) n1 n2.1
  by_cases h : l = number
  · rw [if_pos h, if_pos (this.mp h)]
  · rw [if_neg h, if_neg (fun h' => h (this.mpr h'))]

/-- **C32** `get_uberseg` gives the same image with `fast=True` and `fast=False`. -/
theorem C32_fast_equals_slow (hF : F.Sound) (hfuel : enough ≤ fuel) (hr : m.cat.rows[i]? = some o) (hnum : m.cat.dtype.hasNumber = true) (hpos : 0 < o.number) {cim s : Img ℚ}
    (hcw : m.getCweightCutout i k false = .ok cim) (hi : m.interpolateCoaddSeg i k = .ok s) (hl : WholeLabels s) (hex : ∃ c d l, Labelled s c d l)
    (hx : F.ExactTo ((s.nr ^ 2 + s.nc ^ 2 : Nat) : Int)) (hties : NoMixedTies s o.number) (hf : ∀ v ∈ cim.flat, f32 v = v) :
    ∃ u, getUbersegFast F f32 fuel m i k = .ok u ∧ m.getUbersegSlow i k = .ok u := by
  obtain ⟨e1, e2, e3, e4⟩ := MEDS.uberseg_shapes hcw hi
  unfold getUbersegFast MEDS.getUbersegSlow MEDS.getUbersegWith
  rw [hcw]; simp only [Res.ok_bind]
  rw [hi]; simp only [Res.ok_bind]
  split
  · exact ⟨cim, rfl, rfl⟩
  · unfold MEDS.numberColumn
    rw [if_pos hnum, show m.row (i : Int) = .ok o from pyGet_nat_some hr]
    simp only [Res.ok_bind]
    rw [C32_tree_equals_python hF hfuel hx e4 e3 e1 e2 hl hpos hex hties hf]
    obtain ⟨u, hu, _⟩ := MEDS.ubersegSlow_pixels o.number e3 e1 e2 hex
    exact ⟨u, hu, hu⟩

theorem directStep_nearestTo (x y : Nat) (p : Nat × Nat) (ps : List (Nat × Nat)) (dp : Int) (hd : dp = ((x : Int) - p.1) ^ 2 + ((y : Int) - p.2) ^ 2) :
    ∃ dq, ps.foldl (directStep x y) (some (p.1, p.2, dp)) = some ((MEDS.nearestTo x y p ps).1, (MEDS.nearestTo x y p ps).2, dq) := by
  induction ps generalizing p dp with
  | nil => exact ⟨dp, rfl⟩
  | cons q qs ih =>
    rw [List.foldl_cons]
    unfold directStep MEDS.nearestTo
    dsimp only
    have hq : ((x : Int) - q.1) * ((x : Int) - q.1) + ((y : Int) - q.2) * ((y : Int) - q.2) = ((x : Int) - q.1) ^ 2 + ((y : Int) - q.2) ^ 2 := by ring
    rw [hq, hd]
    split
    · exact ih q _ rfl
    · exact ih p _ rfl

/-- The direct compiled version decides each pixel as the Python loop does. -/
theorem directZero_eq_slowZero {s : Img ℚ} (hs : s.WF) (hl : WholeLabels s) {number : Int} (hn : 0 < number) (hex : ∃ c d l, Labelled s c d l) {a b : Nat}
    (ha : a < s.nr) (hb : b < s.nc) :
    MEDS.slowZero s number (MEDS.where s (fun v => decide (v ≠ 0))) a b =
      .ok (directZero (s.map truncZ) (MEDS.where s (fun v => decide (v ≠ 0))) number a b) := by
  obtain ⟨v, hv⟩ := Img.get?_some_of_WF hs ha hb
  obtain ⟨n, hnv⟩ := hl v (Img.get?_mem_flat hv)
  obtain ⟨c, d, l, hfn, hsz⟩ := MEDS.slowZero_spec (number := number) hex a b
  have hlab : labelAt (s.map truncZ) a b = n := by rw [labelAt_of_get hv, hnv, truncZ_nat]
  have hown : v ≠ 0 → l = v := by
    intro hv0
    have h1 := hfn.1.2 a b v ⟨hv, hv0⟩
    have h2 : dist2 a b a b = 0 := by unfold dist2; simp
    rw [h2] at h1
    unfold dist2 at h1
    have q1 : ((a : Int) - c) ^ 2 = 0 := by nlinarith [sq_nonneg ((a : Int) - c), sq_nonneg ((b : Int) - d)]
    have q2 : ((b : Int) - d) ^ 2 = 0 := by nlinarith [sq_nonneg ((a : Int) - c), sq_nonneg ((b : Int) - d)]
    have r1 := pow_eq_zero_iff (by norm_num) |>.mp q1
    have r2 := pow_eq_zero_iff (by norm_num) |>.mp q2
    have e1 : c = a := by omega
    have e2 : d = b := by omega
    have := hfn.1.1.1
    rw [e1, e2, hv] at this
    injection this with this
    exact this.symm
  unfold directZero
  dsimp only
  rw [hlab]
  by_cases h1 : (n : Int) = number
  · rw [if_pos h1, hsz, hown (by rw [hnv]; intro h0; have : n = 0 := by exact_mod_cast h0
                                 omega), hnv, ← h1]
    simp
  · rw [if_neg h1]
    by_cases h2 : (n : Int) > 0
    · rw [if_pos ⟨h2, h1⟩, hsz, hown (by rw [hnv]; intro h0; have : n = 0 := by exact_mod_cast h0
                                         omega), hnv]
      congr 1
      rw [decide_eq_true_eq]
      intro h
      exact h1 (by exact_mod_cast h)
    · rw [if_neg (fun h => h2 h.1)]
      unfold MEDS.slowZero
      cases hw : MEDS.where s (fun v => decide (v ≠ 0)) with
      | nil =>
        obtain ⟨c0, d0, l0, h0⟩ := hex
        have := MEDS.mem_where.mpr (⟨l0, h0.1, decide_eq_true h0.2⟩ : ∃ v, s.get? c0 d0 = some v ∧ (fun v => decide (v ≠ 0)) v = true)
        rw [hw] at this
        cases this
      | cons p ps =>
        dsimp only
        obtain ⟨dq, hdq⟩ := directStep_nearestTo a b p ps _ rfl
        have e : directStep a b none p = some (p.1, p.2, ((a : Int) - p.1) ^ 2 + ((b : Int) - p.2) ^ 2) := by
          unfold directStep
          dsimp only
          congr 3
          ring
        rw [List.foldl_cons, e, hdq]
        dsimp only
        have hin := (MEDS.nearestTo_spec a b p ps (by rw [← hw]; exact MEDS.where_sorted _ _)).1
        rw [← hw] at hin
        obtain ⟨x, hx, _⟩ := MEDS.mem_where.mp (show ((MEDS.nearestTo a b p ps).1, (MEDS.nearestTo a b p ps).2) ∈ _ from hin)
        obtain ⟨j, hj⟩ := hl x (Img.get?_mem_flat hx)
        rw [hx, labelAt_of_get hx, hj, truncZ_nat]
        dsimp only
        congr 1
        apply decide_eq_decide.mpr
        constructor
        · intro hh hq
          exact hh (by exact_mod_cast hq)
        · intro hh hq
          exact hh (by exact_mod_cast hq)

/-- **C32** The direct compiled version gives the same image as the Python loop, ties included (weights that `float32` holds exactly). -/
theorem C32_direct_equals_python {s w : Img ℚ} (hs : s.WF) (hw : w.WF) (hr : w.nr = s.nr) (hc : w.nc = s.nc)
    (hl : WholeLabels s) {number : Int} (hn : 0 < number) (hex : ∃ c d l, Labelled s c d l) (hf : ∀ v ∈ w.flat, f32 v = v) :
    directLoop f32 s w number = MEDS.ubersegSlow s w number := by
  obtain ⟨z, hz⟩ := Img.ofFnRes_of_forall (nr := s.nr) (nc := s.nc) (f := MEDS.slowZero s number (MEDS.where s (fun v => decide (v ≠ 0)))) (by
    intro a b _ _
    obtain ⟨_, _, l, _, h⟩ := MEDS.slowZero_spec (number := number) hex a b
    exact ⟨_, h⟩)
  obtain ⟨h1, h2, h3, h4⟩ := Img.ofFnRes_ok hz
  unfold directLoop MEDS.ubersegSlow
  rw [hz]
  simp only [Res.ok_bind]
  congr 1
  refine Img.ext_get (Img.mapPix_WF (Img.map_WF hw _) _) (Img.mapPix_WF hw _) rfl rfl ?_
  intro a b ha hb
  have ha' : a < s.nr := by rw [← hr]; exact ha
  have hb' : b < s.nc := by rw [← hc]; exact hb
  obtain ⟨v, hv⟩ := Img.get?_some_of_WF hw (i := a) (j := b) (by omega) (by omega)
  obtain ⟨t, ht, hst⟩ := h4 a b ha' hb'
  rw [directZero_eq_slowZero hs hl hn hex ha' hb'] at hst
  injection hst with hst
  rw [MEDS.zeroWhere_get? hv ht, ← hst]
  unfold direct
  rw [Img.mapPix_get?, Img.map_get?, hv]
  simp only [Option.map_some]
  rw [hf v (Img.get?_mem_flat hv)]

/-- **C32** `get_uberseg` with the direct compiled version in place of the tree gives the image of `fast=False`, with no condition on ties or on the size of the stamp. -/
theorem C32_direct_equals_slow {f32 : ℚ → ℚ} {m : MEDS} {i k : Nat} {o : ObjRow} (hr : m.cat.rows[i]? = some o) (hnum : m.cat.dtype.hasNumber = true) (hpos : 0 < o.number) {cim s : Img ℚ}
    (hcw : m.getCweightCutout i k false = .ok cim) (hi : m.interpolateCoaddSeg i k = .ok s) (hl : WholeLabels s) (hex : ∃ c d l, Labelled s c d l)
    (hf : ∀ v ∈ cim.flat, f32 v = v) :
    ∃ u, getUbersegDirect f32 m i k = .ok u ∧ m.getUbersegSlow i k = .ok u := by
  obtain ⟨e1, e2, e3, e4⟩ := MEDS.uberseg_shapes hcw hi
  unfold getUbersegDirect MEDS.getUbersegSlow MEDS.getUbersegWith
  rw [hcw]; simp only [Res.ok_bind]
  rw [hi]; simp only [Res.ok_bind]
  split
  · exact ⟨cim, rfl, rfl⟩
  · unfold MEDS.numberColumn
    rw [if_pos hnum, show m.row (i : Int) = .ok o from pyGet_nat_some hr]
    simp only [Res.ok_bind]
    rw [C32_direct_equals_python e4 e3 e1 e2 hl hpos hex hf]
    obtain ⟨u, hu, _⟩ := MEDS.ubersegSlow_pixels o.number e3 e1 e2 hex
    exact ⟨u, hu, hu⟩

end Uberseg
end Meds

namespace Meds
open Spec
namespace Uberseg

/-- **C31** In the C code's own arithmetic: `get_uberseg(..., fast=True)` returns, whatever `sqrt` the C library has, if it is accurate to a relative error of about 2^-41. -/
theorem C31_fast_returns_ieee {rt : ℚ → ℚ} (h0 : ∀ n : Nat, 0 ≤ rt n) (hrt : ∀ n : Nat, (1 - 1 / 2 ^ 40) * (n : ℚ) ≤ rt n ^ 2) {f32 : ℚ → ℚ} {fuel : Nat} (hfuel : enough ≤ fuel)
    {m : MEDS} {i k : Nat} {o : ObjRow} (hr : m.cat.rows[i]? = some o) (hnum : m.cat.dtype.hasNumber = true) (hpos : 0 < o.number) {cim s : Img ℚ}
    (hcw : m.getCweightCutout i k false = .ok cim) (hi : m.interpolateCoaddSeg i k = .ok s) (hl : WholeLabels s) :
    ∃ u, getUbersegFast (F32.ieee rt) f32 fuel m i k = .ok u :=
  C31_fast_returns (F32.ieee_sound h0 hrt) hfuel hr hnum hpos hcw hi hl

/-- **C31 (partial)** The rule in the C code's own arithmetic, for stamps with `nr² + nc² ≤ 2^24` (squares of up to 2896 pixels on a side).
Missing: larger stamps (`C31_large_counterexample`) and seg maps with exactly two values (`C31_counterexample`). -/
theorem C31_fast_rule_ieee_partial {rt : ℚ → ℚ} (h0 : ∀ n : Nat, 0 ≤ rt n) (hrt : ∀ n : Nat, (1 - 1 / 2 ^ 40) * (n : ℚ) ≤ rt n ^ 2) {f32 : ℚ → ℚ} {fuel : Nat} (hfuel : enough ≤ fuel)
    {m : MEDS} {i k : Nat} {o : ObjRow} (hr : m.cat.rows[i]? = some o) (hnum : m.cat.dtype.hasNumber = true) (hpos : 0 < o.number) {cim s : Img ℚ}
    (hcw : m.getCweightCutout i k false = .ok cim) (hi : m.interpolateCoaddSeg i k = .ok s) (hl : WholeLabels s) (h2 : MEDS.nUnique s ≠ 2)
    (hsize : s.nr ^ 2 + s.nc ^ 2 ≤ 2 ^ 24) (hex : ∃ c d l, Labelled s c d l) :
    ∃ u, getUbersegFast (F32.ieee rt) f32 fuel m i k = .ok u ∧ u.nr = cim.nr ∧ u.nc = cim.nc ∧ u.WF ∧
      ∀ a b w, cim.get? a b = some w → ∃ c d l, Nearest s a b c d l ∧ u.get? a b = some (if l = o.number then f32 w else 0) :=
  C31_fast_rule_partial (F32.ieee_sound h0 hrt) hfuel hr hnum hpos hcw hi hl h2
    (fun k hk => F32.ieee_exact rt k (hk.trans (by exact_mod_cast hsize))) hex

/-! ### Concrete cases -/

/-- There is such an arithmetic. -/
example : (F32.ieee sqrtApprox).Sound := F32.ieee_sound (fun n => (sqrtApprox_accurate n).1) (fun n => (sqrtApprox_accurate n).2)

/-- Arithmetic without rounding, for examples that the kernel evaluates. -/
def exF : F32 := ⟨id, (· * ·), (11 / 10 * ·), 10 / 11, id, fun a b => 11 / 10 * (a + b)⟩

theorem exF_sound : exF.Sound := by
  refine ⟨fun _ _ h => h, rfl, fun _ => rfl, fun _ => rfl, fun k hk => ?_, by show (9 / 10 : ℚ) ≤ 10 / 11; norm_num, fun x hx => by show 109 / 100 * x ≤ 11 / 10 * x; linarith, ?_⟩
  · have : (0 : ℚ) ≤ k := by exact_mod_cast hk
    show ((k : Int) : ℚ) ≤ _
    linarith
  intro nr nc x hx
  change 11 / 10 * ((nr : ℚ) + nc) < x at hx
  show _ ≤ x * x
  push_cast
  have h1 : (0 : ℚ) ≤ nr := by positivity
  have h2 : (0 : ℚ) ≤ nc := by positivity
  nlinarith

-- a map with three values, one epoch of the example file
example : getUbersegFast exF id 1032 Ex.segMed 0 1 = .ok ⟨4, 4, [4, 0, 0, 0, 0, 0, 0, 0, 0, 4, 0, 0, 4, 4, 0, 0]⟩ := by decide +kernel

-- the direct version on the same epoch (C32_direct_equals_slow)
example : getUbersegDirect id Ex.segMed 0 1 = .ok ⟨4, 4, [4, 0, 0, 0, 0, 0, 0, 0, 0, 4, 0, 0, 4, 4, 0, 0]⟩ ∧
    Ex.segMed.getUbersegSlow 0 1 = .ok ⟨4, 4, [4, 0, 0, 0, 0, 0, 0, 0, 0, 4, 0, 0, 4, 4, 0, 0]⟩ := by decide +kernel

-- all sky: nothing is zeroed, after the growth factor has overflowed
example : fastLoop exF id 1032 ⟨2, 2, [0, 0, 0, 0]⟩ ⟨2, 2, [1, 2, 3, 4]⟩ 1 = .ok ⟨2, 2, [1, 2, 3, 4]⟩ := by decide +kernel

/-- Object 1 on the left, object 2 on the right, no tie. -/
def lineSeg : Img ℚ := ⟨1, 4, [1, 0, 0, 2]⟩

theorem lineSeg_labelled {c d : Nat} {l : ℚ} (h : Labelled lineSeg c d l) : c = 0 ∧ ((d = 0 ∧ l = 1) ∨ (d = 3 ∧ l = 2)) := by
  obtain ⟨h, h0⟩ := h
  obtain ⟨hc, hd⟩ := Img.get?_lt h
  change c < 1 at hc
  change d < 4 at hd
  have : c = 0 := by omega
  subst this
  refine ⟨rfl, ?_⟩
  interval_cases d <;> simp [lineSeg, Img.get?] at h <;> simp_all

-- the hypotheses of C32_tree_equals_python, C31_tree_returns_nearest and C32_direct_equals_python together
example : fastLoop exF id 1032 lineSeg ⟨1, 4, [5, 6, 7, 8]⟩ 1 = .ok ⟨1, 4, [5, 6, 0, 0]⟩ ∧ MEDS.ubersegSlow lineSeg ⟨1, 4, [5, 6, 7, 8]⟩ 1 = .ok ⟨1, 4, [5, 6, 0, 0]⟩ ∧
    directLoop id lineSeg ⟨1, 4, [5, 6, 7, 8]⟩ 1 = .ok ⟨1, 4, [5, 6, 0, 0]⟩ := by decide +kernel

example : fastLoop exF id 1032 lineSeg ⟨1, 4, [5, 6, 7, 8]⟩ 1 = MEDS.ubersegSlow lineSeg ⟨1, 4, [5, 6, 7, 8]⟩ 1 := by
  refine C32_tree_equals_python (s := lineSeg) (w := ⟨1, 4, [5, 6, 7, 8]⟩) (number := 1) exF_sound (le_refl _) (fun _ _ => rfl) (by decide +kernel) (by decide +kernel) rfl rfl ?_ (by decide) ⟨0, 0, 1, by decide +kernel, by decide⟩ ?_ (fun _ _ => rfl)
  · intro v hv
    simp only [lineSeg, List.mem_cons, List.not_mem_nil, or_false] at hv
    rcases hv with rfl | rfl | rfl | rfl
    exacts [⟨1, by norm_num⟩, ⟨0, by norm_num⟩, ⟨0, by norm_num⟩, ⟨2, by norm_num⟩]
  · intro a b c d l c' d' l' ha hb h1 h2
    have ha : a = 0 := by change a < 1 at ha; omega
    have hb : b < 4 := hb
    have k1 := h1.2 _ _ _ h2.1
    have k2 := h2.2 _ _ _ h1.1
    obtain ⟨rfl, e1⟩ := lineSeg_labelled h1.1
    obtain ⟨rfl, e2⟩ := lineSeg_labelled h2.1
    subst ha
    rcases e1 with ⟨rfl, rfl⟩ | ⟨rfl, rfl⟩ <;> rcases e2 with ⟨rfl, rfl⟩ | ⟨rfl, rfl⟩
    · simp
    · exfalso
      simp only [dist2] at k1 k2
      interval_cases b <;> first | (norm_num at k1; done) | (norm_num at k2; done)
    · exfalso
      simp only [dist2] at k1 k2
      interval_cases b <;> first | (norm_num at k1; done) | (norm_num at k2; done)
    · simp

/-- Objects 1 (above) and 2 (below) with an empty row between them. -/
def tieSeg : Img ℚ := Img.ofFn 9 9 (fun i _ => if i < 4 then 1 else if i > 4 then 2 else 0)

/-- **C32** The condition on ties is needed: with more than 40 labelled pixels the tree returns them in another order, and pixel (4, 8), which is as far from
object 1 as from object 2, is kept by the Python loop and zeroed by the tree version. -/
theorem C32_ties_differ : ∃ u u' : Img ℚ, fastLoop exF id 1032 tieSeg (Img.ofFn 9 9 (fun _ _ => 1)) 1 = .ok u ∧
    MEDS.ubersegSlow tieSeg (Img.ofFn 9 9 (fun _ _ => 1)) 1 = .ok u' ∧ u'.get? 4 8 = some 1 ∧ u.get? 4 8 = some 0 := by
  have h : (match fastLoop exF id 1032 tieSeg (Img.ofFn 9 9 (fun _ _ => 1)) 1, MEDS.ubersegSlow tieSeg (Img.ofFn 9 9 (fun _ _ => 1)) 1 with
    | .ok u, .ok u' => decide (u'.get? 4 8 = some 1 ∧ u.get? 4 8 = some 0)
    | _, _ => false) = true := by decide +kernel
  split at h
  · rename_i u u' h1 h2
    exact ⟨u, u', h1, h2, (of_decide_eq_true h).1, (of_decide_eq_true h).2⟩
  · cases h

/-! ### Stamps too large for `float` -/

/-- The pixels of the result of the tree version. -/
theorem fastLoop_pixel {F : F32} {f32 : ℚ → ℚ} {fuel : Nat} {s w u : Img ℚ} {number : Int} (h : fastLoop F f32 fuel s w number = .ok u) {a b : Nat} (ha : a < s.nr) (hb : b < s.nc)
    {v : ℚ} (hv : w.get? a b = some v) :
    ∃ z, treeZero F fuel (init F (points F (s.map truncZ) (MEDS.where s (fun v => decide (v ≠ 0))))) (F.maxr s.nr s.nc) number (labelAt (s.map truncZ) a b) (F.int a, F.int b) = .ok z ∧
      u.get? a b = some (if z then 0 else f32 v) := by
  unfold fastLoop tree at h
  dsimp only at h
  obtain ⟨z, hz, hu⟩ := Res.bind_eq_ok.mp h
  injection hu with hu
  subst hu
  obtain ⟨_, _, _, h4⟩ := Img.ofFnRes_ok hz
  obtain ⟨t, ht, htz⟩ := h4 a b ha hb
  have hvf : (w.map f32).get? a b = some (f32 v) := by rw [Img.map_get?, hv]; rfl
  exact ⟨t, htz, MEDS.zeroWhere_get? hvf ht⟩

/-- The loop returns what a search with some radius finds. -/
theorem growLoop_result {F : F32} {c : Int × Int} {t : Tree} {r maxr : ℚ} {n : Nat} {fac : Flt} {res : List Pt} (h : growLoop F c t r maxr n fac = some res) :
    ∃ rf, res = findSphere F c rf t := by
  induction n generalizing fac with
  | zero => cases h
  | succ n ih =>
    unfold growLoop at h
    dsimp only at h
    split at h
    · exact ih h
    · injection h with h
      exact ⟨_, h.symm⟩

/-- Object 2 has one pixel at a squared distance of 2^24 + 1 from the corner, object 1 one at 2^24. -/
def bigSeg : Img ℚ := Img.ofFn 4097 4097 (fun i j => if i = 1 ∧ j = 4096 then 2 else if i = 4096 ∧ j = 0 then 1 else 0)

theorem bigSeg_labelled {c d : Nat} {l : ℚ} : Labelled bigSeg c d l ↔ (c = 1 ∧ d = 4096 ∧ l = 2) ∨ (c = 4096 ∧ d = 0 ∧ l = 1) := by
  unfold Labelled
  constructor
  · rintro ⟨h, h0⟩
    obtain ⟨hc, hd⟩ := Img.get?_lt h
    change c < 4097 at hc
    change d < 4097 at hd
    rw [bigSeg, Img.ofFn_get? _ hc hd] at h
    injection h with h
    split_ifs at h with e1 e2
    · exact .inl ⟨e1.1, e1.2, h.symm⟩
    · exact .inr ⟨e2.1, e2.2, h.symm⟩
    · exact absurd h.symm h0
  · rintro (⟨rfl, rfl, rfl⟩ | ⟨rfl, rfl, rfl⟩)
    · exact ⟨by rw [bigSeg, Img.ofFn_get? _ (by norm_num) (by norm_num)]; norm_num, by norm_num⟩
    · exact ⟨by rw [bigSeg, Img.ofFn_get? _ (by norm_num) (by norm_num)]; norm_num, by norm_num⟩

theorem bigSeg_where : MEDS.where bigSeg (fun v => decide (v ≠ 0)) = [(1, 4096), (4096, 0)] := by
  have hs := MEDS.where_sorted bigSeg (fun v => decide (v ≠ 0))
  have hm : ∀ q : Nat × Nat, q ∈ MEDS.where bigSeg (fun v => decide (v ≠ 0)) ↔ q = (1, 4096) ∨ q = (4096, 0) := by
    rintro ⟨c, d⟩
    rw [MEDS.mem_where]
    constructor
    · rintro ⟨v, hv, h0⟩
      rcases bigSeg_labelled.mp ⟨hv, of_decide_eq_true h0⟩ with ⟨rfl, rfl, _⟩ | ⟨rfl, rfl, _⟩
      · exact .inl rfl
      · exact .inr rfl
    · rintro (h | h)
      · injection h with h1 h2
        subst h1 h2
        obtain ⟨h, h0⟩ := bigSeg_labelled.mpr (.inl ⟨rfl, rfl, rfl⟩)
        exact ⟨2, h, decide_eq_true h0⟩
      · injection h with h1 h2
        subst h1 h2
        obtain ⟨h, h0⟩ := bigSeg_labelled.mpr (.inr ⟨rfl, rfl, rfl⟩)
        exact ⟨1, h, decide_eq_true h0⟩
  generalize MEDS.where bigSeg (fun v => decide (v ≠ 0)) = L at hs hm
  have irr : ∀ q : Nat × Nat, ¬ Before q.1 q.2 q.1 q.2 := by
    rintro q (h | ⟨_, h⟩) <;> omega
  match L, hs, hm with
  | [], _, hm => exact absurd ((hm (1, 4096)).mpr (.inl rfl)) (by simp)
  | [x], _, hm =>
    have h1 := (hm (1, 4096)).mpr (.inl rfl)
    have h2 := (hm (4096, 0)).mpr (.inr rfl)
    rw [List.mem_singleton] at h1 h2
    rw [← h1] at h2
    cases h2
  | x :: y :: rest, hs, hm =>
    rw [List.pairwise_cons, List.pairwise_cons] at hs
    obtain ⟨hx, hy, _⟩ := hs
    have hxy := hx y (by simp)
    have mx := (hm x).mp (by simp)
    have my := (hm y).mp (by simp)
    have ex : x = (1, 4096) ∧ y = (4096, 0) := by
      rcases mx with rfl | rfl <;> rcases my with rfl | rfl
      · exact absurd hxy (irr _)
      · exact ⟨rfl, rfl⟩
      · rcases hxy with h | ⟨h, _⟩ <;> simp at h
      · exact absurd hxy (irr _)
    obtain ⟨rfl, rfl⟩ := ex
    cases rest with
    | nil => rfl
    | cons z zs =>
      have mz := (hm z).mp (by simp)
      have h1 := hx z (by simp)
      have h2 := hy z (by simp)
      rcases mz with rfl | rfl
      · exact absurd h1 (irr _)
      · exact absurd h2 (irr _)

/-- **C31** The limit on the size is real.  In every arithmetic that holds integers with 24 bits, as `float` does, the corner of a stamp of 4097 pixels on a side is zeroed although the
only labelled pixel nearest to it is the object's: 2^24 + 1 is rounded to 2^24, and of equal distances the first counts. -/
theorem C31_large_counterexample {F : F32} (hF : F.Sound) (h24 : F.int = rndZ 24) :
    ∃ u, fastLoop F id enough bigSeg (Img.ofFn 4097 4097 (fun _ _ => 1)) 1 = .ok u ∧ u.get? 0 0 = some 0 ∧
      Nearest bigSeg 0 0 4096 0 1 ∧ ∀ c d l, Nearest bigSeg 0 0 c d l → l = 1 := by
  have hs : bigSeg.WF := Img.ofFn_WF _ _ _
  have hl : WholeLabels bigSeg := by
    intro v hv
    obtain ⟨c, d, h⟩ := Img.flat_mem_get? hs hv
    by_cases h0 : v = 0
    · exact ⟨0, by rw [h0]; rfl⟩
    · rcases bigSeg_labelled.mp ⟨h, h0⟩ with ⟨_, _, e⟩ | ⟨_, _, e⟩
      · exact ⟨2, by rw [e]; rfl⟩
      · exact ⟨1, by rw [e]; rfl⟩
  obtain ⟨u, hu, -⟩ := C31_tree_returns (F := F) (f32 := id) (fuel := enough) hF le_rfl hs (w := Img.ofFn 4097 4097 (fun _ _ => 1)) (Img.ofFn_WF _ _ _) rfl rfl hl (number := 1) (by norm_num)
  have hnear : Nearest bigSeg 0 0 4096 0 1 := by
    refine ⟨bigSeg_labelled.mpr (.inr ⟨rfl, rfl, rfl⟩), ?_⟩
    intro c' d' l' h
    rcases bigSeg_labelled.mp h with ⟨rfl, rfl, _⟩ | ⟨rfl, rfl, _⟩ <;> decide
  refine ⟨u, hu, ?_, hnear, ?_⟩
  · obtain ⟨z, hz, hg⟩ := fastLoop_pixel hu (a := 0) (b := 0) (by show 0 < 4097; norm_num) (by show 0 < 4097; norm_num) (Img.ofFn_get? _ (by norm_num) (by norm_num))
    rw [hg]
    suffices z = true by rw [this]; rfl
    have hlab : labelAt (bigSeg.map truncZ) 0 0 = 0 := by
      rw [labelAt_of_get (v := 0)]
      · rfl
      · rw [bigSeg, Img.ofFn_get? _ (by norm_num) (by norm_num)]
        norm_num
    have hp : points F (bigSeg.map truncZ) (MEDS.where bigSeg (fun v => decide (v ≠ 0))) = [⟨F.int 1, F.int 4096, 2⟩, ⟨F.int 4096, F.int 0, 1⟩] := by
      unfold points
      rw [bigSeg_where]
      have l1 : labelAt (bigSeg.map truncZ) 1 4096 = 2 := by
        rw [labelAt_of_get (bigSeg_labelled.mpr (.inl ⟨rfl, rfl, rfl⟩)).1]
        rfl
      have l2 : labelAt (bigSeg.map truncZ) 4096 0 = 1 := by
        rw [labelAt_of_get (bigSeg_labelled.mpr (.inr ⟨rfl, rfl, rfl⟩)).1]
        rfl
      simp only [List.map_cons, List.map_nil, l1, l2]
      rfl
    rw [hlab, hp] at hz
    unfold treeZero at hz
    rw [if_neg (by norm_num), if_neg (by norm_num)] at hz
    generalize hT : init F [⟨F.int 1, F.int 4096, 2⟩, ⟨F.int 4096, F.int 0, 1⟩] = t at hz
    have ht : t = .leaf (minmax [⟨F.int 1, F.int 4096, 2⟩, ⟨F.int 4096, F.int 0, 1⟩]) [⟨F.int 1, F.int 4096, 2⟩, ⟨F.int 4096, F.int 0, 1⟩] := hT.symm
    have d1 : F.d2 ⟨F.int 1, F.int 4096, 2⟩ (F.int 0, F.int 0) = 2 ^ 24 := by
      show roundedDist2 F.int 0 0 1 4096 = _
      rw [h24]
      decide +kernel
    have d2 : F.d2 ⟨F.int 4096, F.int 0, 1⟩ (F.int 0, F.int 0) = 2 ^ 24 := by
      show roundedDist2 F.int 0 0 4096 0 = _
      rw [h24]
      decide +kernel
    have hok : t.Ok := by rw [← hT]; exact init_ok F _
    obtain ⟨res, hres⟩ := growLoop_returns hF (F.int 0, F.int 0) t (nextClosest F (F.int 0, F.int 0) t) (F.maxr bigSeg.nr bigSeg.nc) (n := enough) le_rfl
    change (match growLoop F (F.int 0, F.int 0) t (nextClosest F (F.int 0, F.int 0) t) (F.maxr bigSeg.nr bigSeg.nc) enough (.fin F.fac0) with
      | none => Except.error Err.unmodelled
      | some res => if (res.foldl (pick F (F.int 0, F.int 0)) (-1, 0)).1 = -1 then Except.ok false else Except.ok (decide ((res.foldl (pick F (F.int 0, F.int 0)) (-1, 0)).1 ≠ 1))) = .ok z at hz
    rw [hres] at hz
    dsimp only at hz
    have hcov := growLoop_covers hF hok (nr := 4097) (nc := 4097) (by
      intro p hp
      rw [ht] at hp
      rcases List.mem_cons.mp hp with rfl | hp
      · rw [d1]; norm_num
      · rw [List.mem_singleton] at hp
        subst hp
        rw [d2]; norm_num) hres
    obtain ⟨rf, hrf⟩ := growLoop_result hres
    have hres2 : res = [⟨F.int 1, F.int 4096, 2⟩, ⟨F.int 4096, F.int 0, 1⟩] := by
      have hne : res ≠ [] := by
        obtain ⟨q, hq, _⟩ := hcov.2 ⟨F.int 1, F.int 4096, 2⟩ (by rw [ht]; exact List.mem_cons_self)
        exact List.ne_nil_of_mem hq
      rw [hrf, ht] at hne ⊢
      unfold findSphere at hne ⊢
      split
      · rename_i hb
        rw [if_pos hb] at hne
        exact absurd rfl hne
      · rename_i hb
        rw [if_neg hb] at hne
        split
        · rfl
        · rename_i hb2
          rw [if_neg hb2] at hne
          simp only [List.filter_cons, List.filter_nil, d1, d2] at hne ⊢
          split
          · rfl
          · rename_i hb3
            rw [if_neg hb3, if_neg hb3] at hne
            exact absurd rfl hne
    rw [hres2] at hz
    simp only [List.foldl_cons, List.foldl_nil, pick_eq hF, d1, d2] at hz
    norm_num at hz
    exact hz
  · intro c d l h
    rcases bigSeg_labelled.mp h.1 with ⟨rfl, rfl, _⟩ | ⟨_, _, e⟩
    · have := h.2 _ _ _ hnear.1
      exact absurd this (by decide)
    · exact e

/-- **C32** The limit on the size is needed here too: on that stamp, which has no ties, the Python loop keeps the corner and the tree version zeroes it. -/
theorem C32_large_stamps_differ {F : F32} (hF : F.Sound) (h24 : F.int = rndZ 24) :
    NoMixedTies bigSeg 1 ∧ ∃ u u', fastLoop F id enough bigSeg (Img.ofFn 4097 4097 (fun _ _ => 1)) 1 = .ok u ∧
      MEDS.ubersegSlow bigSeg (Img.ofFn 4097 4097 (fun _ _ => 1)) 1 = .ok u' ∧ u.get? 0 0 = some 0 ∧ u'.get? 0 0 = some 1 := by
  constructor
  · intro a b c d l c' d' l' _ _ h1 h2
    have k1 := h1.2 _ _ _ h2.1
    have k2 := h2.2 _ _ _ h1.1
    have k := le_antisymm k1 k2
    rcases bigSeg_labelled.mp h1.1 with ⟨rfl, rfl, rfl⟩ | ⟨rfl, rfl, rfl⟩ <;> rcases bigSeg_labelled.mp h2.1 with ⟨rfl, rfl, rfl⟩ | ⟨rfl, rfl, rfl⟩
    · exact Iff.rfl
    · exfalso
      unfold dist2 at k
      push_cast at k
      ring_nf at k
      omega
    · exfalso
      unfold dist2 at k
      push_cast at k
      ring_nf at k
      omega
    · exact Iff.rfl
  · obtain ⟨u, hu, h0, hnear, huniq⟩ := C31_large_counterexample hF h24
    have er : (Img.ofFn 4097 4097 (fun _ _ => (1 : ℚ))).nr = bigSeg.nr := by unfold bigSeg Img.ofFn; rfl
    have ec : (Img.ofFn 4097 4097 (fun _ _ => (1 : ℚ))).nc = bigSeg.nc := by unfold bigSeg Img.ofFn; rfl
    obtain ⟨u', hu', _, _, _, v4⟩ := MEDS.ubersegSlow_pixels (seg := bigSeg) (w := Img.ofFn 4097 4097 (fun _ _ => 1)) 1 (Img.ofFn_WF _ _ _) er ec ⟨4096, 0, 1, hnear.1⟩
    refine ⟨u, u', hu, hu', h0, ?_⟩
    obtain ⟨c, d, l, hfn, e⟩ := v4 0 0 1 (Img.ofFn_get? _ (by norm_num) (by norm_num))
    rw [e, huniq c d l hfn.1, if_pos (by norm_num)]

/-- `float` is such an arithmetic. -/
example : (F32.ieee sqrtApprox).Sound ∧ (F32.ieee sqrtApprox).int = rndZ 24 := ⟨F32.ieee_sound (fun n => (sqrtApprox_accurate n).1) (fun n => (sqrtApprox_accurate n).2), rfl⟩

/-- **C31** is false through `get_uberseg` for a map with exactly two values: the only labelled pixel is another object's, but sky pixels keep their weight. -/
theorem C31_counterexample : ∃ s u : Img ℚ, Ex.skyMed.interpolateCoaddSeg 0 0 = .ok s ∧ getUbersegFast exF id 1032 Ex.skyMed 0 0 = .ok u ∧
    (∀ o, Ex.skyMed.cat.rows[0]? = some o → o.number = 11) ∧ Labelled s 0 0 5 ∧ (∀ c d l, Labelled s c d l → l = 5) ∧ u.get? 1 1 = some 4 := by
  refine ⟨⟨4, 4, [5, 0, 0, 0, 0, 0, 0, 0, 0, 0, 0, 0, 0, 0, 0, 0]⟩, ⟨4, 4, [0, 0, 4, 4, 0, 4, 4, 0, 4, 4, 0, 0, 4, 0, 0, 4]⟩, by decide +kernel, by decide +kernel, ?_, ?_, ?_, by decide +kernel⟩
  · have h : (Ex.skyMed.cat.rows[0]?).map (·.number) = some 11 := by decide +kernel
    intro o ho
    rw [ho] at h
    simpa using h
  · exact ⟨by decide +kernel, by decide⟩
  · rintro c d l ⟨h, h0⟩
    have := Img.get?_mem_flat h
    simp only [List.mem_cons, List.not_mem_nil, or_false] at this
    tauto

end Uberseg
end Meds
