import Verif.Spec.Coadd
import Verif.Lemmas.Composite
import Mathlib.Data.List.Sort
import Mathlib.Data.List.Induction

/-!
# Epochs of a coadd (C46 – C49, C57 – C59)
-/

namespace Meds.Coadd
open Spec

/-! ### Which epochs are used (C46) -/

/-- Invariant of the loop after `k` epochs. -/
structure LoopInv (ext : Ext) (cfg : Cfg) (m : MEDS) (iobj : Int) (ls : Lists) (n k : Nat) (st : EpochState) : Prop where
  len : st.flags.length = n
  rest : ∀ i, k ≤ i → i < n → st.flags[i]? = some 0
  used : st.obs.map (·.icut) = ((List.range k).filter (fun i => st.flags[i]? == some 0)).map (· + 1)
  tested : ∀ i < k, ∃ bm wt bw f, ls.bms[i]? = some bm ∧ ls.wts[i]? = some wt ∧ symmetrized cfg bm wt = .ok bw ∧ epochFlag cfg bw.1 bw.2 = .ok f ∧ st.flags[i]? = some f

theorem epochStep_inv {ext : Ext} {cfg : Cfg} {m : MEDS} {iobj : Int} {ls : Lists} {n k : Nat} {st st' : EpochState} (hk : k < n)
    (hi : LoopInv ext cfg m iobj ls n k st) (h : epochStep ext cfg m iobj ls st k = .ok st') : LoopInv ext cfg m iobj ls n (k + 1) st' := by
  unfold epochStep at h
  obtain ⟨im, h1, h⟩ := Res.bind_eq_ok.mp h
  obtain ⟨wt, h2, h⟩ := Res.bind_eq_ok.mp h
  obtain ⟨seg, h3, h⟩ := Res.bind_eq_ok.mp h
  obtain ⟨bm, h4, h⟩ := Res.bind_eq_ok.mp h
  obtain ⟨s, h5, h⟩ := Res.bind_eq_ok.mp h
  obtain ⟨bw, h6, h⟩ := Res.bind_eq_ok.mp h
  obtain ⟨f, h7, h⟩ := Res.bind_eq_ok.mp h
  have g2 : ls.wts[k]? = some wt := pyGet_ok_nonneg h2 (by omega)
  have g4 : ls.bms[k]? = some bm := pyGet_ok_nonneg h4 (by omega)
  by_cases hf : f ≠ 0
  · rw [if_pos hf] at h
    injection h with h
    subst h
    have hne : ∀ i, i ≠ k → (st.flags.set k f)[i]? = st.flags[i]? := fun i hik => List.getElem?_set_ne (Ne.symm hik)
    have hkk : (st.flags.set k f)[k]? = some f := List.getElem?_set_self (by rw [hi.len]; exact hk)
    refine ⟨by simp [hi.len], ?_, ?_, ?_⟩
    · intro i h8 h9
      rw [hne i (by omega)]
      exact hi.rest i (by omega) h9
    · rw [List.range_succ, List.filter_append]
      have e1 : List.filter (fun i => (st.flags.set k f)[i]? == some 0) [k] = [] := by
        simp only [List.filter_cons, List.filter_nil, hkk]
        simp [hf]
      have e2 : List.filter (fun i => (st.flags.set k f)[i]? == some 0) (List.range k) = List.filter (fun i => st.flags[i]? == some 0) (List.range k) := by
        apply List.filter_congr
        intro i hik
        rw [hne i (by have := List.mem_range.mp hik; omega)]
      rw [e1, e2, List.append_nil]
      exact hi.used
    · intro i hik
      by_cases e : i = k
      · subst e
        exact ⟨bm, wt, bw, f, g4, g2, h6, h7, hkk⟩
      · obtain ⟨a, b, c, d, q1, q2, q3, q4, q5⟩ := hi.tested i (by omega)
        exact ⟨a, b, c, d, q1, q2, q3, q4, by rw [hne i e]; exact q5⟩
  · rw [if_neg hf] at h
    obtain ⟨o, ho, h⟩ := Res.bind_eq_ok.mp h
    injection h with h
    subst h
    have hic : o.icut = k + 1 := by
      unfold makeObs at ho
      obtain ⟨_, _, ho⟩ := Res.bind_eq_ok.mp ho
      obtain ⟨_, _, ho⟩ := Res.bind_eq_ok.mp ho
      obtain ⟨_, _, ho⟩ := Res.bind_eq_ok.mp ho
      injection ho with ho
      rw [← ho]
    refine ⟨hi.len, fun i h8 h9 => hi.rest i (by omega) h9, ?_, ?_⟩
    · rw [List.range_succ, List.filter_append]
      have e1 : List.filter (fun i => st.flags[i]? == some 0) [k] = [k] := by
        simp [hi.rest k (le_refl k) hk]
      rw [e1, List.map_append, List.map_append, hi.used]
      simp [hic]
    · intro i hik
      by_cases e : i = k
      · subst e
        exact ⟨bm, wt, bw, f, g4, g2, h6, h7, by rw [hi.rest i (le_refl i) hk]; simp at hf; rw [hf]⟩
      · exact hi.tested i (by omega)

theorem fold_inv {ext : Ext} {cfg : Cfg} {m : MEDS} {iobj : Int} {ls : Lists} {n : Nat} : ∀ k ≤ n, ∀ {st : EpochState},
    foldRes (epochStep ext cfg m iobj ls) ⟨[], List.replicate n 0⟩ (List.range k) = .ok st → LoopInv ext cfg m iobj ls n k st := by
  intro k
  induction k with
  | zero =>
    intro _ st h
    simp only [List.range_zero, foldRes] at h
    injection h with h
    subst h
    refine ⟨by simp, ?_, by simp, by simp⟩
    intro i _ hi
    simp [hi]
  | succ k ih =>
    intro hk st h
    rw [List.range_succ, foldRes_append] at h
    obtain ⟨st1, h1, h2⟩ := Res.bind_eq_ok.mp h
    obtain ⟨st2, h3, h4⟩ := foldRes_cons_ok.mp h2
    simp only [foldRes] at h4
    injection h4 with h4
    subst h4
    exact epochStep_inv (by omega) (ih (by omega) h1) h3

/-- **C46** The flags are zero exactly for the epochs that are coadded (epoch `i + 1` of the object, after the coadd at 0), in order and once each, and their number
is the number of zero flags. -/
theorem C46_zero_flags {ext : Ext} {cfg : Cfg} {m : MEDS} {iobj : Int} {obs : List Obs} {flags : List Int}
    (h : getObslist ext cfg m iobj = .ok (obs, some flags)) :
    (∃ ims, m.getCutoutList iobj "image" = .ok ims ∧ flags.length = ims.length - 1) ∧
      obs.length = flags.count 0 ∧ (∀ i < flags.length, flags[i]? = some 0 ↔ ∃ o ∈ obs, o.icut = i + 1) ∧
      (obs.map (·.icut)).Pairwise (· < ·) ∧ (∀ o ∈ obs, 1 ≤ o.icut ∧ o.icut ≤ flags.length) := by
  unfold getObslist at h
  obtain ⟨ims, h1, h⟩ := Res.bind_eq_ok.mp h
  split at h
  · injection h with h; injection h with _ h; cases h
  · obtain ⟨wts, h2, h⟩ := Res.bind_eq_ok.mp h
    obtain ⟨bms, h3, h⟩ := Res.bind_eq_ok.mp h
    obtain ⟨wts', h4, h⟩ := Res.bind_eq_ok.mp h
    obtain ⟨segs, h5, h⟩ := Res.bind_eq_ok.mp h
    obtain ⟨st, h6, h⟩ := Res.bind_eq_ok.mp h
    injection h with h
    injection h with e1 e2
    injection e2 with e2
    subst e1 e2
    have inv := fold_inv _ (le_refl _) h6
    have hlen := inv.len
    refine ⟨⟨ims, h1, by rw [hlen, List.length_drop]⟩, ?_, ?_, ?_, ?_⟩
    · have := congrArg List.length inv.used
      rw [List.length_map, List.length_map] at this
      rw [this, ← hlen]
      clear this h6 inv
      generalize st.flags = l
      induction l using List.reverseRecOn with
      | nil => rfl
      | append_singleton l a ih =>
        rw [List.length_append, List.length_singleton, List.range_succ, List.filter_append, List.length_append, List.count_append, ← ih]
        congr 1
        · congr 1
          apply List.filter_congr
          intro i hi
          rw [List.getElem?_append_left (List.mem_range.mp hi)]
        · by_cases ha : a = 0
          · simp [ha]
          · simp [ha]
    · intro i hi
      have mem : (i + 1) ∈ st.obs.map (·.icut) ↔ st.flags[i]? = some 0 := by
        rw [inv.used, List.mem_map]
        constructor
        · rintro ⟨a, ha, e⟩
          have : a = i := by omega
          subst this
          have := (List.mem_filter.mp ha).2
          simpa using this
        · intro h0
          exact ⟨i, List.mem_filter.mpr ⟨List.mem_range.mpr (by omega), by simp [h0]⟩, rfl⟩
      rw [← mem, List.mem_map]
    · rw [inv.used]
      exact (List.Pairwise.filter _ (List.pairwise_lt_range)).map _ (fun a b hab => by omega)
    · intro o ho
      have : o.icut ∈ st.obs.map (·.icut) := List.mem_map_of_mem ho
      rw [inv.used, List.mem_map] at this
      obtain ⟨a, ha, e⟩ := this
      have := List.mem_range.mp (List.mem_filter.mp ha).1
      omega

theorem flagged_iff (flags : Option Int) (v : ℚ) : flagged flags v = true ↔ HasFlag flags v := by
  unfold flagged HasFlag
  cases flags with
  | none => simp
  | some f => simp [Maker.badBit]

theorem badPixels_get? {flags : Option Int} {bm wt : Img ℚ} (hs : SameShape bm wt) {i j : Nat} (hi : i < wt.nr) (hj : j < wt.nc) :
    ∃ v, (badPixels flags bm wt).get? i j = some v ∧ (v = true ↔ BadAt flags bm wt i j) := by
  obtain ⟨hb, hw, hr, hc⟩ := hs
  obtain ⟨b, eb⟩ := Img.get?_some_of_WF hb (show i < bm.nr by omega) (show j < bm.nc by omega)
  obtain ⟨w, ew⟩ := Img.get?_some_of_WF hw hi hj
  refine ⟨_, Img.zipWith_get? hr hc _ i j eb ew, ?_⟩
  rw [Bool.or_eq_true, decide_eq_true_eq, flagged_iff]
  constructor
  · intro h; exact ⟨b, w, eb, ew, h⟩
  · rintro ⟨b', w', eb', ew', h⟩
    rw [eb] at eb'; rw [ew] at ew'
    injection eb' with e1; injection ew' with e2
    subst e1 e2
    exact h

/-- The index range of the central region check, as rows of the stamp. -/
def inCentral (n : Nat) (size : ℚ) (i : Nat) : Prop := sliceEnd n (centralRange n size).1 ≤ i ∧ i < sliceEnd n (centralRange n size).2

theorem centralMasked_iff {cfg : Cfg} {bm wt : Img ℚ} (hs : SameShape bm wt) (hsq : wt.nr = wt.nc) (hc : cfg.centralCheck = true) :
    centralMasked cfg bm wt = true ↔ ∃ i j, i < wt.nr ∧ j < wt.nr ∧ inCentral wt.nr cfg.centralSize i ∧ inCentral wt.nr cfg.centralSize j ∧ BadAt cfg.badFlags bm wt i j := by
  unfold centralMasked
  rw [if_pos hc]
  simp only [Bool.not_eq_true', List.all_eq_false, List.mem_filter, List.mem_range, decide_eq_true_eq, Bool.not_eq_true]
  constructor
  · rintro ⟨i, ⟨hi, hi'⟩, j, ⟨hj, hj'⟩, hb⟩
    obtain ⟨v, e, hv⟩ := badPixels_get? (flags := cfg.badFlags) hs hi hj
    rw [e] at hb
    refine ⟨i, j, hi, by omega, hi', by rw [← hsq] at hj'; exact hj', hv.mp ?_⟩
    cases v
    · simp at hb
    · rfl
  · rintro ⟨i, j, hi, hj, hi', hj', hb⟩
    obtain ⟨v, e, hv⟩ := badPixels_get? (flags := cfg.badFlags) hs hi (show j < wt.nc by omega)
    refine ⟨i, ⟨hi, hi'⟩, j, ⟨by omega, by rw [← hsq]; exact hj'⟩, ?_⟩
    rw [e, hv.mpr hb]
    rfl

theorem allRow_iff {f : ℚ → Bool} {im : Img ℚ} (hw : im.WF) {i : Nat} (hi : i < im.nr) :
    allRow f im i = true ↔ ∀ j < im.nc, ∃ v, im.get? i j = some v ∧ f v = true := by
  unfold allRow
  rw [List.all_eq_true]
  constructor
  · intro h j hj
    obtain ⟨v, e⟩ := Img.get?_some_of_WF hw hi hj
    have := h j (List.mem_range.mpr hj)
    rw [e] at this
    exact ⟨v, e, this⟩
  · intro h j hj
    obtain ⟨v, e, hv⟩ := h j (List.mem_range.mp hj)
    rw [e]
    exact hv

theorem allCol_iff {f : ℚ → Bool} {im : Img ℚ} (hw : im.WF) {j : Nat} (hj : j < im.nc) :
    allCol f im j = true ↔ ∀ i < im.nr, ∃ v, im.get? i j = some v ∧ f v = true := by
  unfold allCol
  rw [List.all_eq_true]
  constructor
  · intro h i hi
    obtain ⟨v, e⟩ := Img.get?_some_of_WF hw (List.mem_range.mp (List.mem_range.mpr hi)) hj
    have := h i (List.mem_range.mpr hi)
    rw [e] at this
    exact ⟨v, e, this⟩
  · intro h i hi
    obtain ⟨v, e, hv⟩ := h i (List.mem_range.mp hi)
    rw [e]
    exact hv

/-- One of the four sides of the image consists of pixels satisfying `P`. -/
def _root_.Meds.Spec.SideAll (im : Img ℚ) (P : ℚ → Prop) : Prop :=
  (∃ i, (i = 0 ∨ i = im.nr - 1) ∧ ∀ j < im.nc, ∃ v, im.get? i j = some v ∧ P v) ∨ (∃ j, (j = 0 ∨ j = im.nc - 1) ∧ ∀ i < im.nr, ∃ v, im.get? i j = some v ∧ P v)

theorem someSide_iff {f : ℚ → Bool} {im : Img ℚ} (hw : im.WF) (hr : 0 < im.nr) (hc : 0 < im.nc) :
    someSide f im = true ↔ SideAll im (fun v => f v = true) := by
  unfold someSide SideAll
  rw [Bool.or_eq_true, Bool.or_eq_true, Bool.or_eq_true, allRow_iff hw hr, allRow_iff hw (by omega), allCol_iff hw hc, allCol_iff hw (by omega)]
  constructor
  · rintro (((h | h) | h) | h)
    · exact .inl ⟨0, .inl rfl, h⟩
    · exact .inl ⟨_, .inr rfl, h⟩
    · exact .inr ⟨0, .inl rfl, h⟩
    · exact .inr ⟨_, .inr rfl, h⟩
  · rintro (⟨i, rfl | rfl, h⟩ | ⟨i, rfl | rfl, h⟩)
    · exact .inl (.inl (.inl h))
    · exact .inl (.inl (.inr h))
    · exact .inl (.inr h)
    · exact .inr h

/-- **C49** With the check on, an epoch is reported exactly when one side of the stamp has zero weight throughout, or a bad flag throughout. -/
theorem C49_check_on_partial {cfg : Cfg} {bm wt : Img ℚ} (hs : SameShape bm wt) (h0 : 0 < wt.nr) (h1 : 0 < wt.nc) (hc : cfg.edgeCheck = true) :
    ∃ b, psEdgeMasked cfg bm wt = .ok b ∧ (b = true ↔ SideAll wt (· = 0) ∨ SideAll bm (HasFlag cfg.badFlags)) := by
  obtain ⟨hb, hw, hr, hcc⟩ := hs
  have e1 : someSide (fun w => decide (w = 0)) wt = true ↔ SideAll wt (· = 0) := by
    rw [someSide_iff hw h0 h1]; simp
  unfold psEdgeMasked
  rw [if_pos hc, if_neg (by omega)]
  by_cases hz : someSide (fun w => decide (w = 0)) wt = true
  · rw [if_pos hz]
    exact ⟨true, rfl, by simp [e1.mp hz]⟩
  · rw [if_neg hz]
    have hz' : ¬ SideAll wt (· = 0) := fun h => hz (e1.mpr h)
    cases hf : cfg.badFlags with
    | none =>
      refine ⟨false, rfl, ?_⟩
      simp only [Bool.false_eq_true, false_iff, not_or]
      refine ⟨hz', ?_⟩
      rintro (⟨i, _, h⟩ | ⟨i, _, h⟩)
      · obtain ⟨v, _, f, hff, _⟩ := h 0 (by omega)
        cases hff
      · obtain ⟨v, _, f, hff, _⟩ := h 0 (by omega)
        cases hff
    | some f =>
      refine ⟨_, rfl, ?_⟩
      rw [someSide_iff hb (by omega) (by omega)]
      have e2 : ∀ v, Maker.badBit f v = true ↔ HasFlag (some f) v := fun v => by rw [← flagged_iff]; rfl
      simp only [e2]
      constructor
      · exact .inr
      · rintro (h | h)
        · exact absurd h hz'
        · exact h

/-- **C49** is false: with the check off the function raises (`sides_bad` is never assigned), for every mask and weight. -/
theorem C49_always_raises (cfg : Cfg) (bm wt : Img ℚ) (hc : cfg.edgeCheck = false) : psEdgeMasked cfg bm wt = .error .unboundLocal := by
  unfold psEdgeMasked
  rw [hc]
  rfl

theorem C49_counterexample : ¬ ∀ (cfg : Cfg) (bm wt : Img ℚ), cfg.edgeCheck = false → psEdgeMasked cfg bm wt = .ok false := by
  intro h
  have := h ⟨false, false, 1, false, 0, false, none, none⟩ ⟨1, 1, [0]⟩ ⟨1, 1, [1]⟩ rfl
  revert this
  decide +kernel

theorem maskFrac_eq {flags : Option Int} {bm wt : Img ℚ} {q : ℚ} (h : maskFrac flags bm wt = .ok q) :
    0 < bm.flat.length ∧ q * bm.flat.length = (badPixels flags bm wt).flat.count true := by
  unfold maskFrac at h
  split at h
  · cases h
  · rename_i h0
    injection h with h
    refine ⟨by omega, ?_⟩
    rw [← h, div_mul_cancel₀]
    exact_mod_cast h0

/-- **C46** What a used epoch satisfies, and what each flag means.  `bm` and `wt` are the (symmetrized) planes of the epoch. -/
theorem C46_flag_meaning {cfg : Cfg} {bm wt : Img ℚ} (hs : SameShape bm wt) (hsq : wt.nr = wt.nc) (h0 : 0 < wt.nr) {f : Int} (h : epochFlag cfg bm wt = .ok f) :
    (f = 2 ↔ ∃ i j, FlagAt cfg.edgeFlags bm i j) ∧
    (f = 4 → cfg.maxMaskedFrac * (wt.nr * wt.nc : Nat) < (badPixels cfg.badFlags bm wt).flat.count true) ∧
    (f = 8 → cfg.centralCheck = true ∧ ∃ i j, inCentral wt.nr cfg.centralSize i ∧ inCentral wt.nr cfg.centralSize j ∧ BadAt cfg.badFlags bm wt i j) ∧
    (f = 16 → SideAll wt (· = 0) ∨ SideAll bm (HasFlag cfg.badFlags)) ∧
    (f = 32 → ∀ v ∈ wt.flat, v ≤ 0) ∧
    (f = 0 → (¬ ∃ i j, FlagAt cfg.edgeFlags bm i j) ∧ (badPixels cfg.badFlags bm wt).flat.count true ≤ cfg.maxMaskedFrac * (wt.nr * wt.nc : Nat) ∧
      (cfg.centralCheck = true → ∀ i j, i < wt.nr → j < wt.nr → inCentral wt.nr cfg.centralSize i → inCentral wt.nr cfg.centralSize j → ¬ BadAt cfg.badFlags bm wt i j) ∧
      ¬ SideAll wt (· = 0) ∧ ¬ SideAll bm (HasFlag cfg.badFlags) ∧ ∃ i j v, wt.get? i j = some v ∧ 0 < v) ∧
    f ∈ [(0 : Int), 2, 4, 8, 16, 32] := by
  have hsize : bm.flat.length = wt.nr * wt.nc := by rw [hs.1, hs.2.2.1, hs.2.2.2]
  have hedge : hitsTheEdge cfg.edgeFlags bm = true ↔ ∃ i j, FlagAt cfg.edgeFlags bm i j := by
    unfold hitsTheEdge
    rw [List.any_eq_true]
    constructor
    · rintro ⟨v, hv, hf⟩
      obtain ⟨i, j, e⟩ := Img.flat_mem_get? hs.1 hv
      exact ⟨i, j, v, e, (flagged_iff _ _).mp hf⟩
    · rintro ⟨i, j, v, e, hf⟩
      exact ⟨v, Img.get?_mem_flat e, (flagged_iff _ _).mpr hf⟩
  unfold epochFlag at h
  by_cases he : hitsTheEdge cfg.edgeFlags bm = true
  · rw [if_pos he] at h
    injection h with h
    subst h
    simp [hedge.mp he]
  · rw [if_neg he] at h
    have he' := fun x => he (hedge.mpr x)
    obtain ⟨q, hq, h⟩ := Res.bind_eq_ok.mp h
    obtain ⟨hlen, hq2⟩ := maskFrac_eq hq
    have hpos : (0 : ℚ) < (bm.flat.length : ℚ) := by exact_mod_cast hlen
    rw [hsize] at hq2 hpos
    by_cases h4 : q > cfg.maxMaskedFrac
    · rw [if_pos h4] at h
      injection h with h
      subst h
      have : cfg.maxMaskedFrac * (wt.nr * wt.nc : Nat) < (badPixels cfg.badFlags bm wt).flat.count true := by
        rw [← hq2]; exact mul_lt_mul_of_pos_right h4 hpos
      refine ⟨⟨by norm_num, fun hx => (he' hx).elim⟩, fun _ => this, by norm_num, by norm_num, by norm_num, by norm_num, by simp⟩
    · rw [if_neg h4] at h
      have h4' : ((badPixels cfg.badFlags bm wt).flat.count true : ℚ) ≤ cfg.maxMaskedFrac * (wt.nr * wt.nc : Nat) := by
        rw [← hq2]; exact mul_le_mul_of_nonneg_right (not_lt.mp h4) hpos.le
      by_cases h8 : centralMasked cfg bm wt = true
      · rw [if_pos h8] at h
        injection h with h
        subst h
        have hcc : cfg.centralCheck = true := by
          by_contra hc
          unfold centralMasked at h8
          rw [if_neg hc] at h8
          cases h8
        obtain ⟨i, j, _, _, r1, r2, r3⟩ := (centralMasked_iff hs hsq hcc).mp h8
        exact ⟨⟨by norm_num, fun hx => (he' hx).elim⟩, by norm_num, fun _ => ⟨hcc, i, j, r1, r2, r3⟩, by norm_num, by norm_num, by norm_num, by simp⟩
      · rw [if_neg h8] at h
        obtain ⟨e, hpe, h⟩ := Res.bind_eq_ok.mp h
        have hec : cfg.edgeCheck = true := by
          by_contra hc
          rw [C49_always_raises cfg bm wt (by simpa using hc)] at hpe
          cases hpe
        obtain ⟨e', hpe', hside⟩ := C49_check_on_partial hs h0 (by omega) hec
        rw [hpe] at hpe'
        injection hpe' with hee
        subst hee
        cases e with
        | true =>
          injection h with h
          subst h
          exact ⟨⟨by norm_num, fun hx => (he' hx).elim⟩, by norm_num, by norm_num, fun _ => hside.mp rfl, by norm_num, by norm_num, by simp⟩
        | false =>
          simp only [Bool.false_eq_true, if_false] at h
          by_cases h32 : wt.flat.all (fun w => decide (w ≤ 0)) = true
          · rw [if_pos h32] at h
            injection h with h
            subst h
            refine ⟨⟨by norm_num, fun hx => (he' hx).elim⟩, by norm_num, by norm_num, by norm_num, fun _ v hv => ?_, by norm_num, by simp⟩
            simpa using List.all_eq_true.mp h32 v hv
          · rw [if_neg h32] at h
            injection h with h
            subst h
            have hns : ¬ (SideAll wt (· = 0) ∨ SideAll bm (HasFlag cfg.badFlags)) := fun hx => by simpa using hside.mpr hx
            refine ⟨⟨by norm_num, fun hx => (he' hx).elim⟩, by norm_num, by norm_num, by norm_num, by norm_num, fun _ => ⟨he', h4', ?_, fun hx => hns (.inl hx), fun hx => hns (.inr hx), ?_⟩, by simp⟩
            · intro hcc i j hi hj r1 r2 r3
              exact h8 ((centralMasked_iff hs hsq hcc).mpr ⟨i, j, hi, hj, r1, r2, r3⟩)
            · rw [List.all_eq_true] at h32
              push_neg at h32
              obtain ⟨v, hv, hvp⟩ := h32
              obtain ⟨i, j, e⟩ := Img.flat_mem_get? hs.2.1 hv
              exact ⟨i, j, v, e, by simpa using hvp⟩

/-- **C46** Every flag is the outcome of these tests on the epoch's planes, after outlier rejection and, when configured, symmetrizing. -/
theorem C46_flags_from_tests {ext : Ext} {cfg : Cfg} {m : MEDS} {iobj : Int} {obs : List Obs} {flags : List Int}
    (h : getObslist ext cfg m iobj = .ok (obs, some flags)) :
    ∃ ims wts bms wts', m.getCutoutList iobj "image" = .ok ims ∧ m.getCutoutList iobj "weight" = .ok wts ∧ m.getCutoutList iobj "bmask" = .ok bms ∧
      rejected ext cfg (ims.drop 1) (wts.drop 1) = .ok wts' ∧
      ∀ i < flags.length, ∃ bm wt bw f, bms[i + 1]? = some bm ∧ wts'[i]? = some wt ∧ symmetrized cfg bm wt = .ok bw ∧ epochFlag cfg bw.1 bw.2 = .ok f ∧
        flags[i]? = some f := by
  unfold getObslist at h
  obtain ⟨ims, h1, h⟩ := Res.bind_eq_ok.mp h
  split at h
  · injection h with h; injection h with _ h; cases h
  · obtain ⟨wts, h2, h⟩ := Res.bind_eq_ok.mp h
    obtain ⟨bms, h3, h⟩ := Res.bind_eq_ok.mp h
    obtain ⟨wts', h4, h⟩ := Res.bind_eq_ok.mp h
    obtain ⟨segs, h5, h⟩ := Res.bind_eq_ok.mp h
    obtain ⟨st, h6, h⟩ := Res.bind_eq_ok.mp h
    injection h with h
    injection h with e1 e2
    injection e2 with e2
    subst e1 e2
    have inv := fold_inv _ (le_refl _) h6
    refine ⟨ims, wts, bms, wts', h1, h2, h3, h4, ?_⟩
    intro i hi
    obtain ⟨bm, wt, bw, f, q1, q2, q3, q4, q5⟩ := inv.tested i (by rw [← inv.len]; exact hi)
    refine ⟨bm, wt, bw, f, ?_, q2, q3, q4, q5⟩
    simp only [List.getElem?_drop] at q1
    rw [Nat.add_comm]
    exact q1

end Meds.Coadd
