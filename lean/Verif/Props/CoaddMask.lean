import Verif.Props.CoaddEpochs
import Mathlib.Tactic.IntervalCases

/-!
# Symmetrizing, configuration, central region (C47, C48, C57, C58)
-/

namespace Meds.Coadd
open Spec

/-! ### Symmetrizing (C47, C58) -/

theorem rot90_get? {im : Img ℚ} {n : Nat} (hr : im.nr = n) (hc : im.nc = n) (hw : im.WF) {i j : Nat} (hi : i < n) (hj : j < n) :
    (rot90 im).get? i j = im.get? j (n - 1 - i) := by
  unfold rot90
  rw [Img.ofFn_get? _ (by omega) (by omega), hc]
  obtain ⟨v, e⟩ := Img.get?_some_of_WF hw (show j < im.nr by omega) (show n - 1 - i < im.nc by omega)
  rw [e]
  rfl

theorem rot90_WF (im : Img ℚ) : (rot90 im).WF := Img.ofFn_WF _ _ _

/-- One symmetrizing pass of the weight: a pixel becomes zero exactly when the pixel that the rotation brings to it is zero, other pixels keep their value. -/
theorem symmetrizeWeight_get? {wt wt' : Img ℚ} {n : Nat} (hr : wt.nr = n) (hc : wt.nc = n) (hw : wt.WF) (h : symmetrizeWeight wt = .ok wt') :
    wt'.nr = n ∧ wt'.nc = n ∧ wt'.WF ∧ ∀ i j, i < n → j < n → ∀ v, wt.get? i j = some v → (ZeroAt wt j (n - 1 - i) → wt'.get? i j = some 0) ∧
      (¬ ZeroAt wt j (n - 1 - i) → wt'.get? i j = some v) := by
  unfold symmetrizeWeight at h
  rw [if_neg (by omega)] at h
  injection h with h
  have s1 : wt.nr = (rot90 wt).nr := by show wt.nr = wt.nc; omega
  have s2 : wt.nc = (rot90 wt).nc := by show wt.nc = wt.nr; omega
  refine ⟨by rw [← h]; exact hr, by rw [← h]; exact hc, by rw [← h]; exact Img.zipWith_WF hw (rot90_WF wt) s1 s2 _, ?_⟩
  intro i j hi hj v hv
  obtain ⟨r, er⟩ := Img.get?_some_of_WF (rot90_WF wt) (show i < (rot90 wt).nr by rw [← s1, hr]; exact hi) (show j < (rot90 wt).nc by rw [← s2, hc]; exact hj)
  have hz := Img.zipWith_get? s1 s2 (fun w r => if r = 0 then 0 else w) i j hv er
  rw [rot90_get? hr hc hw hi hj] at er
  rw [← h, hz]
  unfold ZeroAt
  rw [er]
  constructor
  · intro e; injection e with e; simp [e]
  · intro e
    have : r ≠ 0 := fun h0 => e (by rw [h0])
    simp [this]

/-- **C47** (part) After symmetrizing, a weight pixel is zero exactly when it, or the pixel a quarter turn away, was zero: the original zeros are kept, and every
other pixel keeps its value. -/
theorem C47_weight_partial {wt : Img ℚ} {n : Nat} (hr : wt.nr = n) (hc : wt.nc = n) (hw : wt.WF) :
    ∃ wt', symmetrizeWeight wt = .ok wt' ∧ wt'.nr = n ∧ wt'.nc = n ∧ wt'.WF ∧
      (∀ i j, i < n → j < n → (ZeroAt wt' i j ↔ ZeroAt wt i j ∨ ZeroAt wt j (n - 1 - i))) ∧
      (∀ i j, i < n → j < n → ¬ ZeroAt wt' i j → wt'.get? i j = wt.get? i j) := by
  obtain ⟨wt', h⟩ : ∃ wt', symmetrizeWeight wt = .ok wt' := by
    unfold symmetrizeWeight
    rw [if_neg (by omega)]
    exact ⟨_, rfl⟩
  obtain ⟨r, c, w, hp⟩ := symmetrizeWeight_get? hr hc hw h
  refine ⟨wt', h, r, c, w, ?_, ?_⟩
  · intro i j hi hj
    obtain ⟨v, e⟩ := Img.get?_some_of_WF hw (show i < wt.nr by omega) (show j < wt.nc by omega)
    obtain ⟨p1, p2⟩ := hp i j hi hj v e
    by_cases hz : ZeroAt wt j (n - 1 - i)
    · exact ⟨fun _ => .inr hz, fun _ => p1 hz⟩
    · have := p2 hz
      unfold ZeroAt at hz ⊢
      rw [this, e]
      constructor
      · exact .inl
      · rintro (h | h)
        · exact h
        · exact absurd h hz
  · intro i j hi hj hnz
    obtain ⟨v, e⟩ := Img.get?_some_of_WF hw (show i < wt.nr by omega) (show j < wt.nc by omega)
    obtain ⟨p1, p2⟩ := hp i j hi hj v e
    by_cases hz : ZeroAt wt j (n - 1 - i)
    · exact absurd (p1 hz) hnz
    · rw [p2 hz, e]

/-- **C47** A stamp that is not square is refused. -/
theorem C47_not_square {wt : Img ℚ} (h : wt.nr ≠ wt.nc) :
    symmetrizeWeight wt = .error .assertionError ∧ ∀ f, symmetrizeBmask (some f) wt = .error .assertionError := by
  unfold symmetrizeWeight symmetrizeBmask
  exact ⟨by rw [if_pos h], fun f => by simp only [if_pos h]⟩

/-- **C47** Three passes are enough, and then the zero set is invariant: one pass, as in the code, is two short. -/
theorem C47_three_passes {a b c d : Img ℚ} {n : Nat} (hr : a.nr = n) (hc : a.nc = n) (hw : a.WF) (h1 : symmetrizeWeight a = .ok b)
    (h2 : symmetrizeWeight b = .ok c) (h3 : symmetrizeWeight c = .ok d) :
    RotInvariant n (ZeroAt d) ∧ ∀ i j, i < n → j < n → ZeroAt a i j → ZeroAt d i j := by
  obtain ⟨b', e1, r1, c1, w1, z1, _⟩ := C47_weight_partial hr hc hw
  rw [h1] at e1; injection e1 with e1; subst e1
  obtain ⟨c', e2, r2, c2, w2, z2, _⟩ := C47_weight_partial r1 c1 w1
  rw [h2] at e2; injection e2 with e2; subst e2
  obtain ⟨d', e3, r3, c3, w3, z3, _⟩ := C47_weight_partial r2 c2 w2
  rw [h3] at e3; injection e3 with e3; subst e3
  have key : ∀ i j, i < n → j < n → (ZeroAt d i j ↔ ZeroAt a i j ∨ ZeroAt a j (n - 1 - i) ∨ ZeroAt a (n - 1 - i) (n - 1 - j) ∨ ZeroAt a (n - 1 - j) i) := by
    intro i j hi hj
    have q1 : n - 1 - i < n := by omega
    have q2 : n - 1 - j < n := by omega
    have q3 : n - 1 - (n - 1 - i) = i := by omega
    rw [z3 i j hi hj, z2 i j hi hj, z2 j _ hj q1, z1 i j hi hj, z1 j _ hj q1, z1 _ _ q1 q2, q3]
    tauto
  constructor
  · intro i j hi hj
    have q1 : n - 1 - i < n := by omega
    rw [key i j hi hj, key j _ hj q1]
    have q3 : n - 1 - (n - 1 - i) = i := by omega
    rw [q3]
    tauto
  · intro i j hi hj h
    exact (key i j hi hj).mpr (.inl h)

/-- **C47** is false: one masked pixel in a corner gives two, next to each other. -/
theorem C47_counterexample : ¬ ∀ (n : Nat) (wt wt' : Img ℚ), wt.nr = n → wt.nc = n → wt.WF → symmetrizeWeight wt = .ok wt' → RotInvariant n (ZeroAt wt') := by
  intro h
  have := h 2 ⟨2, 2, [0, 1, 1, 1]⟩ ⟨2, 2, [0, 1, 0, 1]⟩ rfl rfl rfl (by decide +kernel) 0 0 (by norm_num) (by norm_num)
  revert this
  unfold ZeroAt
  decide +kernel

/-- **C47** (part) The same for the bad flags of the mask.  A pixel that does not get the rotated value is unchanged. -/
theorem C47_bmask_partial {bm : Img ℚ} {n : Nat} {f : Int} (hr : bm.nr = n) (hc : bm.nc = n) (hw : bm.WF) :
    ∃ bm', symmetrizeBmask (some f) bm = .ok bm' ∧ bm'.nr = n ∧ bm'.nc = n ∧ bm'.WF ∧
      (∀ i j, i < n → j < n → (FlagAt (some f) bm' i j ↔ FlagAt (some f) bm i j ∨ FlagAt (some f) bm j (n - 1 - i))) ∧
      (∀ i j, i < n → j < n → ¬ FlagAt (some f) bm j (n - 1 - i) → bm'.get? i j = bm.get? i j) ∧
      (∀ i j, i < n → j < n → FlagAt (some f) bm j (n - 1 - i) → bm'.get? i j = bm.get? j (n - 1 - i)) := by
  have s1 : bm.nr = (rot90 bm).nr := by show bm.nr = bm.nc; omega
  have s2 : bm.nc = (rot90 bm).nc := by show bm.nc = bm.nr; omega
  have hpix : ∀ i j, i < n → j < n → ∃ v r, bm.get? i j = some v ∧ bm.get? j (n - 1 - i) = some r ∧
      (Img.zipWith (fun b r => if Maker.badBit f r then r else b) bm (rot90 bm)).get? i j = some (if Maker.badBit f r then r else v) := by
    intro i j hi hj
    obtain ⟨v, ev⟩ := Img.get?_some_of_WF hw (show i < bm.nr by omega) (show j < bm.nc by omega)
    obtain ⟨r, er⟩ := Img.get?_some_of_WF (rot90_WF bm) (show i < (rot90 bm).nr by rw [← s1, hr]; exact hi) (show j < (rot90 bm).nc by rw [← s2, hc]; exact hj)
    exact ⟨v, r, ev, by rw [rot90_get? hr hc hw hi hj] at er; exact er, Img.zipWith_get? s1 s2 _ i j ev er⟩
  have hbad : ∀ r, Maker.badBit f r = true ↔ HasFlag (some f) r := fun r => by rw [← flagged_iff]; rfl
  refine ⟨Img.zipWith (fun b r => if Maker.badBit f r then r else b) bm (rot90 bm), ?_, hr, hc, Img.zipWith_WF hw (rot90_WF bm) s1 s2 _, ?_, ?_, ?_⟩
  · unfold symmetrizeBmask
    simp only
    rw [if_neg (by omega)]
  · intro i j hi hj
    obtain ⟨v, r, ev, er, e⟩ := hpix i j hi hj
    unfold FlagAt
    rw [e, ev, er]
    simp only [Option.some.injEq, exists_eq_left']
    by_cases hb : Maker.badBit f r = true
    · rw [if_pos hb]
      exact ⟨.inr, fun _ => (hbad r).mp hb⟩
    · rw [if_neg hb]
      have := fun x => hb ((hbad r).mpr x)
      tauto
  · intro i j hi hj hn
    obtain ⟨v, r, ev, er, e⟩ := hpix i j hi hj
    have : ¬ Maker.badBit f r = true := fun hb => hn ⟨r, er, (hbad r).mp hb⟩
    rw [e, ev, if_neg this]
  · intro i j hi hj hn
    obtain ⟨v, r, ev, er, e⟩ := hpix i j hi hj
    have : Maker.badBit f r = true := by
      obtain ⟨r', er', hh⟩ := hn
      rw [er] at er'; injection er' with er'; subst er'
      exact (hbad r).mpr hh
    rw [e, er, if_pos this]

/-- **C58** (part) Symmetrizing keeps the flags of the pixels whose rotated counterpart has no bad flag; there is a bad flag left where there was one. -/
theorem C58_flags_kept_partial {bm bm' : Img ℚ} {n : Nat} {f g : Int} (hr : bm.nr = n) (hc : bm.nc = n) (hw : bm.WF) (h : symmetrizeBmask (some f) bm = .ok bm') :
    (∀ i j, FlagAt (some f) bm i j → FlagAt (some f) bm' i j) ∧
    ∀ i j, ¬ FlagAt (some f) bm j (n - 1 - i) → FlagAt (some g) bm i j → FlagAt (some g) bm' i j := by
  obtain ⟨b, e, _, _, _, z, k, _⟩ := C47_bmask_partial (f := f) hr hc hw
  rw [h] at e; injection e with e; subst e
  have lt : ∀ {g : Int} {i j : Nat}, FlagAt (some g) bm i j → i < n ∧ j < n := fun ⟨v, hv, _⟩ => by
    have := Img.get?_lt hv
    omega
  constructor
  · intro i j hf
    exact (z i j (lt hf).1 (lt hf).2).mpr (.inl hf)
  · intro i j hn hf
    obtain ⟨v, hv, hh⟩ := hf
    exact ⟨v, by rw [k i j (lt ⟨v, hv, hh⟩).1 (lt ⟨v, hv, hh⟩).2 hn]; exact hv, hh⟩

/-- **C58** is false: here the edge flag 4 of the only pixel that has it is replaced by the bad flag 1 of the pixel a quarter turn away, and the epoch is no longer
recognised as hitting the edge. -/
theorem C58_counterexample : ∃ bm bm' : Img ℚ, symmetrizeBmask (some 1) bm = .ok bm' ∧ FlagAt (some 4) bm 1 0 ∧ (¬ ∃ i j, FlagAt (some 4) bm' i j) ∧
    hitsTheEdge (some 4) bm = true ∧ hitsTheEdge (some 4) bm' = false := by
  refine ⟨⟨2, 2, [1, 0, 4, 0]⟩, ⟨2, 2, [1, 0, 1, 0]⟩, by decide +kernel, ⟨4, by decide +kernel, 4, rfl, by decide +kernel⟩, ?_, by decide +kernel, by decide +kernel⟩
  rintro ⟨i, j, v, hv, f, hf, hb⟩
  injection hf with hf
  subst hf
  have hl := Img.get?_lt hv
  have h1 : i < 2 := hl.1
  have h2 : j < 2 := hl.2
  have : v = 1 ∨ v = 0 := by
    have := Img.get?_mem_flat hv
    simp at this
    tauto
  rcases this with rfl | rfl
  · exact hb (by decide +kernel)
  · exact hb (by decide +kernel)

/-! ### The configuration (C48) -/

/-- **C48** What happens in general: the caller's `coadd` dictionary loses the key `dither_psfs` and nothing else. -/
theorem C48_effect (c : Config) :
    (setConfig c).1.coadd = c.coadd.map (fun d => d.filter (fun p => p.1 != "dither_psfs")) ∧
    (setConfig c).2.1 = ((c.coadd.bind (fun d => Dict.find d "dither_psfs")).getD "True") ∧ (setConfig c).2.2 = (setConfig c).1.coadd.getD [] := by
  unfold setConfig
  cases h : c.coadd with
  | none => simp [h]
  | some d => simp [Dict.pop]

/-- **C48** (part) Without that key the configuration is left as it was, and further coadders made from it are alike. -/
theorem C48_unchanged_partial (c : Config) (h : ∀ d, c.coadd = some d → ∀ p ∈ d, p.1 ≠ "dither_psfs") : (setConfig c).1 = c ∧ (setConfig (setConfig c).1).2 = (setConfig c).2 := by
  have h1 : (setConfig c).1 = c := by
    unfold setConfig
    cases hc : c.coadd with
    | none => simp
    | some d =>
      have : d.filter (fun p => p.1 != "dither_psfs") = d := List.filter_eq_self.mpr (fun p hp => by simpa using h d hc p hp)
      simp only [Dict.pop, this]
      cases c
      simp_all
  exact ⟨h1, by rw [h1]⟩

/-- **C48** The second coadder made from a configuration always dithers, whatever was configured. -/
theorem C48_second_default (c : Config) : (setConfig (setConfig c).1).2.1 = "True" := by
  obtain ⟨e1, _, _⟩ := C48_effect c
  obtain ⟨_, e2, _⟩ := C48_effect (setConfig c).1
  rw [e2, e1]
  cases c.coadd with
  | none => rfl
  | some d =>
    have : List.find? (fun p : String × String => p.1 == "dither_psfs") (d.filter (fun p => p.1 != "dither_psfs")) = none := by
      rw [List.find?_eq_none]
      intro p hp
      simpa using (List.mem_filter.mp hp).2
    simp [Dict.find, this]

/-- **C48** is false: with `dither_psfs` off, the second coadder dithers. -/
theorem C48_counterexample : ∃ c : Config, (setConfig c).1 ≠ c ∧ (setConfig c).2.1 = "False" ∧ (setConfig (setConfig c).1).2.1 = "True" :=
  ⟨⟨some [("dither_psfs", "False"), ("scale", "0.2")]⟩, by decide +kernel, by decide +kernel, by decide +kernel⟩

/-! ### The central region (C57) -/

theorem sliceEnd_mid {n : Nat} {x : Int} (h0 : 0 ≤ x) (h1 : x ≤ n) : (sliceEnd n x : Int) = x := by
  unfold sliceEnd
  rw [if_neg (by omega)]
  omega

/-- **C57** (part) For a region not larger than the stamp, the rows (and columns) looked at contain everything within `(size - 1) / 2` of the centre, and nothing
further than `(size + 1) / 2` from it. -/
theorem C57_central_partial {n : Nat} {size : ℚ} (h0 : 0 ≤ size) (hn : size ≤ n) {i : Nat} (hi : i < n) :
    (|(i : ℚ) - ((n : ℚ) - 1) / 2| ≤ (size - 1) / 2 → inCentral n size i) ∧ (inCentral n size i → |(i : ℚ) - ((n : ℚ) - 1) / 2| ≤ (size + 1) / 2) := by
  unfold inCentral centralRange
  simp only
  have a1 := abs_le.mp (roundHE_near (((n : ℚ) - 1) / 2 - size / 2))
  have a2 := abs_le.mp (roundHE_near (((n : ℚ) - 1) / 2 + size / 2 + 1))
  generalize hlo : roundHE (((n : ℚ) - 1) / 2 - size / 2) = lo at *
  generalize hhi : roundHE (((n : ℚ) - 1) / 2 + size / 2 + 1) = hi' at *
  have lo0 : 0 ≤ lo := by
    by_contra hneg
    have hm : lo ≤ -1 := by omega
    have hm' : (lo : ℚ) ≤ -1 := by exact_mod_cast hm
    have e : ((n : ℚ) - 1) / 2 - size / 2 = -(1 / 2) := by linarith [a1.1, a1.2]
    rw [e] at hlo
    have : roundHE (-(1 / 2)) = 0 := by decide +kernel
    omega
  have lon : lo ≤ n := by
    have : (lo : ℚ) < n + 1 := by have : (0 : ℚ) ≤ n := Nat.cast_nonneg n; linarith [a1.1]
    have : lo < n + 1 := by exact_mod_cast this
    omega
  have hi0 : 0 ≤ hi' := by
    have : (-1 : ℚ) < hi' := by have : (0 : ℚ) ≤ n := Nat.cast_nonneg n; linarith [a2.2]
    have : (-1 : Int) < hi' := by exact_mod_cast this
    omega
  have e1 := sliceEnd_mid lo0 lon
  have e2 : i < sliceEnd n hi' ↔ (i : Int) < hi' := by
    unfold sliceEnd
    rw [if_neg (by omega)]
    omega
  rw [e2, abs_le, abs_le]
  constructor
  · rintro ⟨b1, b2⟩
    constructor
    · have : (lo : ℚ) ≤ i := by linarith [a1.1]
      have : lo ≤ i := by exact_mod_cast this
      omega
    · have : (i : ℚ) < hi' := by linarith [a2.2]
      exact_mod_cast this
  · rintro ⟨b1, b2⟩
    have c1 : lo ≤ i := by omega
    have c1' : (lo : ℚ) ≤ i := by exact_mod_cast c1
    have c2 : (i : Int) + 1 ≤ hi' := by omega
    have c2' : (i : ℚ) + 1 ≤ hi' := by exact_mod_cast c2
    constructor
    · linarith [a1.2]
    · linarith [a2.1]

/-- Rounding half to even commutes with `x ↦ n - x` for even `n`. -/
theorem roundHE_even_sub {n : Int} (hn : n % 2 = 0) (q : ℚ) : roundHE ((n : ℚ) - q) = n - roundHE q := by
  have f1 := Int.floor_le q
  have f2 := Int.lt_floor_add_one q
  by_cases hq : q = ⌊q⌋
  · rw [hq, show (n : ℚ) - (⌊q⌋ : ℚ) = ((n - ⌊q⌋ : Int) : ℚ) by push_cast; ring, roundHE_int, roundHE_int]
  · have f3 : (⌊q⌋ : ℚ) < q := lt_of_le_of_ne f1 (Ne.symm hq)
    have hf : ⌊(n : ℚ) - q⌋ = n - ⌊q⌋ - 1 := by
      rw [Int.floor_eq_iff]
      push_cast
      constructor <;> linarith
    unfold roundHE
    simp only [hf]
    push_cast
    by_cases h1 : q - ⌊q⌋ < 1 / 2
    · rw [if_neg (by linarith), if_pos (by linarith), if_pos h1]
      ring
    · by_cases h2 : 1 / 2 < q - ⌊q⌋
      · rw [if_pos (by linarith), if_neg h1, if_pos h2]
        ring
      · rw [if_neg (by linarith), if_neg (by linarith), if_neg h1, if_neg h2]
        split_ifs <;> omega

/-- **C57** The region is symmetric about the centre for stamps of even size, the only ones `MEDSMaker` makes (C08). -/
theorem C57_symmetric {n : Nat} {size : ℚ} (he : n % 2 = 0) (h0 : 0 ≤ size) (hn : size ≤ n) {i : Nat} (hi : i < n) :
    inCentral n size i ↔ inCentral n size (n - 1 - i) := by
  have key : roundHE (((n : ℚ) - 1) / 2 + size / 2 + 1) = n - roundHE (((n : ℚ) - 1) / 2 - size / 2) := by
    have := roundHE_even_sub (n := (n : Int)) (by omega) (((n : ℚ) - 1) / 2 - size / 2)
    rw [← this]
    congr 1
    push_cast
    ring
  unfold inCentral centralRange
  simp only
  rw [key]
  have a1 := abs_le.mp (roundHE_near (((n : ℚ) - 1) / 2 - size / 2))
  generalize hlo : roundHE (((n : ℚ) - 1) / 2 - size / 2) = lo at *
  have lo0 : 0 ≤ lo := by
    by_contra hneg
    have hm : lo ≤ -1 := by omega
    have hm' : (lo : ℚ) ≤ -1 := by exact_mod_cast hm
    have e : ((n : ℚ) - 1) / 2 - size / 2 = -(1 / 2) := by linarith [a1.1, a1.2]
    rw [e] at hlo
    have : roundHE (-(1 / 2)) = 0 := by decide +kernel
    omega
  have lon : lo ≤ n := by
    have : (lo : ℚ) < n + 1 := by have : (0 : ℚ) ≤ n := Nat.cast_nonneg n; linarith [a1.1]
    have : lo < n + 1 := by exact_mod_cast this
    omega
  have e1 := sliceEnd_mid lo0 lon
  have e2 := sliceEnd_mid (n := n) (x := n - lo) (by omega) (by omega)
  omega

/-- **C57** is false for a region larger than the stamp: the start is negative, Python counts it from the end, and only the last two rows and columns are looked at.
A stamp with the centre masked then passes. -/
theorem C57_counterexample : ∃ (cfg : Cfg) (bm wt : Img ℚ), cfg.centralCheck = true ∧ wt.nr = 6 ∧ wt.nc = 6 ∧ cfg.centralSize = 8 ∧
    (∃ i j : Nat, |(i : ℚ) - 5 / 2| ≤ 1 / 2 ∧ |(j : ℚ) - 5 / 2| ≤ 1 / 2 ∧ wt.get? i j = some 0) ∧ centralMasked cfg bm wt = false := by
  refine ⟨⟨false, false, 1, true, 8, true, none, none⟩, Img.ofFn 6 6 (fun _ _ => 0), Img.ofFn 6 6 (fun i j => if i = 2 ∧ j = 2 then 0 else 1), rfl, rfl, rfl, rfl,
    ⟨2, 2, ?_, ?_, by decide +kernel⟩, by decide +kernel⟩ <;> rw [abs_le] <;> norm_num

-- a region of 2 in a stamp of 6 covers rows 2 and 3, a region of 4 covers the whole stamp
example : (List.range 6).filter (fun i => decide (sliceEnd 6 (centralRange 6 2).1 ≤ i ∧ i < sliceEnd 6 (centralRange 6 2).2)) = [2, 3] ∧
    (List.range 6).filter (fun i => decide (sliceEnd 6 (centralRange 6 4).1 ≤ i ∧ i < sliceEnd 6 (centralRange 6 4).2)) = [0, 1, 2, 3, 4, 5] := by decide +kernel

-- a 4 by 4 weight with one zero: symmetrizing adds the rotated pixel only
example : symmetrizeWeight ⟨4, 4, [0, 1, 2, 3, 4, 5, 6, 7, 8, 9, 10, 11, 12, 13, 14, 15]⟩ = .ok ⟨4, 4, [0, 1, 2, 3, 4, 5, 6, 7, 8, 9, 10, 11, 0, 13, 14, 15]⟩ := by
  decide +kernel

end Meds.Coadd
