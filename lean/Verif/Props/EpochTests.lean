import Verif.Props.CoaddEpochs
import Mathlib.Data.Fintype.Fin
import Mathlib.Logic.Equiv.Fin.Basic
import Mathlib.SetTheory.Cardinal.Finite

/-!
# Which test an epoch of a coadd fails first (C46)
-/

namespace Meds.Coadd
open Spec

namespace Spec

/-- The number of pixels of a stamp that cannot be used. -/
noncomputable def numBad (flags : Option Int) (bm wt : Img ℚ) : Nat := Nat.card {p : Fin wt.nr × Fin wt.nc // BadAt flags bm wt p.1 p.2}

/-- Some flag of the list for edges. -/
def OnEdge (cfg : Cfg) (bm : Img ℚ) : Prop := ∃ i j, FlagAt cfg.edgeFlags bm i j

/-- More than the allowed fraction of the pixels cannot be used. -/
def TooMuchMasked (cfg : Cfg) (bm wt : Img ℚ) : Prop := cfg.maxMaskedFrac * (wt.nr * wt.nc : Nat) < numBad cfg.badFlags bm wt

/-- A pixel of the central region cannot be used, and this matters. -/
def CentreMasked (cfg : Cfg) (bm wt : Img ℚ) : Prop :=
  cfg.centralCheck = true ∧ ∃ i j, i < wt.nr ∧ j < wt.nr ∧ inCentral wt.nr cfg.centralSize i ∧ inCentral wt.nr cfg.centralSize j ∧ BadAt cfg.badFlags bm wt i j

/-- A whole side of the stamp has no weight, or bad flags. -/
def SideMasked (cfg : Cfg) (bm wt : Img ℚ) : Prop := SideAll wt (· = 0) ∨ SideAll bm (HasFlag cfg.badFlags)

end Spec
open Spec

/-- Counting the true pixels of an image. -/
theorem count_true_eq_card {b : Img Bool} (hb : b.WF) :
    b.flat.count true = Nat.card {p : Fin b.nr × Fin b.nc // b.get? p.1 p.2 = some true} := by
  obtain ⟨v, h2⟩ : ∃ v : List.Vector Bool (b.nr * b.nc), v.toList = b.flat := ⟨⟨b.flat, hb⟩, rfl⟩
  have h1 := Fin.card_filter_univ_eq_vector_get_eq_count true v
  rw [h2] at h1
  rw [← h1, ← Fintype.card_subtype, ← Nat.card_eq_fintype_card]
  symm
  apply Nat.card_congr
  refine finProdFinEquiv.subtypeEquiv ?_
  rintro ⟨i, j⟩
  have hi := i.2
  have hj := j.2
  have e : b.get? i j = some (v.get (finProdFinEquiv (i, j))) := by
    unfold Img.get?
    rw [if_pos ⟨hi, hj⟩, List.Vector.get_eq_get_toList, List.get_eq_getElem, ← List.getElem?_eq_getElem, ← h2]
    congr 1
    simp only [finProdFinEquiv_apply_val, Fin.val_cast]
    ring
  rw [e]
  simp

theorem count_bad {flags : Option Int} {bm wt : Img ℚ} (hs : SameShape bm wt) : (badPixels flags bm wt).flat.count true = numBad flags bm wt := by
  have hwf : (badPixels flags bm wt).WF := Img.zipWith_WF hs.1 hs.2.1 hs.2.2.1 hs.2.2.2 _
  rw [count_true_eq_card hwf]
  unfold numBad
  have hr : (badPixels flags bm wt).nr = wt.nr := hs.2.2.1
  have hc : (badPixels flags bm wt).nc = wt.nc := hs.2.2.2
  apply Nat.card_congr
  refine (Equiv.prodCongr (finCongr hr) (finCongr hc)).subtypeEquiv ?_
  rintro ⟨i, j⟩
  obtain ⟨v, e, hv⟩ := badPixels_get? (flags := flags) hs (show (i : Nat) < wt.nr by have := i.2; omega) (show (j : Nat) < wt.nc by have := j.2; omega)
  simp only [Equiv.prodCongr_apply, Prod.map, finCongr_apply, Fin.val_cast]
  rw [e, ← hv]
  simp

open Classical in
/-- **C46** The flag of an epoch names the first test it fails, in this order: edge flags (2), too much masked (4), the central region (8), a whole side (16),
no positive weight at all (32); it is zero if it fails none.  `bm` and `wt` are the (symmetrized) planes of the epoch. -/
theorem C46_first_failed_test {cfg : Cfg} {bm wt : Img ℚ} (hs : SameShape bm wt) (hsq : wt.nr = wt.nc) (h0 : 0 < wt.nr) (hec : cfg.edgeCheck = true) :
    epochFlag cfg bm wt = .ok (
      if OnEdge cfg bm then 2 else if TooMuchMasked cfg bm wt then 4 else if CentreMasked cfg bm wt then 8 else if SideMasked cfg bm wt then 16
      else if ∀ i j v, wt.get? i j = some v → v ≤ 0 then 32 else 0) := by
  have hsize : bm.flat.length = wt.nr * wt.nc := by rw [hs.1, hs.2.2.1, hs.2.2.2]
  have hpos' : 0 < wt.nr * wt.nc := Nat.mul_pos h0 (by omega)
  have hedge : hitsTheEdge cfg.edgeFlags bm = true ↔ OnEdge cfg bm := by
    unfold hitsTheEdge OnEdge
    rw [List.any_eq_true]
    constructor
    · rintro ⟨v, hv, hf⟩
      obtain ⟨i, j, e⟩ := Img.flat_mem_get? hs.1 hv
      exact ⟨i, j, v, e, (flagged_iff _ _).mp hf⟩
    · rintro ⟨i, j, v, e, hf⟩
      exact ⟨v, Img.get?_mem_flat e, (flagged_iff _ _).mpr hf⟩
  unfold epochFlag
  by_cases k1 : OnEdge cfg bm
  · rw [if_pos (hedge.mpr k1), if_pos k1]
  · rw [if_neg (fun h => k1 (hedge.mp h)), if_neg k1]
    unfold maskFrac
    rw [if_neg (by omega), Res.ok_bind]
    have hp : (0 : ℚ) < (bm.flat.length : ℚ) := by rw [hsize]; exact_mod_cast hpos'
    have k2' : (((badPixels cfg.badFlags bm wt).flat.count true : ℚ) / bm.flat.length > cfg.maxMaskedFrac) ↔ TooMuchMasked cfg bm wt := by
      unfold TooMuchMasked
      rw [count_bad hs, gt_iff_lt, lt_div_iff₀ hp, hsize]
    by_cases k2 : TooMuchMasked cfg bm wt
    · rw [if_pos (k2'.mpr k2), if_pos k2]
    · rw [if_neg (fun h => k2 (k2'.mp h)), if_neg k2]
      have k3' : centralMasked cfg bm wt = true ↔ CentreMasked cfg bm wt := by
        by_cases hc : cfg.centralCheck = true
        · rw [centralMasked_iff hs hsq hc]
          exact ⟨fun h => ⟨hc, h⟩, fun h => h.2⟩
        · unfold centralMasked
          rw [if_neg hc]
          exact ⟨fun h => (Bool.false_ne_true h).elim, fun h => (hc h.1).elim⟩
      by_cases k3 : CentreMasked cfg bm wt
      · rw [if_pos (k3'.mpr k3), if_pos k3]
      · rw [if_neg (fun h => k3 (k3'.mp h)), if_neg k3]
        obtain ⟨e, he, hside⟩ := C49_check_on_partial hs h0 (by omega) hec
        rw [he, Res.ok_bind]
        by_cases k4 : SideMasked cfg bm wt
        · rw [if_pos (hside.mpr k4), if_pos k4]
        · rw [if_neg (fun h => k4 (hside.mp h)), if_neg k4]
          have k5' : wt.flat.all (fun w => decide (w ≤ 0)) = true ↔ ∀ i j v, wt.get? i j = some v → v ≤ 0 := by
            rw [List.all_eq_true]
            constructor
            · intro h i j v e
              simpa using h v (Img.get?_mem_flat e)
            · intro h v hv
              obtain ⟨i, j, e⟩ := Img.flat_mem_get? hs.2.1 hv
              simpa using h i j v e
          by_cases k5 : ∀ i j v, wt.get? i j = some v → v ≤ 0
          · rw [if_pos (k5'.mpr k5), if_pos k5]
          · rw [if_neg (fun h => k5 (k5'.mp h)), if_neg k5]

-- each outcome on a stamp of 4 x 4 pixels: no test failed, an edge flag, masked corner pixels, the centre, a side, no weight anywhere
section
def exTests (frac : ℚ) : Cfg := ⟨false, false, frac, true, 2, true, some 1, some 4⟩
example :
    epochFlag (exTests (1 / 2)) ⟨4, 4, List.replicate 16 0⟩ ⟨4, 4, List.replicate 16 2⟩ = .ok 0 ∧
    epochFlag (exTests (1 / 2)) ⟨4, 4, 4 :: List.replicate 15 0⟩ ⟨4, 4, List.replicate 16 2⟩ = .ok 2 ∧
    epochFlag (exTests (1 / 17)) ⟨4, 4, 1 :: List.replicate 15 0⟩ ⟨4, 4, List.replicate 16 2⟩ = .ok 4 ∧
    epochFlag (exTests (1 / 2)) ⟨4, 4, [0, 0, 0, 0, 0, 1, 0, 0, 0, 0, 0, 0, 0, 0, 0, 0]⟩ ⟨4, 4, List.replicate 16 2⟩ = .ok 8 ∧
    epochFlag { exTests (1 / 2) with centralCheck := false } ⟨4, 4, [1, 1, 1, 1, 0, 0, 0, 0, 0, 0, 0, 0, 0, 0, 0, 0]⟩ ⟨4, 4, List.replicate 16 2⟩ = .ok 16 ∧
    epochFlag { exTests 1 with centralCheck := false } ⟨4, 4, List.replicate 16 0⟩ ⟨4, 4, List.replicate 16 (-1)⟩ = .ok 32 := by decide +kernel
end

end Meds.Coadd
