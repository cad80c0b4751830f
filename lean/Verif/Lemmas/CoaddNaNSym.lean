import Verif.Lemmas.CoaddNaN
import Verif.Props.MaskedValues

/-!
# Symmetrizing weights of any kind
-/

namespace Meds.Coadd
open Meds.Spec Meds.Coadd.Spec Compare

theorem rot90G_map {n : Nat} {wt : Img Flt} (hr : wt.nr = n) (hc : wt.nc = n) (hw : wt.WF) : (rot90G .nan wt).map lowSide = rot90 (wt.map lowSide) := by
  unfold rot90G rot90 Img.ofFn Img.map
  simp only [List.map_map]
  congr 1
  apply List.map_congr_left
  intro k hk
  have hk := List.mem_range.mp hk
  have hc0 : 0 < wt.nr := Nat.pos_of_ne_zero (fun h => by rw [h] at hk; omega)
  have hi : k / wt.nr < wt.nc := Nat.div_lt_of_lt_mul (by rw [Nat.mul_comm]; exact hk)
  have hj : k % wt.nr < wt.nr := Nat.mod_lt _ hc0
  obtain ⟨v, e⟩ := Img.get?_some_of_WF hw hj (show wt.nc - 1 - k / wt.nr < wt.nc by generalize k / wt.nr = q at hi ⊢; omega)
  have e' : (wt.map lowSide).get? (k % wt.nr) (wt.nc - 1 - k / wt.nr) = some (lowSide v) := by rw [Img.map_get?, e]; rfl
  simp only [Function.comp, e]
  show _ = Option.getD ((wt.map lowSide).get? (k % wt.nr) (wt.nc - 1 - k / wt.nr)) 0
  rw [e']
  rfl

theorem symmetrizeWeightF_low {n : Nat} {wt wt' : Img Flt} (hr : wt.nr = n) (hc : wt.nc = n) (hw : wt.WF) (h : symmetrizeWeightF wt = .ok wt') :
    symmetrizeWeight (wt.map lowSide) = .ok (wt'.map lowSide) := by
  unfold symmetrizeWeightF at h
  rw [if_neg (by rw [hr, hc]; simp)] at h
  injection h with h
  subst h
  unfold symmetrizeWeight
  rw [if_neg (by show ¬ wt.nr ≠ wt.nc; rw [hr, hc]; simp), ← rot90G_map hr hc hw]
  congr 1
  unfold Img.zipWith Img.map
  simp only [List.zipWith_map_left, List.zipWith_map_right, List.map_zipWith]
  congr 2
  funext w r
  have := lowSide_eq r
  by_cases h0 : lowSide r = 0
  · rw [if_pos h0, if_pos (by rw [← this]; simpa using h0)]
    rfl
  · rw [if_neg h0, if_neg (by rw [← this]; simpa using h0)]

theorem symmetrizedF_low {n : Nat} {cfg : Cfg} {bm : Img ℚ} {wt : Img Flt} {bw : Img ℚ × Img Flt} (hr : wt.nr = n) (hc : wt.nc = n) (hw : wt.WF)
    (h : symmetrizedF cfg bm wt = .ok bw) : symmetrized cfg bm (wt.map lowSide) = .ok (bw.1, bw.2.map lowSide) := by
  unfold symmetrizedF at h
  unfold symmetrized
  split at h
  · rename_i hc'
    rw [if_pos hc']
    obtain ⟨w', h1, h⟩ := Res.bind_eq_ok.mp h
    obtain ⟨b', h2, h⟩ := Res.bind_eq_ok.mp h
    injection h with h
    subst h
    rw [symmetrizeWeightF_low hr hc hw h1, Res.ok_bind, h2, Res.ok_bind]
  · rename_i hc'
    rw [if_neg hc']
    injection h with h
    subst h
    rfl

/-- A weight afterwards is zero or the pixel's own. -/
theorem symmetrizedF_weight {n : Nat} {cfg : Cfg} {bm : Img ℚ} {wt : Img Flt} {bw : Img ℚ × Img Flt} (hr : wt.nr = n) (hc : wt.nc = n)
    (h : symmetrizedF cfg bm wt = .ok bw) {i j : Nat} {w : Flt} (e : wt.get? i j = some w) : bw.2.get? i j = some w ∨ bw.2.get? i j = some (.num 0) := by
  unfold symmetrizedF at h
  split at h
  · obtain ⟨w', h1, h⟩ := Res.bind_eq_ok.mp h
    obtain ⟨b', h2, h⟩ := Res.bind_eq_ok.mp h
    injection h with h
    subst h
    have hl := Img.get?_lt e
    unfold symmetrizeWeightF at h1
    rw [if_neg (by rw [hr, hc]; simp)] at h1
    injection h1 with h1
    obtain ⟨r, er⟩ := Img.get?_some_of_WF (show (rot90G Flt.nan wt).WF from Img.ofFn_WF _ _ _) (show i < (rot90G Flt.nan wt).nr by show i < wt.nc; omega)
      (show j < (rot90G Flt.nan wt).nc by show j < wt.nr; omega)
    have := Img.zipWith_get? (a := wt) (b := rot90G Flt.nan wt) (show wt.nr = wt.nc by omega) (show wt.nc = wt.nr by omega)
      (fun w r => if r.eqZero then Flt.num 0 else w) i j e er
    rw [h1] at this
    show w'.get? i j = _ ∨ w'.get? i j = _
    rw [this]
    by_cases h0 : r.eqZero = true
    · rw [if_pos h0]; exact .inr rfl
    · rw [if_neg h0]; exact .inl rfl
  · injection h with h
    subst h
    exact .inl e

/-- Symmetrizing keeps the shapes, makes no unusable pixel usable, and no weight NaN. -/
theorem symmetrizedF_spec {n : Nat} {cfg : Cfg} {bm : Img ℚ} {wt : Img Flt} {bw : Img ℚ × Img Flt} (hs : ShapesAgree bm wt) (hr : wt.nr = n) (hc : wt.nc = n)
    (h : symmetrizedF cfg bm wt = .ok bw) : ShapesAgree bw.1 bw.2 ∧ bw.2.nr = n ∧ bw.2.nc = n ∧
      (∀ i j, UnusableF cfg.badFlags bm wt i j → UnusableF cfg.badFlags bw.1 bw.2 i j) ∧
      (∀ i j, NanWeight cfg.badFlags bw.1 bw.2 i j → NanWeight cfg.badFlags bm wt i j) := by
  have hlow := symmetrizedF_low hr hc hs.2.1 h
  have hb : Square n bm := ⟨by rw [hs.2.2.1, hr], by rw [hs.2.2.2, hc], hs.1⟩
  have hw : Square n (wt.map lowSide) := ⟨hr, hc, Img.map_WF hs.2.1 _⟩
  obtain ⟨sb, sw⟩ := symmetrized_square hb hw hlow
  have swr : bw.2.nr = n := sw.1
  have swc : bw.2.nc = n := sw.2.1
  have swf : bw.2.WF := by
    have := sw.2.2
    unfold Img.WF at this ⊢
    simpa [Img.map] using this
  have hun : ∀ i j, UnusableF cfg.badFlags bm wt i j → UnusableF cfg.badFlags bw.1 bw.2 i j := fun i j hu =>
    (unusableF_iff _ _ _ _ _).mpr (bad_symmetrized hb hw hlow ((unusableF_iff _ _ _ _ _).mp hu))
  refine ⟨⟨sb.2.2, swf, by rw [swr]; exact sb.1, by rw [swc]; exact sb.2.1⟩, swr, swc, hun, ?_⟩
  intro i j hn
  have hl := Img.get?_lt (hn.choose_spec.2.1)
  have hi : i < wt.nr := by omega
  have hj : j < wt.nc := by omega
  by_cases hu : UnusableF cfg.badFlags bm wt i j
  · exact absurd (hun i j hu) (nan_not_unusable hn)
  · rcases not_unusable_cases hs hi hj hu with hok | hnan
    · obtain ⟨b, w, eb, ew, hp, hf⟩ := hok
      obtain ⟨_, _, ew', _⟩ := hn
      rcases symmetrizedF_weight hr hc h ew with e | e
      · rw [ew'] at e
        injection e with e
        rw [← e] at hp
        exact hp.elim
      · rw [ew'] at e
        cases e
    · exact hnan

end Meds.Coadd
