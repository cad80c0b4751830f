import Verif.Model.Composite
import Verif.Lemmas.Basic

/-! Lemmas on pixelwise operations, rounding and positions. -/

namespace Meds

namespace Img
variable {α β : Type}

theorem mapPix_WF {im : Img α} (h : im.WF) (f : Nat → Nat → α → β) : (im.mapPix f).WF := by
  simpa [WF, mapPix] using h

theorem mapPix_get? (im : Img α) (f : Nat → Nat → α → β) (i j : Nat) : (im.mapPix f).get? i j = (im.get? i j).map (f i j) := by
  unfold get?
  by_cases h : i < im.nr ∧ j < im.nc
  · rw [if_pos h, if_pos (show i < (im.mapPix f).nr ∧ j < (im.mapPix f).nc from h)]
    unfold mapPix
    dsimp only
    rw [List.getElem?_mapIdx]
    have e1 : (i * im.nc + j) / im.nc = i := by
      rw [Nat.mul_comm, Nat.mul_add_div (by omega), Nat.div_eq_of_lt h.2]; omega
    have e2 : (i * im.nc + j) % im.nc = j := by
      rw [Nat.mul_comm, Nat.mul_add_mod, Nat.mod_eq_of_lt h.2]
    rw [e1, e2]
  · rw [if_neg h, if_neg (show ¬ (i < (im.mapPix f).nr ∧ j < (im.mapPix f).nc) from h)]
    rfl

theorem ofFnRes_ok {nr nc : Nat} {f : Nat → Nat → Res α} {im : Img α} (h : ofFnRes nr nc f = .ok im) :
    im.nr = nr ∧ im.nc = nc ∧ im.WF ∧ ∀ i j, i < nr → j < nc → ∃ v, im.get? i j = some v ∧ f i j = .ok v := by
  unfold ofFnRes at h
  obtain ⟨l, h1, h2⟩ := Res.bind_eq_ok.mp h
  injection h2 with h2
  subst h2
  have hlen := mapRes_length h1
  rw [List.length_range] at hlen
  refine ⟨rfl, rfl, hlen, ?_⟩
  intro i j hi hj
  have hk := idx_lt hi hj
  obtain ⟨y, hy, hf⟩ := mapRes_getElem? h1 (i := i * nc + j) (x := i * nc + j) (List.getElem?_range hk)
  have e1 : (i * nc + j) / nc = i := by
    rw [Nat.mul_comm, Nat.mul_add_div (by omega), Nat.div_eq_of_lt hj]; omega
  have e2 : (i * nc + j) % nc = j := by
    rw [Nat.mul_comm, Nat.mul_add_mod, Nat.mod_eq_of_lt hj]
  rw [e1, e2] at hf
  refine ⟨y, ?_, hf⟩
  unfold get?
  rw [if_pos ⟨hi, hj⟩]
  exact hy

theorem ofFnRes_of_forall {nr nc : Nat} {f : Nat → Nat → Res α} (h : ∀ i j, i < nr → j < nc → ∃ v, f i j = .ok v) :
    ∃ im, ofFnRes nr nc f = .ok im := by
  obtain ⟨l, hl⟩ := mapRes_of_forall (f := fun k => f (k / nc) (k % nc)) (l := List.range (nr * nc)) (by
    intro k hk
    rw [List.mem_range] at hk
    have hnc : 0 < nc := Nat.pos_of_ne_zero (by rintro rfl; simp at hk)
    exact h _ _ (Nat.div_lt_of_lt_mul (by rw [Nat.mul_comm]; exact hk)) (Nat.mod_lt _ hnc))
  refine ⟨⟨nr, nc, l⟩, ?_⟩
  unfold ofFnRes
  rw [hl]
  rfl

theorem get?_mem_flat {im : Img α} {i j : Nat} {v : α} (h : im.get? i j = some v) : v ∈ im.flat := by
  unfold get? at h
  split at h
  · exact List.mem_of_getElem? h
  · cases h

theorem flat_mem_get? {im : Img α} (hw : im.WF) {v : α} (h : v ∈ im.flat) : ∃ i j, im.get? i j = some v := by
  obtain ⟨k, hk, rfl⟩ := List.mem_iff_getElem.mp h
  have hk' : k < im.nr * im.nc := by rw [← hw]; exact hk
  have hnc : 0 < im.nc := Nat.pos_of_ne_zero (by intro h0; rw [h0] at hk'; simp at hk')
  refine ⟨k / im.nc, k % im.nc, ?_⟩
  unfold get?
  rw [if_pos ⟨Nat.div_lt_of_lt_mul (by rw [Nat.mul_comm]; exact hk'), Nat.mod_lt _ hnc⟩]
  rw [Nat.div_add_mod']
  exact List.getElem?_eq_getElem hk

theorem pyGet2_nat {im : Img α} {i j : Nat} {v : α} (h : im.get? i j = some v) : im.pyGet2 (i : Int) (j : Int) = .ok v := by
  obtain ⟨hi, hj⟩ := get?_lt h
  unfold pyGet2
  rw [pyIndex_nat hi, pyIndex_nat hj]
  dsimp only
  rw [h]

end Img

theorem roundHE_near (q : ℚ) : |q - roundHE q| ≤ 1 / 2 := by
  unfold roundHE
  have h1 := Int.floor_le q
  have h2 := Int.lt_floor_add_one q
  dsimp only
  split
  · rw [abs_le]; constructor <;> linarith
  · split
    · push_cast; rw [abs_le]; constructor <;> linarith
    · have : q - ⌊q⌋ = 1 / 2 := by linarith
      split
      · rw [abs_le]; constructor <;> linarith
      · push_cast; rw [abs_le]; constructor <;> linarith

theorem roundHE_int (n : Int) : roundHE (n : ℚ) = n := by
  unfold roundHE
  dsimp only
  rw [Int.floor_intCast, sub_self, if_pos (by norm_num)]

/-- Rounding and clipping gives an integer of the range that is nearest to the number. -/
theorem clip_round_nearest {x : ℚ} {n : Nat} (hn : 0 < n) :
    ∃ a : Nat, a < n ∧ clipI (roundHE x) 0 ((n : Int) - 1) = a ∧ ∀ b : Nat, b < n → |x - a| ≤ |x - b| := by
  have hr := roundHE_near x
  generalize roundHE x = r at hr
  rw [abs_le] at hr
  by_cases h0 : r < 0
  · refine ⟨0, hn, by unfold clipI; omega, ?_⟩
    intro b _
    have : (r : ℚ) ≤ -1 := by exact_mod_cast (by omega : r ≤ -1)
    have hx : x ≤ 0 := by linarith
    have hb : (0 : ℚ) ≤ b := Nat.cast_nonneg b
    rw [abs_of_nonpos (by push_cast; linarith), abs_of_nonpos (by linarith)]
    push_cast; linarith
  · by_cases h1 : (n : Int) - 1 < r
    · refine ⟨n - 1, by omega, by unfold clipI; omega, ?_⟩
      intro b hb
      have : (n : ℚ) ≤ r := by exact_mod_cast (by omega : (n : Int) ≤ r)
      have hb' : (b : ℚ) ≤ (n - 1 : ℕ) := by exact_mod_cast (by omega : b ≤ n - 1)
      have hn' : ((n - 1 : ℕ) : ℚ) = n - 1 := by rw [Nat.cast_sub (by omega)]; simp
      have hx : ((n - 1 : ℕ) : ℚ) ≤ x := by rw [hn']; linarith
      rw [abs_of_nonneg (by linarith), abs_of_nonneg (by linarith)]
      linarith
    · refine ⟨r.toNat, by omega, by unfold clipI; omega, ?_⟩
      intro b _
      have e : ((r.toNat : ℕ) : ℚ) = r := by exact_mod_cast (Int.toNat_of_nonneg (by omega) : (r.toNat : Int) = r)
      rw [e]
      have key : |x - r| ≤ 1 / 2 := abs_le.mpr hr
      by_cases hb : (b : Int) = r
      · have : (b : ℚ) = r := by exact_mod_cast hb
        rw [this]
      · have : (1 : ℚ) ≤ |(b : ℚ) - r| := by
          have : 1 ≤ |(b : Int) - r| := Int.one_le_abs (by omega)
          exact_mod_cast this
        have h3 : |(b : ℚ) - r| ≤ |x - b| + |x - r| := by
          have := abs_sub_abs_le_abs_sub (x - r) (x - b)
          have h4 : (b : ℚ) - r = (x - r) - (x - b) := by ring
          rw [h4]
          calc |(x - r) - (x - b)| ≤ |x - r| + |x - b| := abs_sub _ _
            _ = |x - b| + |x - r| := add_comm _ _
        linarith

end Meds
