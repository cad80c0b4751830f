import Verif.Model.MakeInput
import Mathlib.Data.Nat.Sqrt
import Mathlib.Analysis.Real.Sqrt
import Mathlib.Tactic.Linarith
import Mathlib.Tactic.NormNum
import Mathlib.Tactic.Positivity

/-!
# The plot grid of the viewer (C51)
-/

namespace Meds.View

/-- **C51** At least as many cells as plots, in both functions. -/
theorem C51_enough_cells (n : Nat) : n ≤ (setGrid n.sqrt n).1 * (setGrid n.sqrt n).2 ∧ n ≤ (getGrid n.sqrt n).1 * (getGrid n.sqrt n).2 := by
  have h1 : n < (n.sqrt + 1) * (n.sqrt + 1) := Nat.lt_succ_sqrt n
  have h2 : n ≤ (getGrid n.sqrt n).1 * (getGrid n.sqrt n).2 := by
    unfold getGrid
    split
    · simp only; omega
    · split
      · simp only; assumption
      · simp only; omega
  refine ⟨?_, h2⟩
  unfold setGrid
  split
  · rename_i h8; simp [h8]
  · exact h2

/-- **C51** Shape: as wide as high or one wider, in `get_grid` always, in `Grid` for every number but 8. -/
theorem C51_shape_partial (n : Nat) :
    ((getGrid n.sqrt n).2 = (getGrid n.sqrt n).1 ∨ (getGrid n.sqrt n).2 = (getGrid n.sqrt n).1 + 1) ∧ (n ≠ 8 → setGrid n.sqrt n = getGrid n.sqrt n) := by
  constructor
  · unfold getGrid
    split
    · simp
    · split <;> simp
  · intro h8
    unfold setGrid
    rw [if_neg h8]
    rfl

/-- **C51** The claim on the shape is false for 8 plots, which `Grid` lays out 2 by 4. -/
theorem C51_counterexample : ¬ ∀ n : Nat, (setGrid n.sqrt n).2 ≤ (setGrid n.sqrt n).1 + 1 := by
  intro h
  have := h 8
  revert this
  simp [setGrid]

/-- **C51** No row of cells is wasted: with one row fewer the plots would not fit. -/
theorem C51_tight (n : Nat) (hn : 0 < n) : 0 < (setGrid n.sqrt n).1 ∧ 0 < (setGrid n.sqrt n).2 ∧ ((setGrid n.sqrt n).1 - 1) * (setGrid n.sqrt n).2 < n := by
  have hs : 0 < n.sqrt := Nat.sqrt_pos.mpr hn
  have h0 : n.sqrt * n.sqrt ≤ n := Nat.sqrt_le n
  obtain ⟨s, hs'⟩ : ∃ s, n.sqrt = s + 1 := ⟨n.sqrt - 1, by omega⟩
  rw [hs'] at h0 ⊢
  have e1 : (s + 1) * (s + 1) = s * s + 2 * s + 1 := by ring
  have e2 : s * (s + 1) = s * s + s := by ring
  have e3 : s * (s + 1 + 1) = s * s + 2 * s := by ring
  have e4 : (s + 1) * (s + 1 + 1) = s * s + 3 * s + 2 := by ring
  unfold setGrid
  split
  · rename_i h8; simp [h8]
  · split
    · simp only [Nat.add_sub_cancel]; omega
    · split
      · simp only [Nat.add_sub_cancel]; omega
      · simp only [Nat.add_sub_cancel]; omega

/-- **C51** Each plot has its own cell of the grid: inside it, different for different plots, and filled row by row. -/
theorem C51_own_cell (n : Nat) {i : Nat} (hi : i < n) :
    ∃ r c, getRowcol (setGrid n.sqrt n) i = some (r, c) ∧ r < (setGrid n.sqrt n).1 ∧ c < (setGrid n.sqrt n).2 ∧
      ∀ j < n, getRowcol (setGrid n.sqrt n) j = some (r, c) → j = i := by
  have hcells := (C51_enough_cells n).1
  have hpos := (C51_tight n (by omega)).2.1
  generalize setGrid n.sqrt n = g at *
  have hg : ∀ j < n, getRowcol g j = some (j / g.2, j % g.2) := by
    intro j hj
    unfold getRowcol
    simp only
    rw [if_neg]
    have : (n : Int) ≤ (g.1 : Int) * g.2 := by exact_mod_cast hcells
    omega
  refine ⟨i / g.2, i % g.2, hg i hi, ?_, Nat.mod_lt _ hpos, ?_⟩
  · exact Nat.div_lt_of_lt_mul (by rw [Nat.mul_comm]; omega)
  · intro j hj hjc
    rw [hg j hj] at hjc
    injection hjc with hjc
    injection hjc with h1 h2
    rw [← Nat.div_add_mod j g.2, ← Nat.div_add_mod i g.2, h1, h2]

/-- **C51** Indices beyond the last cell are refused. -/
theorem C51_refused (g : Nat × Nat) {i : Nat} (hi : g.1 * g.2 ≤ i) : getRowcol g i = none := by
  unfold getRowcol
  simp only
  rw [if_pos]
  have : ((g.1 : Int) * g.2) ≤ i := by exact_mod_cast hi
  omega

/-- **C51** `int(sqrt(nplot))` in double precision is the integer square root, for fewer than 2^52 plots: `fl` is any rounding that is accurate to one part in
2^53, monotone, and exact on the integers below 2^53. -/
theorem C51_float_sqrt (fl : ℝ → ℝ) (hmono : ∀ x y, x ≤ y → fl x ≤ fl y) (hint : ∀ k : Nat, k ≤ 2 ^ 53 → fl k = k)
    (herr : ∀ x, 0 ≤ x → |fl x - x| ≤ x / 2 ^ 53) {n : Nat} (hn : n < 2 ^ 52) : ⌊fl (Real.sqrt n)⌋ = (n.sqrt : Int) := by
  have h0 : n.sqrt * n.sqrt ≤ n := Nat.sqrt_le n
  have h1 : n < (n.sqrt + 1) * (n.sqrt + 1) := Nat.lt_succ_sqrt n
  obtain ⟨s, hs⟩ : ∃ s, n.sqrt = s := ⟨_, rfl⟩
  rw [hs] at h0 h1 ⊢
  have hs26 : s < 2 ^ 26 := by
    by_contra hc
    have : 2 ^ 26 * 2 ^ 26 ≤ s * s := Nat.mul_le_mul (by omega) (by omega)
    omega
  rw [Int.floor_eq_iff]
  have r0 : (s : ℝ) ≤ Real.sqrt n := Real.le_sqrt_of_sq_le (by rw [pow_two]; exact_mod_cast h0)
  constructor
  · have := hmono _ _ r0
    rw [hint s (by omega)] at this
    exact_mod_cast this
  · have hx := herr _ (Real.sqrt_nonneg (n : ℝ))
    have hx2 := (abs_le.mp hx).2
    have hsq : Real.sqrt n * Real.sqrt n = n := Real.mul_self_sqrt (by positivity)
    have hle : (n : ℝ) + 1 ≤ ((s : ℝ) + 1) * (s + 1) := by exact_mod_cast h1
    have r1 : Real.sqrt n < s + 1 := by nlinarith [Real.sqrt_nonneg (n : ℝ)]
    have hgap : 1 ≤ ((s : ℝ) + 1 - Real.sqrt n) * (2 * (s + 1)) := by nlinarith [Real.sqrt_nonneg (n : ℝ)]
    have hs' : (s : ℝ) + 1 ≤ 2 ^ 26 := by exact_mod_cast hs26
    have hgap2 : 1 ≤ ((s : ℝ) + 1 - Real.sqrt n) * 2 ^ 27 := by nlinarith
    have : Real.sqrt n / 2 ^ 53 < 1 / 2 ^ 27 := by
      rw [div_lt_div_iff₀ (by positivity) (by positivity)]
      nlinarith
    have hfin : fl (Real.sqrt n) < s + 1 := by
      have : 1 / (2 : ℝ) ^ 27 ≤ (s : ℝ) + 1 - Real.sqrt n := by
        rw [div_le_iff₀ (by positivity)]; linarith
      linarith
    exact_mod_cast hfin

-- 7 plots: a 3 by 3 grid; 6 plots: 2 by 3
example : setGrid 2 7 = (3, 3) ∧ setGrid 2 6 = (2, 3) ∧ getRowcol (3, 3) 5 = some (1, 2) ∧ Nat.sqrt 7 = 2 ∧ setGrid 2 8 = (2, 4) := by
  refine ⟨by decide, by decide, by decide, (Nat.eq_sqrt.mpr ⟨by norm_num, by norm_num⟩).symm, by decide⟩

end Meds.View
