import Mathlib.Data.Int.Bitwise
import Mathlib.Tactic.Ring
import Mathlib.Tactic.Linarith

/-!
# Numbers of a fixed number of bits
-/

namespace Meds

/-- Bit `i` of an integer is the parity of the integer divided by `2^i` (rounded down). -/
theorem Int.testBit_iff (k : Int) (i : Nat) : k.testBit i = true ↔ k / 2 ^ i % 2 = 1 := by
  cases k with
  | ofNat n =>
    show Nat.testBit n i = true ↔ _
    rw [Nat.testBit_eq_decide_div_mod_eq, decide_eq_true_eq]
    constructor
    · intro h
      have : ((n / 2 ^ i % 2 : Nat) : Int) = 1 := by rw [h]; rfl
      push_cast at this
      exact this
    · intro h
      have : ((n / 2 ^ i % 2 : Nat) : Int) = 1 := by push_cast; exact h
      exact_mod_cast this
  | negSucc n =>
    show (!Nat.testBit n i) = true ↔ _
    rw [Bool.not_eq_true', Nat.testBit_eq_decide_div_mod_eq, decide_eq_false_iff_not]
    have hp : (0 : Int) < 2 ^ i := by positivity
    rw [Int.negSucc_ediv n hp]
    have e : ((n : Int).ediv (2 ^ i)) = ((n / 2 ^ i : Nat) : Int) := by push_cast; rfl
    rw [e]
    omega

theorem Int.testBit_add_mul {w i : Nat} (h : i < w) (k q : Int) : (k + 2 ^ w * q).testBit i = k.testBit i := by
  rw [Bool.eq_iff_iff, Int.testBit_iff, Int.testBit_iff]
  obtain ⟨d, rfl⟩ : ∃ d, w = i + 1 + d := ⟨w - (i + 1), by omega⟩
  have e : k + 2 ^ (i + 1 + d) * q = k + 2 ^ i * (2 * (2 ^ d * q)) := by ring
  rw [e, Int.add_mul_ediv_left _ _ (by positivity : (2 ^ i : Int) ≠ 0)]
  omega

/-- A number of `w` bits that differs from another by a multiple of `2^w` has the same bits. -/
theorem Int.testBit_bmod {w i : Nat} (h : i < w) (k : Int) : (k.bmod (2 ^ w)).testBit i = k.testBit i := by
  have e := Int.bmod_add_bdiv k (2 ^ w)
  have := Int.testBit_add_mul h (k.bmod (2 ^ w)) (k.bdiv (2 ^ w))
  rw [← this]
  congr 1

theorem Int.testBit_emod {w i : Nat} (h : i < w) (k : Int) : (k % 2 ^ w).testBit i = k.testBit i := by
  have e := Int.emod_add_mul_ediv k (2 ^ w)
  have := Int.testBit_add_mul h (k % 2 ^ w) (k / 2 ^ w)
  rw [← this, e]

end Meds
