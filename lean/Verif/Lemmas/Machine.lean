import Verif.Model.Machine
import Verif.Lemmas.Float32
import Verif.Lemmas.Composite

/-!
# Doubles and 64-bit integers
-/

namespace Meds

/-- A number that a double holds exactly (overflow and underflow left out). -/
def Spec.IsDouble (q : ℚ) : Prop := ∃ (k : Int) (e : Int), |k| ≤ 2 ^ 53 ∧ q = (k : ℚ) * 2 ^ e

open Spec Uberseg

theorem Spec.IsDouble.neg {q : ℚ} (h : IsDouble q) : IsDouble (-q) := by
  obtain ⟨k, e, hk, rfl⟩ := h
  exact ⟨-k, e, by rwa [abs_neg], by push_cast; ring⟩

theorem isDouble_int {n : Int} (h : |n| ≤ 2 ^ 53) : IsDouble (n : ℚ) := ⟨n, 0, h, by simp⟩

theorem rnd_double {q : ℚ} (hq : 0 < q) (h : IsDouble q) : rnd 53 q = q := by
  obtain ⟨k, e, hk, rfl⟩ := h
  have hu : ∀ z : Int, (0 : ℚ) < 2 ^ z := fun z => zpow_pos (by norm_num) z
  have hk0 : 0 < k := by
    have : (0 : ℚ) < k := by
      by_contra hc
      push Not at hc
      have := mul_nonpos_of_nonpos_of_nonneg hc (hu e).le
      linarith
    exact_mod_cast this
  rw [abs_of_pos hk0] at hk
  set q := (k : ℚ) * 2 ^ e with hqd
  have key : ∃ n : Int, q / 2 ^ (Int.log 2 q - (((53 : Nat) : Int) - 1)) = (n : ℚ) := by
    by_cases he : Int.log 2 q - 52 ≤ e
    · obtain ⟨d, hd⟩ := Int.eq_ofNat_of_zero_le (by omega : 0 ≤ e - (Int.log 2 q - 52))
      refine ⟨k * 2 ^ d, ?_⟩
      rw [div_eq_iff (hu _).ne', hqd]
      have : e = (d : Int) + (Int.log 2 q - (((53 : Nat) : Int) - 1)) := by push_cast; omega
      rw [← hqd]
      conv_lhs => rw [hqd, this, zpow_add₀ (by norm_num), zpow_natCast]
      push_cast
      ring
    · push Not at he
      have hlog : ((2 : Nat) : ℚ) ^ Int.log 2 q ≤ q := Int.zpow_log_le_self (by norm_num) hq
      push_cast at hlog
      have h1 : (2 : ℚ) ^ (e + 53) ≤ 2 ^ Int.log 2 q := zpow_le_zpow_right₀ (by norm_num) (by omega)
      have h2 : q ≤ 2 ^ (e + 53) := by
        rw [zpow_add₀ (by norm_num), hqd, mul_comm]
        have : (k : ℚ) ≤ 2 ^ (53 : Int) := by
          rw [show ((53 : Int)) = ((53 : Nat) : Int) from rfl, zpow_natCast]
          exact_mod_cast hk
        exact mul_le_mul_of_nonneg_left this (hu e).le
      have h3 : q = 2 ^ Int.log 2 q := le_antisymm (h2.trans h1) hlog
      refine ⟨2 ^ 52, ?_⟩
      rw [div_eq_iff (hu _).ne']
      conv_lhs => rw [h3]
      rw [show ((2 ^ 52 : Int) : ℚ) = 2 ^ (52 : Int) by norm_num, ← zpow_add₀ (by norm_num)]
      congr 1
      push_cast
      ring
  obtain ⟨n, hn⟩ := key
  unfold rnd
  rw [hn, roundHE_int, ← hn, div_mul_cancel₀ _ (hu _).ne']

theorem rnd_zero (p : Nat) : rnd p 0 = 0 := by
  unfold rnd
  rw [zero_div, show (0 : ℚ) = ((0 : Int) : ℚ) from rfl, roundHE_int]
  simp

theorem rndD_double {q : ℚ} (h : IsDouble q) : rndD q = q := by
  unfold rndD
  rcases lt_trichotomy q 0 with hq | hq | hq
  · rw [if_neg (by linarith), rnd_double (by linarith) h.neg, neg_neg]
  · rw [hq, if_pos (le_refl _), rnd_zero]
  · rw [if_pos hq.le, rnd_double hq h]

theorem rndD_error (q : ℚ) : |rndD q - q| ≤ |q| / 2 ^ 53 := by
  unfold rndD
  rcases lt_trichotomy q 0 with hq | hq | hq
  · rw [if_neg (by linarith)]
    have := rnd_error 53 (q := -q) (by linarith)
    rw [abs_of_neg hq, show -rnd 53 (-q) - q = -(rnd 53 (-q) - -q) by ring, abs_neg]
    exact this
  · rw [hq, if_pos (le_refl _), rnd_zero]; simp
  · rw [if_pos hq.le, abs_of_pos hq]
    exact rnd_error 53 hq

theorem rndD_int {n : Int} (h : |n| ≤ 2 ^ 53) : rndD (n : ℚ) = n := rndD_double (isDouble_int h)

theorem wrap64_id {k : Int} (h0 : -2 ^ 63 ≤ k) (h1 : k < 2 ^ 63) : wrap64 k = k := by
  unfold wrap64
  omega

theorem wrap64_mod (k : Int) : wrap64 k % 2 ^ 64 = k % 2 ^ 64 := by
  unfold wrap64
  omega

theorem wrap64_eq_iff {a b : Int} : wrap64 a = wrap64 b ↔ a % 2 ^ 64 = b % 2 ^ 64 := by
  unfold wrap64
  omega

theorem toI4_trunc {q : ℚ} (h0 : -2 ^ 31 ≤ q) (h1 : q < 2 ^ 31) : toI4 q = truncZ q := by
  unfold toI4
  rw [if_pos]
  unfold truncZ
  split
  · constructor
    · rw [Int.le_floor]; push_cast; linarith
    · rw [Int.floor_lt]; push_cast; linarith
  · constructor
    · have : ((-2 ^ 31 : Int) : ℚ) ≤ (⌈q⌉ : ℚ) := by push_cast; exact h0.trans (Int.le_ceil q)
      exact_mod_cast this
    · have : ⌈q⌉ ≤ 0 := by rw [Int.ceil_le]; push_cast; linarith
      omega

/-- A double less an integer that lies between zero and it is a double. -/
theorem Spec.IsDouble.sub_int {x : ℚ} (h : IsDouble x) {s : Int} (hs0 : 0 ≤ s) (hs : (s : ℚ) ≤ x) (hx : x ≤ 2 ^ 53) : IsDouble (x - s) := by
  obtain ⟨k, e, hk, rfl⟩ := h
  have hu : ∀ z : Int, (0 : ℚ) < 2 ^ z := fun z => zpow_pos (by norm_num) z
  have hs0' : (0 : ℚ) ≤ s := by exact_mod_cast hs0
  by_cases he : 0 ≤ e
  · obtain ⟨d, rfl⟩ := Int.eq_ofNat_of_zero_le he
    have hi : ((k : ℚ) * 2 ^ (d : Int) - s) = ((k * 2 ^ d - s : Int) : ℚ) := by push_cast; rw [zpow_natCast]
    rw [hi]
    apply isDouble_int
    rw [abs_le]
    have h1 : (0 : ℚ) ≤ ((k * 2 ^ d - s : Int) : ℚ) := by rw [← hi]; linarith
    have h2 : ((k * 2 ^ d - s : Int) : ℚ) ≤ 2 ^ 53 := by rw [← hi]; linarith
    have h1' : 0 ≤ k * 2 ^ d - s := by exact_mod_cast h1
    have h2' : k * 2 ^ d - s ≤ 2 ^ 53 := by exact_mod_cast h2
    omega
  · obtain ⟨d, hd⟩ := Int.eq_ofNat_of_zero_le (by omega : 0 ≤ -e)
    have hee : e = -(d : Int) := by omega
    subst hee
    have hi : ((k : ℚ) * 2 ^ (-(d : Int)) - s) = ((k - s * 2 ^ d : Int) : ℚ) * 2 ^ (-(d : Int)) := by
      push_cast
      rw [sub_mul, mul_assoc, ← zpow_natCast, ← zpow_add₀ (by norm_num)]
      simp
    refine ⟨k - s * 2 ^ d, -(d : Int), ?_, hi⟩
    have h1 : (0 : ℚ) ≤ ((k - s * 2 ^ d : Int) : ℚ) * 2 ^ (-(d : Int)) := by rw [← hi]; linarith
    have h2 : (0 : ℚ) ≤ ((k - s * 2 ^ d : Int) : ℚ) := by
      by_contra hc
      push Not at hc
      have := mul_neg_of_neg_of_pos hc (hu (-(d : Int)))
      linarith
    have h3 : 0 ≤ k - s * 2 ^ d := by exact_mod_cast h2
    rw [abs_of_nonneg h3]
    have : 0 ≤ s * 2 ^ d := by positivity
    have := (abs_le.mp hk).2
    omega

theorem roundHE_nearest (x : ℚ) (n : Int) : |(roundHE x : ℚ) - x| ≤ |(n : ℚ) - x| := by
  by_cases h : n = roundHE x
  · rw [h]
  · have h1 := roundHE_near x
    rw [abs_sub_comm] at h1
    have h2 : (1 : ℚ) ≤ |(n : ℚ) - (roundHE x : ℚ)| := by
      rw [← Int.cast_sub, ← Int.cast_abs]
      exact_mod_cast Int.one_le_abs (by omega)
    have h3 : |(n : ℚ) - (roundHE x : ℚ)| ≤ |(n : ℚ) - x| + |(roundHE x : ℚ) - x| := by
      have := abs_sub_le (n : ℚ) x (roundHE x : ℚ)
      rwa [abs_sub_comm x] at this
    linarith

theorem rnd_nearest {q : ℚ} (hq : 0 < q) {d : ℚ} (hd : IsDouble d) : |rnd 53 q - q| ≤ |d - q| := by
  obtain ⟨k, e', hk, rfl⟩ := hd
  have hu : ∀ z : Int, (0 : ℚ) < 2 ^ z := fun z => zpow_pos (by norm_num) z
  have hlog : (2 : ℚ) ^ Int.log 2 q ≤ q := by
    have := Int.zpow_log_le_self (R := ℚ) (b := 2) (by norm_num) hq
    exact_mod_cast this
  unfold rnd
  set e := Int.log 2 q - (((53 : Nat) : Int) - 1) with he
  -- multiples of the last place
  have key : ∀ n : Int, |(roundHE (q / 2 ^ e) : ℚ) * 2 ^ e - q| ≤ |(n : ℚ) * 2 ^ e - q| := by
    intro n
    have h := roundHE_nearest (q / 2 ^ e) n
    have e1 : ∀ z : ℚ, z * 2 ^ e - q = (z - q / 2 ^ e) * 2 ^ e := by
      intro z
      rw [sub_mul, div_mul_cancel₀ _ (hu e).ne']
    rw [e1, e1, abs_mul, abs_mul]
    exact mul_le_mul_of_nonneg_right h (abs_nonneg _)
  by_cases hle : e ≤ e'
  · have := key (k * 2 ^ (e' - e).toNat)
    refine le_trans this (le_of_eq ?_)
    congr 2
    push_cast
    rw [mul_assoc]
    congr 1
    rw [← zpow_natCast, ← zpow_add₀ (by norm_num)]
    congr 1
    omega
  · have h52 := key (2 ^ 52)
    have e2 : ((2 ^ 52 : Int) : ℚ) * 2 ^ e = 2 ^ Int.log 2 q := by
      rw [show ((2 ^ 52 : Int) : ℚ) = 2 ^ 52 by norm_num, ← zpow_natCast, ← zpow_add₀ (by norm_num)]
      congr 1
      omega
    rw [e2] at h52
    have hk' : (k : ℚ) ≤ 2 ^ 53 := by
      have := (abs_le.mp hk).2
      exact_mod_cast this
    have hd : (k : ℚ) * 2 ^ e' ≤ 2 ^ Int.log 2 q := by
      calc (k : ℚ) * 2 ^ e' ≤ 2 ^ 53 * 2 ^ e' := mul_le_mul_of_nonneg_right hk' (hu e').le
        _ = 2 ^ (53 + e') := by rw [zpow_add₀ (by norm_num)]; rfl
        _ ≤ 2 ^ Int.log 2 q := zpow_le_zpow_right₀ (by norm_num) (by omega)
    refine le_trans h52 ?_
    rw [abs_of_nonpos (by linarith), abs_of_nonpos (by linarith)]
    linarith

theorem rnd_isDouble {q : ℚ} (hq : 0 < q) : IsDouble (rnd 53 q) := by
  have hu : ∀ z : Int, (0 : ℚ) < 2 ^ z := fun z => zpow_pos (by norm_num) z
  refine ⟨_, _, ?_, rfl⟩
  set e := Int.log 2 q - (((53 : Nat) : Int) - 1) with he
  have h1 : q < 2 ^ (Int.log 2 q + 1) := by
    have := Int.lt_zpow_succ_log_self (R := ℚ) (b := 2) (by norm_num) q
    exact_mod_cast this
  have h2 : q / 2 ^ e ≤ ((2 ^ 53 : Int) : ℚ) := by
    rw [div_le_iff₀ (hu e), show ((2 ^ 53 : Int) : ℚ) = 2 ^ 53 by norm_num]
    have : (2 : ℚ) ^ 53 * 2 ^ e = 2 ^ (Int.log 2 q + 1) := by
      rw [← zpow_natCast, ← zpow_add₀ (by norm_num)]
      congr 1
      omega
    rw [this]; exact h1.le
  have h3 := roundHE_mono h2
  rw [roundHE_int] at h3
  have h4 : ((0 : Int) : ℚ) ≤ q / 2 ^ e := by
    push_cast
    exact div_nonneg hq.le (hu e).le
  have h5 := roundHE_mono h4
  rw [roundHE_int] at h5
  rw [abs_of_nonneg h5]; exact h3

/-- `rndD q` is a double, and no double is nearer to `q`. -/
theorem rndD_isDouble (q : ℚ) : IsDouble (rndD q) := by
  unfold rndD
  rcases lt_trichotomy q 0 with hq | hq | hq
  · rw [if_neg (by linarith)]
    exact (rnd_isDouble (by linarith)).neg
  · rw [hq, if_pos (le_refl _), rnd_zero]
    exact ⟨0, 0, by norm_num, by simp⟩
  · rw [if_pos hq.le]
    exact rnd_isDouble hq

theorem rndD_nearest (q : ℚ) {d : ℚ} (hd : IsDouble d) : |rndD q - q| ≤ |d - q| := by
  unfold rndD
  rcases lt_trichotomy q 0 with hq | hq | hq
  · rw [if_neg (by linarith)]
    have := rnd_nearest (q := -q) (by linarith) hd.neg
    rw [show -rnd 53 (-q) - q = -(rnd 53 (-q) - -q) by ring, abs_neg]
    refine le_trans this (le_of_eq ?_)
    rw [show -d - -q = -(d - q) by ring, abs_neg]
  · rw [hq, if_pos (le_refl _), rnd_zero]
    simp
  · rw [if_pos hq.le]
    exact rnd_nearest hq hd

end Meds
