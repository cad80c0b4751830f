import Verif.Model.CompositeF
import Verif.Lemmas.Machine
import Mathlib.Tactic.Linarith
import Mathlib.Tactic.Positivity
import Mathlib.Tactic.FieldSimp
import Mathlib.Tactic.Ring
import Mathlib.Tactic.LinearCombination

/-!
# Rounding errors of sums of products
-/

namespace Meds
open Spec

/-- Unit of rounding of a double. -/
def ulpD : ℚ := 1 / 2 ^ 53

/-- `y` is `x` up to `k` roundings of terms of size `m`. -/
structure Near (k : Nat) (y x m : ℚ) : Prop where
  size : |x| ≤ m
  err : |y - x| ≤ m * ((1 + ulpD) ^ k - 1)

theorem ulpD_pos : 0 < ulpD := by unfold ulpD; positivity

theorem grow_nonneg (k : Nat) : 0 ≤ (1 + ulpD) ^ k - 1 := by
  have : (1 : ℚ) ≤ (1 + ulpD) ^ k := one_le_pow₀ (by have := ulpD_pos; linarith)
  linarith

theorem grow_mono {k l : Nat} (h : k ≤ l) : (1 + ulpD) ^ k - 1 ≤ (1 + ulpD) ^ l - 1 := by
  have : (1 + ulpD) ^ k ≤ (1 + ulpD) ^ l := pow_le_pow_right₀ (by have := ulpD_pos; linarith) h
  linarith

namespace Near
variable {k l : Nat} {x y x' y' m m' c : ℚ}

theorem exact (h : |x| ≤ m) : Near 0 x x m := ⟨h, by simp⟩

theorem m_nonneg (h : Near k y x m) : 0 ≤ m := (abs_nonneg x).trans h.size

theorem mono (h : Near k y x m) (hkl : k ≤ l) : Near l y x m :=
  ⟨h.size, h.err.trans (mul_le_mul_of_nonneg_left (grow_mono hkl) h.m_nonneg)⟩

theorem rnd (h : Near k y x m) : Near (k + 1) (rndD y) x m := by
  refine ⟨h.size, ?_⟩
  have h1 := rndD_error y
  have h2 : |y| ≤ m + m * ((1 + ulpD) ^ k - 1) := by
    have : y = x + (y - x) := by ring
    rw [this]
    exact (abs_add_le _ _).trans (add_le_add h.size h.err)
  have h3 : |rndD y - x| ≤ |rndD y - y| + |y - x| := by
    have : rndD y - x = (rndD y - y) + (y - x) := by ring
    rw [this]; exact abs_add_le _ _
  have h4 : |y| / 2 ^ 53 = ulpD * |y| := by unfold ulpD; ring
  have h5 : ulpD * |y| ≤ ulpD * (m + m * ((1 + ulpD) ^ k - 1)) := mul_le_mul_of_nonneg_left h2 ulpD_pos.le
  have h6 : m * ((1 + ulpD) ^ (k + 1) - 1) = m * ((1 + ulpD) ^ k - 1) + ulpD * (m + m * ((1 + ulpD) ^ k - 1)) := by rw [pow_succ]; ring
  rw [h6]
  have := h.err
  linarith

theorem mul (h : Near k y x m) (c : ℚ) : Near k (y * c) (x * c) (m * |c|) := by
  constructor
  · rw [abs_mul]; exact mul_le_mul_of_nonneg_right h.size (abs_nonneg c)
  · rw [← sub_mul, abs_mul]
    calc |y - x| * |c| ≤ (m * ((1 + ulpD) ^ k - 1)) * |c| := mul_le_mul_of_nonneg_right h.err (abs_nonneg c)
      _ = m * |c| * ((1 + ulpD) ^ k - 1) := by ring

theorem add (h : Near k y x m) (h' : Near k y' x' m') : Near k (y + y') (x + x') (m + m') := by
  constructor
  · exact (abs_add_le _ _).trans (add_le_add h.size h'.size)
  · have : y + y' - (x + x') = (y - x) + (y' - x') := by ring
    rw [this, add_mul]
    exact (abs_add_le _ _).trans (add_le_add h.err h'.err)

end Near

theorem grow6 : (1 + ulpD) ^ 6 - 1 ≤ 1 / 2 ^ 50 := by unfold ulpD; norm_num
theorem grow4 : (1 + ulpD) ^ 4 - 1 ≤ 1 / 2 ^ 50 := by unfold ulpD; norm_num

/-- One coordinate: centre plus two products of sums. -/
theorem coord_error {r c A B C D K L z n : ℚ} (hr : |r| ≤ n) (hc : |c| ≤ n) :
    |rndD (rndD (z + rndD (rndD (rndD (rndD r * A) + rndD (rndD c * B)) * K)) + rndD (rndD (rndD (rndD r * C) + rndD (rndD c * D)) * L)) -
      (z + (r * A + c * B) * K + (r * C + c * D) * L)| ≤ (|z| + n * (|K| * (|A| + |B|) + |L| * (|C| + |D|))) / 2 ^ 50 := by
  have R := (Near.exact hr).rnd
  have S := (Near.exact hc).rnd
  have U := (((R.mul A).rnd.add (S.mul B).rnd).rnd.mul K).rnd
  have V := (((R.mul C).rnd.add (S.mul D).rnd).rnd.mul L).rnd
  have Z := (Near.exact (le_refl |z|)).mono (Nat.zero_le 4)
  have W := ((Z.add U).rnd.add (V.mono (Nat.le_succ 4))).rnd
  refine W.err.trans ?_
  have e : (|z| + (n * |A| + n * |B|) * |K| + (n * |C| + n * |D|) * |L|) = |z| + n * (|K| * (|A| + |B|) + |L| * (|C| + |D|)) := by ring
  rw [e]
  have hn : 0 ≤ n := (abs_nonneg r).trans hr
  calc _ ≤ (|z| + n * (|K| * (|A| + |B|) + |L| * (|C| + |D|))) * (1 / 2 ^ 50) := mul_le_mul_of_nonneg_left grow6 (by positivity)
    _ = _ := by ring

/-- Squared distances have a relative error of a few units. -/
theorem r2F_error (cen : ℚ × ℚ) (i j : Nat) : |MEDS.r2F cen i j - MEDS.r2 cen i j| ≤ MEDS.r2 cen i j / 2 ^ 50 := by
  have sq : ∀ x : ℚ, Near 2 (rndD x * rndD x) (x ^ 2) (x ^ 2) := by
    intro x
    refine ⟨by rw [abs_of_nonneg (sq_nonneg x)], ?_⟩
    have h := rndD_error x
    have h' : |rndD x - x| ≤ ulpD * |x| := by have : |x| / 2 ^ 53 = ulpD * |x| := by { unfold ulpD; ring }
                                              rwa [this] at h
    have e : rndD x * rndD x - x ^ 2 = (rndD x - x) * (rndD x - x) + 2 * x * (rndD x - x) := by ring
    rw [e]
    have u0 := ulpD_pos
    calc _ ≤ |(rndD x - x) * (rndD x - x)| + |2 * x * (rndD x - x)| := abs_add_le _ _
      _ = |rndD x - x| * |rndD x - x| + 2 * |x| * |rndD x - x| := by rw [abs_mul, abs_mul, abs_mul]; norm_num
      _ ≤ (ulpD * |x|) * (ulpD * |x|) + 2 * |x| * (ulpD * |x|) := by gcongr
      _ = |x| ^ 2 * ((1 + ulpD) ^ 2 - 1) := by ring
      _ = _ := by rw [sq_abs]
  have W := ((sq (i - cen.1)).rnd.add (sq (j - cen.2)).rnd).rnd
  refine W.err.trans ?_
  have : (0 : ℚ) ≤ (i - cen.1) ^ 2 + (j - cen.2) ^ 2 := by positivity
  calc _ ≤ ((i - cen.1) ^ 2 + (j - cen.2) ^ 2) * (1 / 2 ^ 50) := mul_le_mul_of_nonneg_left grow4 this
    _ = _ := by unfold MEDS.r2; ring

/-- Rounding does not change the nearest integer of a number that is well away from the halves. -/
theorem roundHE_stable {x y ε : ℚ} (h : |y - x| ≤ ε) (hx : ∀ z : Int, ε < |x - (z + 1 / 2)|) : roundHE y = roundHE x := by
  obtain ⟨h1, h2⟩ := abs_le.mp h
  have hx0 := abs_le.mp ((roundHE_nearest x ⌊x + 1 / 2⌋).trans (by
    have a := Int.floor_le (x + 1 / 2)
    have b := Int.lt_floor_add_one (x + 1 / 2)
    rw [abs_le]; constructor <;> linarith : _ ≤ (1 / 2 : ℚ)))
  have hy0 := abs_le.mp ((roundHE_nearest y ⌊y + 1 / 2⌋).trans (by
    have a := Int.floor_le (y + 1 / 2)
    have b := Int.lt_floor_add_one (y + 1 / 2)
    rw [abs_le]; constructor <;> linarith : _ ≤ (1 / 2 : ℚ)))
  rcases lt_trichotomy (roundHE y) (roundHE x) with hlt | heq | hgt
  · exfalso
    have hz : (roundHE y : ℚ) + 1 ≤ roundHE x := by exact_mod_cast hlt
    have := hx (roundHE x - 1)
    rw [lt_abs] at this
    push_cast at this
    rcases this with h | h <;> linarith
  · exact heq
  · exfalso
    have hz : (roundHE x : ℚ) + 1 ≤ roundHE y := by exact_mod_cast hgt
    have := hx (roundHE x)
    rw [lt_abs] at this
    rcases this with h | h <;> linarith

/-- The computed inverse against the true one: `d` is a displacement in coadd pixels and `w` its image. -/
theorem inverse_error {K J : MEDS.Mat2} {η κn : ℚ} {d w : ℚ × ℚ} (hη : η ≤ 1 / 4)
    (ha : |K.a * J.a + K.b * J.c - 1| ≤ η) (hb : |K.a * J.b + K.b * J.d| ≤ η) (hc : |K.c * J.a + K.d * J.c| ≤ η) (hd : |K.c * J.b + K.d * J.d - 1| ≤ η)
    (hw : w = (J.a * d.1 + J.b * d.2, J.c * d.1 + J.d * d.2)) (h1 : |w.1 * K.a + w.2 * K.b| ≤ κn) (h2 : |w.1 * K.c + w.2 * K.d| ≤ κn) :
    |w.1 * K.a + w.2 * K.b - d.1| ≤ 4 * η * κn ∧ |w.1 * K.c + w.2 * K.d - d.2| ≤ 4 * η * κn := by
  subst hw
  dsimp only at *
  have η0 : 0 ≤ η := (abs_nonneg _).trans hb
  have e1 : (J.a * d.1 + J.b * d.2) * K.a + (J.c * d.1 + J.d * d.2) * K.b - d.1 = (K.a * J.a + K.b * J.c - 1) * d.1 + (K.a * J.b + K.b * J.d) * d.2 := by ring
  have e2 : (J.a * d.1 + J.b * d.2) * K.c + (J.c * d.1 + J.d * d.2) * K.d - d.2 = (K.c * J.a + K.d * J.c) * d.1 + (K.c * J.b + K.d * J.d - 1) * d.2 := by ring
  have b1 : |(J.a * d.1 + J.b * d.2) * K.a + (J.c * d.1 + J.d * d.2) * K.b - d.1| ≤ η * (|d.1| + |d.2|) := by
    rw [e1]
    refine (abs_add_le _ _).trans ?_
    rw [abs_mul, abs_mul, mul_add]
    gcongr
  have b2 : |(J.a * d.1 + J.b * d.2) * K.c + (J.c * d.1 + J.d * d.2) * K.d - d.2| ≤ η * (|d.1| + |d.2|) := by
    rw [e2]
    refine (abs_add_le _ _).trans ?_
    rw [abs_mul, abs_mul, mul_add]
    gcongr
  have t1 : |d.1| ≤ κn + η * (|d.1| + |d.2|) := by
    have : d.1 = ((J.a * d.1 + J.b * d.2) * K.a + (J.c * d.1 + J.d * d.2) * K.b) - ((J.a * d.1 + J.b * d.2) * K.a + (J.c * d.1 + J.d * d.2) * K.b - d.1) := by ring
    calc |d.1| = _ := by rw [← this]
      _ ≤ _ := abs_sub _ _
      _ ≤ _ := add_le_add h1 b1
  have t2 : |d.2| ≤ κn + η * (|d.1| + |d.2|) := by
    have : d.2 = ((J.a * d.1 + J.b * d.2) * K.c + (J.c * d.1 + J.d * d.2) * K.d) - ((J.a * d.1 + J.b * d.2) * K.c + (J.c * d.1 + J.d * d.2) * K.d - d.2) := by ring
    calc |d.2| = _ := by rw [← this]
      _ ≤ _ := abs_sub _ _
      _ ≤ _ := add_le_add h2 b2
  have s0 : 0 ≤ |d.1| + |d.2| := by positivity
  have t3 : |d.1| + |d.2| ≤ 4 * κn := by
    have : η * (|d.1| + |d.2|) ≤ 1 / 4 * (|d.1| + |d.2|) := mul_le_mul_of_nonneg_right hη s0
    linarith
  have t4 : η * (|d.1| + |d.2|) ≤ 4 * η * κn := by
    have := mul_le_mul_of_nonneg_left t3 η0
    linarith
  exact ⟨b1.trans t4, b2.trans t4⟩

end Meds
