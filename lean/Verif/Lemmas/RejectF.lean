import Verif.Model.RejectF
import Verif.Lemmas.PixelTypes
import Verif.Props.Reject
import Mathlib.Analysis.SpecialFunctions.Pow.Real

/-!
# Rounding errors of the outlier rejection
-/

namespace Meds
namespace Spec

/-- A square root of floats with `p` bits: within half a unit of the last place. -/
def SqrtAccurate (rt : Nat → ℚ → ℚ) : Prop := ∀ p ≥ 24, ∀ w : ℚ, 0 ≤ w → |(rt p w : ℝ) - Real.sqrt w| ≤ Real.sqrt w / 2 ^ p

/-- The documented criterion with its right hand side times `f` (`f = 1` is `Outlier`): a positive weight, and further from the median than `f` times
`nsigma` errors plus the fraction `A` of the median. -/
def Beyond (f nsigma A m x w : ℝ) : Prop := 0 < w ∧ f * (nsigma / Real.sqrt w + A * |m|) < |x - m|

end Spec

namespace Reject
open Spec

/-- More than the relative error of one operation that is rounded twice to single precision. -/
noncomputable def dR : ℝ := 1 / 2 ^ 22

theorem dR_pos : 0 < dR := by unfold dR; positivity
theorem dR_lt : dR < 1 := by unfold dR; norm_num

/-- `y` is `x` times a factor as near to 1 as after `k` roundings. -/
def Fac (k : Nat) (y x : ℝ) : Prop := ∃ t : ℝ, (1 - dR) ^ k ≤ t ∧ t ≤ (1 + dR) ^ k ∧ y = x * t

theorem low_nonneg (k : Nat) : 0 ≤ (1 - dR) ^ k := pow_nonneg (by linarith [dR_lt]) k
theorem low_pos (k : Nat) : 0 < (1 - dR) ^ k := pow_pos (by linarith [dR_lt]) k
theorem high_nonneg (k : Nat) : 0 ≤ (1 + dR) ^ k := pow_nonneg (by linarith [dR_pos]) k

theorem Fac.one (x : ℝ) : Fac 0 x x := ⟨1, by simp, by simp, by ring⟩

theorem Fac.mono {k l : Nat} {y x : ℝ} (h : Fac k y x) (hkl : k ≤ l) : Fac l y x := by
  obtain ⟨t, h1, h2, h3⟩ := h
  refine ⟨t, le_trans (pow_le_pow_of_le_one (by linarith [dR_lt]) (by linarith [dR_pos]) hkl) h1, h2.trans (pow_le_pow_right₀ (by linarith [dR_pos]) hkl), h3⟩

theorem Fac.mul {k l : Nat} {y x y' x' : ℝ} (h : Fac k y x) (h' : Fac l y' x') : Fac (k + l) (y * y') (x * x') := by
  obtain ⟨t, h1, h2, h3⟩ := h
  obtain ⟨t', h1', h2', h3'⟩ := h'
  refine ⟨t * t', ?_, ?_, by rw [h3, h3']; ring⟩
  · rw [pow_add]; exact mul_le_mul h1 h1' (low_nonneg l) ((low_nonneg k).trans h1)
  · rw [pow_add]; exact mul_le_mul h2 h2' ((low_nonneg l).trans h1') (high_nonneg k)

theorem Fac.trans {k l : Nat} {z y x : ℝ} (h : Fac k y x) (h' : Fac l z y) : Fac (k + l) z x := by
  obtain ⟨t, h1, h2, h3⟩ := h
  obtain ⟨t', h1', h2', h3'⟩ := h'
  refine ⟨t * t', ?_, ?_, by rw [h3', h3]; ring⟩
  · rw [pow_add]; exact mul_le_mul h1 h1' (low_nonneg l) ((low_nonneg k).trans h1)
  · rw [pow_add]; exact mul_le_mul h2 h2' ((low_nonneg l).trans h1') (high_nonneg k)

theorem Fac.bounds {k : Nat} {y x : ℝ} (h : Fac k y x) (hx : 0 ≤ x) : x * (1 - dR) ^ k ≤ y ∧ y ≤ x * (1 + dR) ^ k := by
  obtain ⟨t, h1, h2, h3⟩ := h
  rw [h3]
  exact ⟨mul_le_mul_of_nonneg_left h1 hx, mul_le_mul_of_nonneg_left h2 hx⟩

theorem Fac.of_bounds {k : Nat} {y x : ℝ} (hx : 0 ≤ x) (h1 : x * (1 - dR) ^ k ≤ y) (h2 : y ≤ x * (1 + dR) ^ k) : Fac k y x := by
  rcases hx.eq_or_lt with h0 | h0
  · subst h0
    refine ⟨1, pow_le_one₀ (by linarith [dR_lt]) (by linarith [dR_pos]), one_le_pow₀ (by linarith [dR_pos]), ?_⟩
    simp at h1 h2
    linarith
  · refine ⟨y / x, ?_, ?_, by field_simp⟩
    · rw [le_div_iff₀ h0]; linarith
    · rw [div_le_iff₀ h0]; linarith

theorem Fac.add {k : Nat} {y x y' x' : ℝ} (h : Fac k y x) (h' : Fac k y' x') (hx : 0 ≤ x) (hx' : 0 ≤ x') : Fac k (y + y') (x + x') := by
  have a := h.bounds hx
  have b := h'.bounds hx'
  exact Fac.of_bounds (by linarith) (by linarith) (by linarith)

theorem Fac.abs {k : Nat} {y x : ℝ} (h : Fac k y x) : Fac k |y| |x| := by
  obtain ⟨t, h1, h2, h3⟩ := h
  refine ⟨t, h1, h2, ?_⟩
  rw [h3, abs_mul, abs_of_nonneg ((low_nonneg k).trans h1)]

theorem bits_ge (k : PixType) : 24 ≤ k.bits := by cases k <;> decide
theorem workBits_ge (a b : PixType) : 24 ≤ workBits a b := by cases a <;> cases b <;> decide

/-- One in-place operation. -/
theorem inPlace_fac (k kb : PixType) (v : ℚ) : Fac 1 (inPlace k kb v : ℚ) (v : ℚ) := by
  obtain ⟨d, hd, e⟩ := rndP_factor (workBits k kb) v
  obtain ⟨d', hd', e'⟩ := rndP_factor k.bits (rndP (workBits k kb) v)
  unfold inPlace
  have hd : |d| ≤ 1 / 2 ^ 24 := hd.trans (one_div_le_one_div_of_le (by positivity) (pow_le_pow_right₀ (by norm_num) (workBits_ge k kb)))
  have hd' : |d'| ≤ 1 / 2 ^ 24 := hd'.trans (one_div_le_one_div_of_le (by positivity) (pow_le_pow_right₀ (by norm_num) (bits_ge k)))
  obtain ⟨a1, a2⟩ := abs_le.mp hd
  obtain ⟨b1, b2⟩ := abs_le.mp hd'
  refine ⟨((1 + d) * (1 + d') : ℚ), ?_, ?_, ?_⟩
  · have : (1 - 1 / 2 ^ 22 : ℚ) ≤ (1 + d) * (1 + d') :=
      le_trans (by norm_num) (mul_le_mul (a := (1 - 1 / 2 ^ 24 : ℚ)) (c := 1 - 1 / 2 ^ 24) (by linarith) (by linarith) (by norm_num) (by norm_num at a1 ⊢; linarith))
    have := (Rat.cast_le (K := ℝ)).mpr this
    unfold dR
    push_cast at this ⊢
    linarith
  · have : (1 + d) * (1 + d') ≤ (1 + 1 / 2 ^ 22 : ℚ) :=
      le_trans (mul_le_mul (b := (1 + 1 / 2 ^ 24 : ℚ)) (d := 1 + 1 / 2 ^ 24) (by linarith) (by linarith) (by norm_num at b1 ⊢; linarith) (by norm_num)) (by norm_num)
    have := (Rat.cast_le (K := ℝ)).mpr this
    unfold dR
    push_cast at this ⊢
    linarith
  · rw [e', e]; push_cast; ring

/-- The rounded median. -/
theorem medianF_error (l : List ℚ) : |medianF l - median l| ≤ |median l| / 2 ^ 51 := by
  unfold medianF median
  simp only
  split
  · simp only [sub_self, abs_zero]; positivity
  · generalize (l.insertionSort (· ≤ ·)).getD (l.length / 2 - 1) 0 + (l.insertionSort (· ≤ ·)).getD (l.length / 2) 0 = q
    obtain ⟨d, hd, e⟩ := rndP_factor 53 q
    obtain ⟨d', hd', e'⟩ := rndP_factor 53 (rndP 53 q / 2)
    rw [e', e, show q * (1 + d) / 2 * (1 + d') - q / 2 = q / 2 * (d + d' + d * d') by ring, abs_mul]
    have h3 : |d * d'| ≤ 1 / 2 ^ 53 := by
      rw [abs_mul]
      calc |d| * |d'| ≤ 1 / 2 ^ 53 * 1 := mul_le_mul hd (hd'.trans (by norm_num)) (abs_nonneg _) (by positivity)
        _ = 1 / 2 ^ 53 := by ring
    have : |d + d' + d * d'| ≤ 1 / 2 ^ 51 := by
      have a1 := abs_add_le (d + d') (d * d')
      have a2 := abs_add_le d d'
      have : (1 / 2 ^ 53 + 1 / 2 ^ 53 + 1 / 2 ^ 53 : ℚ) ≤ 1 / 2 ^ 51 := by norm_num
      linarith
    calc |q / 2| * |d + d' + d * d'| ≤ |q / 2| * (1 / 2 ^ 51) := mul_le_mul_of_nonneg_left this (abs_nonneg _)
      _ = |q / 2| / 2 ^ 51 := by ring

/-- What the code computes for one pixel. -/
def testF (rt : Nat → ℚ → ℚ) (nsigma A : ℚ) (ki kw : PixType) (m x w : ℚ) : Bool :=
  let d := inPlace ki .f8 (x - m)
  let c := inPlace ki kw (inPlace ki ki (d * d) * w)
  let t := inPlace .f8 .f8 (inPlace .f8 kw (inPlace .f8 .f8 (|m| * A) * rt kw.bits w) + nsigma)
  decide (inPlace .f8 .f8 (t * t) < c)

theorem sqrt_fac {rt : Nat → ℚ → ℚ} (h : SqrtAccurate rt) (k : PixType) {w : ℚ} (hw : 0 ≤ w) : Fac 1 (rt k.bits w : ℝ) (Real.sqrt w) := by
  have h1 := abs_le.mp (h k.bits (bits_ge k) w hw)
  have h2 : Real.sqrt w / 2 ^ k.bits ≤ Real.sqrt w * dR := by
    unfold dR
    rw [mul_one_div]
    apply div_le_div_of_nonneg_left (Real.sqrt_nonneg _) (by positivity)
    exact (pow_le_pow_right₀ (by norm_num) (by norm_num : 22 ≤ 24)).trans (pow_le_pow_right₀ (by norm_num) (bits_ge k))
  apply Fac.of_bounds (Real.sqrt_nonneg _) <;> rw [pow_one] <;> nlinarith [h1.1, h1.2]

/-- Both sides of the comparison. -/
theorem testF_sides {rt : Nat → ℚ → ℚ} (hrt : SqrtAccurate rt) {nsigma A : ℚ} (hn : 0 ≤ nsigma) (hA : 0 ≤ A) (ki kw : PixType) {m mF x w : ℚ} (hw : 0 ≤ w)
    (hm : |mF - m| ≤ |m| / 2 ^ 51) :
    ∃ c M : ℝ, (testF rt nsigma A ki kw mF x w = true ↔ M < c) ∧ Fac 4 c (((x : ℝ) - mF) * ((x : ℝ) - mF) * w) ∧
      Fac 11 M ((|(m : ℝ)| * A * Real.sqrt w + nsigma) * (|(m : ℝ)| * A * Real.sqrt w + nsigma)) := by
  have hmf : Fac 1 (mF : ℝ) m := by
    by_cases h0 : m = 0
    · subst h0
      have : mF = 0 := by simpa using hm
      subst this
      exact (Fac.one _).mono (by omega)
    · have hm' : |(mF / m : ℚ) - 1| ≤ 1 / 2 ^ 51 := by
        rw [show mF / m - 1 = (mF - m) / m by field_simp, abs_div, div_le_iff₀ (abs_pos.mpr h0)]
        linarith
      obtain ⟨a1, a2⟩ := abs_le.mp hm'
      refine ⟨((mF / m : ℚ) : ℝ), ?_, ?_, by push_cast; field_simp⟩
      · have : (1 - 1 / 2 ^ 22 : ℚ) ≤ mF / m := by norm_num at a1 ⊢; linarith
        have := (Rat.cast_le (K := ℝ)).mpr this
        unfold dR
        push_cast at this ⊢
        linarith
      · have : mF / m ≤ (1 + 1 / 2 ^ 22 : ℚ) := by norm_num at a2 ⊢; linarith
        have := (Rat.cast_le (K := ℝ)).mpr this
        unfold dR
        push_cast at this ⊢
        linarith
  refine ⟨_, _, (by unfold testF; simp only [decide_eq_true_eq]; exact (Rat.cast_lt (K := ℝ)).symm), ?_, ?_⟩
  · have d := inPlace_fac ki .f8 (x - mF)
    have e : Fac 3 (inPlace ki ki (inPlace ki .f8 (x - mF) * inPlace ki .f8 (x - mF)) : ℚ) (((x - mF : ℚ) : ℝ) * ((x - mF : ℚ) : ℝ)) := by
      have := inPlace_fac ki ki (inPlace ki .f8 (x - mF) * inPlace ki .f8 (x - mF))
      rw [Rat.cast_mul] at this
      exact (d.mul d).trans this
    have := inPlace_fac ki kw (inPlace ki ki (inPlace ki .f8 (x - mF) * inPlace ki .f8 (x - mF)) * w)
    rw [Rat.cast_mul] at this
    have := (e.mul (Fac.one (w : ℝ))).trans this
    push_cast at this ⊢
    exact this
  · have e1 : Fac 2 (inPlace .f8 .f8 (|mF| * A) : ℚ) (|(m : ℝ)| * A) := by
      have := inPlace_fac .f8 .f8 (|mF| * A)
      rw [Rat.cast_mul, Rat.cast_abs] at this
      exact (hmf.abs.mul (Fac.one (A : ℝ))).trans this
    have e2 : Fac 4 (inPlace .f8 kw (inPlace .f8 .f8 (|mF| * A) * rt kw.bits w) : ℚ) (|(m : ℝ)| * A * Real.sqrt w) := by
      have := inPlace_fac .f8 kw (inPlace .f8 .f8 (|mF| * A) * rt kw.bits w)
      rw [Rat.cast_mul] at this
      exact (e1.mul (sqrt_fac hrt kw hw)).trans this
    have e3 : Fac 5 (inPlace .f8 .f8 (inPlace .f8 kw (inPlace .f8 .f8 (|mF| * A) * rt kw.bits w) + nsigma) : ℚ) (|(m : ℝ)| * A * Real.sqrt w + nsigma) := by
      have := inPlace_fac .f8 .f8 (inPlace .f8 kw (inPlace .f8 .f8 (|mF| * A) * rt kw.bits w) + nsigma)
      rw [Rat.cast_add] at this
      have hA' : (0 : ℝ) ≤ A := by exact_mod_cast hA
      have hn' : (0 : ℝ) ≤ nsigma := by exact_mod_cast hn
      exact (e2.add ((Fac.one (nsigma : ℝ)).mono (by omega)) (by positivity) hn').trans this
    have := inPlace_fac .f8 .f8 (inPlace .f8 .f8 (inPlace .f8 kw (inPlace .f8 .f8 (|mF| * A) * rt kw.bits w) + nsigma) *
      inPlace .f8 .f8 (inPlace .f8 kw (inPlace .f8 .f8 (|mF| * A) * rt kw.bits w) + nsigma))
    rw [Rat.cast_mul] at this
    exact (e3.mul e3).trans this

theorem clear_high : (1 + dR) ^ 11 ≤ (1 + 1 / 2 ^ 19) ^ 2 * (1 - dR) ^ 4 := by unfold dR; norm_num
theorem clear_low : (1 - 1 / 2 ^ 19) ^ 2 * (1 + dR) ^ 4 ≤ (1 - dR) ^ 11 := by unfold dR; norm_num

/-- One pixel: the rounded test is the documented one, up to the factors. -/
theorem testF_pixel {rt : Nat → ℚ → ℚ} (hrt : SqrtAccurate rt) {nsigma A : ℚ} (hn : 0 ≤ nsigma) (hA : 1 / 2 ^ 30 ≤ A) (ki kw : PixType) {m mF x w : ℚ}
    (hm : |mF - m| ≤ |m| / 2 ^ 51) :
    (Beyond (1 + 1 / 2 ^ 18) nsigma A m x w → testF rt nsigma A ki kw mF x (max w 0) = true) ∧
    (¬ Beyond (1 - 1 / 2 ^ 18) nsigma A m x w → testF rt nsigma A ki kw mF x (max w 0) = false) := by
  have hA0 : 0 ≤ A := le_trans (by positivity) hA
  obtain ⟨c, M, h1, h2, h3⟩ := testF_sides hrt hn hA0 ki kw (x := x) (le_max_right w 0) hm
  have hA' : (1 / 2 ^ 30 : ℝ) ≤ A := by
    have := (Rat.cast_le (K := ℝ)).mpr hA
    push_cast at this
    exact this
  have hA0' : (0 : ℝ) ≤ A := by exact_mod_cast hA0
  have hn' : (0 : ℝ) ≤ nsigma := by exact_mod_cast hn
  have hm' : |(mF : ℝ) - m| ≤ |(m : ℝ)| / 2 ^ 51 := by
    have := (Rat.cast_le (K := ℝ)).mpr hm
    push_cast at this
    exact this
  by_cases hw : 0 < w
  · have hw' : (0 : ℝ) < w := by exact_mod_cast hw
    rw [max_eq_left hw.le] at h1 h2 h3 ⊢
    have hs : 0 < Real.sqrt w := Real.sqrt_pos.mpr hw'
    have hss : Real.sqrt w * Real.sqrt w = w := Real.mul_self_sqrt hw'.le
    set s := Real.sqrt (w : ℝ) with hsdef
    set T := |(m : ℝ)| * A * s + nsigma with hT
    have hT0 : 0 ≤ T := by positivity
    set SF := |(x : ℝ) - mF| * s with hSF
    set S := |(x : ℝ) - m| * s with hS
    have hSF0 : 0 ≤ SF := by positivity
    have e : ((x : ℝ) - mF) * ((x : ℝ) - mF) * w = SF * SF := by
      rw [hSF, ← hss, show |(x : ℝ) - mF| * s * (|(x : ℝ) - mF| * s) = (|(x : ℝ) - mF| * |(x : ℝ) - mF|) * (s * s) by ring, abs_mul_abs_self]
    rw [e] at h2
    have b2 := h2.bounds (mul_self_nonneg SF)
    have b3 := h3.bounds (mul_self_nonneg T)
    -- the error of the median against the threshold
    have hd : |SF - S| ≤ T / 2 ^ 21 := by
      have a1 : |SF - S| ≤ |(mF : ℝ) - m| * s := by
        rw [hSF, hS, ← sub_mul, abs_mul, abs_of_pos hs]
        apply mul_le_mul_of_nonneg_right _ hs.le
        have := abs_abs_sub_abs_le ((x : ℝ) - mF) ((x : ℝ) - m)
        rwa [show (x : ℝ) - mF - (x - m) = -((mF : ℝ) - m) by ring, abs_neg] at this
      have a2 : |(mF : ℝ) - m| * s ≤ |(m : ℝ)| / 2 ^ 51 * s := mul_le_mul_of_nonneg_right hm' hs.le
      have a3 : |(m : ℝ)| * s * (1 / 2 ^ 30) ≤ |(m : ℝ)| * s * A := mul_le_mul_of_nonneg_left hA' (by positivity)
      have a4 : |(m : ℝ)| / 2 ^ 51 * s = |(m : ℝ)| * s * (1 / 2 ^ 30) / 2 ^ 21 := by ring
      have a5 : |(m : ℝ)| * s * A ≤ T := by rw [hT]; linarith
      rw [a4] at a2
      have : |(m : ℝ)| * s * (1 / 2 ^ 30) / 2 ^ 21 ≤ T / 2 ^ 21 := div_le_div_of_nonneg_right (by linarith) (by positivity)
      linarith
    obtain ⟨d1, d2⟩ := abs_le.mp hd
    have hthr : ∀ f : ℝ, f * (nsigma / s + A * |(m : ℝ)|) * s = f * T := by
      intro f
      rw [hT]
      field_simp
      ring
    constructor
    · rintro ⟨_, hb⟩
      rw [h1]
      have hb := mul_lt_mul_of_pos_right hb hs
      rw [hthr] at hb
      have hgt : T * (1 + 1 / 2 ^ 19) < SF := by
        have : T * (1 + 1 / 2 ^ 19) ≤ (1 + 1 / 2 ^ 18) * T - T / 2 ^ 21 := by nlinarith
        linarith
      have hsq : T * T * (1 + 1 / 2 ^ 19) ^ 2 < SF * SF := by
        have := mul_self_lt_mul_self (by positivity) hgt
        calc T * T * (1 + 1 / 2 ^ 19) ^ 2 = T * (1 + 1 / 2 ^ 19) * (T * (1 + 1 / 2 ^ 19)) := by ring
          _ < _ := this
      calc M ≤ T * T * (1 + dR) ^ 11 := b3.2
        _ ≤ T * T * ((1 + 1 / 2 ^ 19) ^ 2 * (1 - dR) ^ 4) := mul_le_mul_of_nonneg_left clear_high (mul_self_nonneg T)
        _ = T * T * (1 + 1 / 2 ^ 19) ^ 2 * (1 - dR) ^ 4 := by ring
        _ < SF * SF * (1 - dR) ^ 4 := mul_lt_mul_of_pos_right hsq (low_pos 4)
        _ ≤ c := b2.1
    · intro hb
      rw [Bool.eq_false_iff, Ne, h1, not_lt]
      have hb : |(x : ℝ) - m| ≤ (1 - 1 / 2 ^ 18) * (nsigma / s + A * |(m : ℝ)|) := by
        by_contra h
        exact hb ⟨hw', not_le.mp h⟩
      have hb := mul_le_mul_of_nonneg_right hb hs.le
      rw [hthr] at hb
      have hle : SF ≤ T * (1 - 1 / 2 ^ 19) := by
        have : (1 - 1 / 2 ^ 18) * T + T / 2 ^ 21 ≤ T * (1 - 1 / 2 ^ 19) := by nlinarith
        linarith
      have hsq : SF * SF ≤ T * T * (1 - 1 / 2 ^ 19) ^ 2 := by
        have := mul_self_le_mul_self hSF0 hle
        calc SF * SF ≤ _ := this
          _ = _ := by ring
      calc c ≤ SF * SF * (1 + dR) ^ 4 := b2.2
        _ ≤ T * T * (1 - 1 / 2 ^ 19) ^ 2 * (1 + dR) ^ 4 := mul_le_mul_of_nonneg_right hsq (high_nonneg 4)
        _ = T * T * ((1 - 1 / 2 ^ 19) ^ 2 * (1 + dR) ^ 4) := by ring
        _ ≤ T * T * (1 - dR) ^ 11 := mul_le_mul_of_nonneg_left clear_low (mul_self_nonneg T)
        _ ≤ M := b3.1
  · have hw' : ¬ (0 : ℝ) < w := by exact_mod_cast hw
    refine ⟨fun h => absurd h.1 hw', fun _ => ?_⟩
    rw [Bool.eq_false_iff, Ne, h1, not_lt]
    rw [max_eq_right (not_lt.mp hw)] at h2 h3
    have b2 := h2.bounds (by simp)
    have b3 := h3.bounds (mul_self_nonneg _)
    have : c ≤ 0 := by simpa using b2.2
    exact this.trans (le_trans (mul_nonneg (mul_self_nonneg _) (low_nonneg 11)) b3.1)

end Reject
end Meds
