import Verif.Model.Tangent
import Mathlib.Tactic.LinearCombination

/-!
# The tangent-plane projection (C38)
-/

namespace Meds.Tangent

/-- The direction of a sky position, written out: its third coordinate is the sine of the declination, and right ascension is minus the azimuth. -/
noncomputable def direction (ra dec : ℝ) : Vec :=
  ⟨Real.cos (dec * (Real.pi / 180)) * Real.cos (ra * (Real.pi / 180)), -(Real.cos (dec * (Real.pi / 180)) * Real.sin (ra * (Real.pi / 180))), Real.sin (dec * (Real.pi / 180))⟩

/-- Arc seconds per radian. -/
noncomputable def arcsec : ℝ := 180 / Real.pi * 3600

theorem rhat_eq (ra dec : ℝ) : (radecToUnitvecs ra dec).1 = direction ra dec := by
  have h1 : (90 - dec) / 180 * Real.pi = Real.pi / 2 - dec * (Real.pi / 180) := by ring
  have h2 : -1 * ra / 180 * Real.pi = -(ra * (Real.pi / 180)) := by ring
  simp only [radecToUnitvecs, radecToThetaphi, thetaphiToUnitvecs, direction, h1, h2, Real.sin_pi_div_two_sub, Real.cos_pi_div_two_sub, Real.cos_neg, Real.sin_neg]
  ext <;> ring

theorem uhat_eq (ra dec : ℝ) : (radecToUnitvecs ra dec).2.1 = ⟨Real.sin (ra * (Real.pi / 180)), Real.cos (ra * (Real.pi / 180)), 0⟩ := by
  have h2 : -1 * ra / 180 * Real.pi = -(ra * (Real.pi / 180)) := by ring
  simp only [radecToUnitvecs, radecToThetaphi, thetaphiToUnitvecs, h2, Real.cos_neg, Real.sin_neg]
  ext <;> ring

theorem vhat_eq (ra dec : ℝ) : (radecToUnitvecs ra dec).2.2 =
    ⟨-(Real.sin (dec * (Real.pi / 180)) * Real.cos (ra * (Real.pi / 180))), Real.sin (dec * (Real.pi / 180)) * Real.sin (ra * (Real.pi / 180)), Real.cos (dec * (Real.pi / 180))⟩ := by
  have h1 : (90 - dec) / 180 * Real.pi = Real.pi / 2 - dec * (Real.pi / 180) := by ring
  have h2 : -1 * ra / 180 * Real.pi = -(ra * (Real.pi / 180)) := by ring
  simp only [radecToUnitvecs, radecToThetaphi, thetaphiToUnitvecs, Vec.neg, h1, h2, Real.sin_pi_div_two_sub, Real.cos_pi_div_two_sub, Real.cos_neg, Real.sin_neg]
  ext <;> ring

/-- **C38** The frame at every position is orthonormal. -/
theorem C38_frame_orthonormal (ra dec : ℝ) :
    let f := radecToUnitvecs ra dec
    f.1.dot f.1 = 1 ∧ f.2.1.dot f.2.1 = 1 ∧ f.2.2.dot f.2.2 = 1 ∧ f.1.dot f.2.1 = 0 ∧ f.1.dot f.2.2 = 0 ∧ f.2.1.dot f.2.2 = 0 := by
  intro f
  have s1 := Real.sin_sq_add_cos_sq (dec * (Real.pi / 180))
  have s2 := Real.sin_sq_add_cos_sq (ra * (Real.pi / 180))
  simp only [f, rhat_eq, uhat_eq, vhat_eq, direction, Vec.dot]
  generalize Real.sin (dec * (Real.pi / 180)) = a at *
  generalize Real.cos (dec * (Real.pi / 180)) = b at *
  generalize Real.sin (ra * (Real.pi / 180)) = c at *
  generalize Real.cos (ra * (Real.pi / 180)) = d at *
  refine ⟨?_, ?_, ?_, ?_, ?_, ?_⟩
  · linear_combination b ^ 2 * s2 + s1
  · linear_combination s2
  · linear_combination a ^ 2 * s2 + s1
  · ring
  · linear_combination -a * b * s2
  · ring

/-- **C38** The centre is sent to the origin. -/
theorem C38_centre (ra dec : ℝ) : radecToUv ra dec ra dec = .ok (0, 0) := by
  obtain ⟨h1, _, _, h4, h5, _⟩ := C38_frame_orthonormal ra dec
  unfold radecToUv
  simp only at h1 h4 h5 ⊢
  rw [if_neg (by rw [h1]; norm_num), h4, h5]
  simp

theorem frame_periodic (ra dec : ℝ) (n : ℤ) : radecToUnitvecs (ra + 360 * n) dec = radecToUnitvecs ra dec := by
  have e : (ra + 360 * n) * (Real.pi / 180) = ra * (Real.pi / 180) + n * (2 * Real.pi) := by ring
  refine Prod.ext ?_ (Prod.ext ?_ ?_)
  · rw [rhat_eq, rhat_eq]; simp only [direction, e, Real.cos_add_int_mul_two_pi, Real.sin_add_int_mul_two_pi]
  · rw [uhat_eq, uhat_eq]; simp only [e, Real.cos_add_int_mul_two_pi, Real.sin_add_int_mul_two_pi]
  · rw [vhat_eq, vhat_eq]; simp only [e, Real.cos_add_int_mul_two_pi, Real.sin_add_int_mul_two_pi]

/-- **C38** Whole turns of either right ascension change nothing. -/
theorem C38_whole_turns (ra dec raCen decCen : ℝ) (n k : ℤ) :
    radecToUv (ra + 360 * n) dec (raCen + 360 * k) decCen = radecToUv ra dec raCen decCen := by
  unfold radecToUv
  simp only [frame_periodic]

/-- Any vector is the sum of its components along the frame. -/
theorem expand (ra dec : ℝ) (v : Vec) :
    let f := radecToUnitvecs ra dec
    v = ⟨v.dot f.1 * f.1.x + v.dot f.2.1 * f.2.1.x + v.dot f.2.2 * f.2.2.x,
         v.dot f.1 * f.1.y + v.dot f.2.1 * f.2.1.y + v.dot f.2.2 * f.2.2.y,
         v.dot f.1 * f.1.z + v.dot f.2.1 * f.2.1.z + v.dot f.2.2 * f.2.2.z⟩ := by
  intro f
  have s1 := Real.sin_sq_add_cos_sq (dec * (Real.pi / 180))
  have s2 := Real.sin_sq_add_cos_sq (ra * (Real.pi / 180))
  simp only [f, rhat_eq, uhat_eq, vhat_eq, direction, Vec.dot]
  generalize Real.sin (dec * (Real.pi / 180)) = a at *
  generalize Real.cos (dec * (Real.pi / 180)) = b at *
  generalize Real.sin (ra * (Real.pi / 180)) = c at *
  generalize Real.cos (ra * (Real.pi / 180)) = d at *
  ext
  · show v.x = _
    linear_combination (-v.x * d ^ 2 + v.y * c * d) * s1 - v.x * s2
  · show v.y = _
    linear_combination (v.x * c * d - v.y * c ^ 2) * s1 - v.y * s2
  · show v.z = _
    linear_combination -v.z * s1

theorem arcsec_ne : (1 / Real.pi * 180 * 60 * 60 : ℝ) ≠ 0 := by
  have := Real.pi_pos
  positivity

theorem uv_ok {ra dec rc dc u v : ℝ} (h : radecToUv ra dec rc dc = .ok (u, v)) :
    (direction ra dec).dot (direction rc dc) ≠ 0 ∧
    u = (direction ra dec).dot (radecToUnitvecs rc dc).2.1 / (direction ra dec).dot (direction rc dc) * (1 / Real.pi * 180 * 60 * 60) ∧
    v = (direction ra dec).dot (radecToUnitvecs rc dc).2.2 / (direction ra dec).dot (direction rc dc) * (1 / Real.pi * 180 * 60 * 60) := by
  unfold radecToUv at h
  simp only [rhat_eq] at h
  split at h
  · cases h
  · rename_i h0
    injection h with h
    injection h with h1 h2
    exact ⟨h0, h1.symm, h2.symm⟩

theorem dot_self (ra dec : ℝ) : (direction ra dec).dot (direction ra dec) = 1 := by
  have := (C38_frame_orthonormal ra dec).1
  rwa [rhat_eq] at this

/-- Two positions with the same `(u, v)`: their directions, divided by the cosine of the angle from the centre, agree. -/
theorem same_uv {ra dec ra' dec' rc dc : ℝ} {uv : ℝ × ℝ} (h : radecToUv ra dec rc dc = .ok uv) (h' : radecToUv ra' dec' rc dc = .ok uv) :
    let p := (direction ra dec).dot (direction rc dc)
    let p' := (direction ra' dec').dot (direction rc dc)
    p ≠ 0 ∧ p' ≠ 0 ∧ p' * (direction ra dec).x = p * (direction ra' dec').x ∧ p' * (direction ra dec).y = p * (direction ra' dec').y ∧
      p' * (direction ra dec).z = p * (direction ra' dec').z := by
  obtain ⟨u, v⟩ := uv
  intro p p'
  obtain ⟨hp, hu, hv⟩ := uv_ok h
  obtain ⟨hp', hu', hv'⟩ := uv_ok h'
  have k1 := mul_right_cancel₀ arcsec_ne (hu.symm.trans hu')
  have k2 := mul_right_cancel₀ arcsec_ne (hv.symm.trans hv')
  have e := expand rc dc (direction ra dec)
  have e' := expand rc dc (direction ra' dec')
  simp only [rhat_eq] at e e'
  change p ≠ 0 at hp
  change p' ≠ 0 at hp'
  change _ / p = _ / p' at k1
  change _ / p = _ / p' at k2
  rw [div_eq_div_iff hp hp'] at k1 k2
  have ex := congrArg Vec.x e
  have ey := congrArg Vec.y e
  have ez := congrArg Vec.z e
  have ex' := congrArg Vec.x e'
  have ey' := congrArg Vec.y e'
  have ez' := congrArg Vec.z e'
  simp only at ex ey ez ex' ey' ez'
  change _ = p * _ + _ + _ at ex
  change _ = p * _ + _ + _ at ey
  change _ = p * _ + _ + _ at ez
  change _ = p' * _ + _ + _ at ex'
  change _ = p' * _ + _ + _ at ey'
  change _ = p' * _ + _ + _ at ez'
  refine ⟨hp, hp', ?_, ?_, ?_⟩
  · linear_combination p' * ex - p * ex' + (radecToUnitvecs rc dc).2.1.x * k1 + (radecToUnitvecs rc dc).2.2.x * k2
  · linear_combination p' * ey - p * ey' + (radecToUnitvecs rc dc).2.1.y * k1 + (radecToUnitvecs rc dc).2.2.y * k2
  · linear_combination p' * ez - p * ez' + (radecToUnitvecs rc dc).2.1.z * k1 + (radecToUnitvecs rc dc).2.2.z * k2

/-- **C38** Directions with the same `(u, v)` are the same or opposite; in the hemisphere around the centre they are the same. -/
theorem C38_same_uv {ra dec ra' dec' rc dc : ℝ} {uv : ℝ × ℝ} (h : radecToUv ra dec rc dc = .ok uv) (h' : radecToUv ra' dec' rc dc = .ok uv) :
    direction ra dec = direction ra' dec' ∨ direction ra dec = (direction ra' dec').neg := by
  obtain ⟨hp, hp', hx, hy, hz⟩ := same_uv h h'
  have d1 := dot_self ra dec
  have d2 := dot_self ra' dec'
  generalize (direction ra dec).dot (direction rc dc) = p at *
  generalize (direction ra' dec').dot (direction rc dc) = p' at *
  simp only [Vec.dot] at d1 d2
  have hsq : p' * p' = p * p := by
    linear_combination (-p' * p') * d1 + p * p * d2 + (p' * (direction ra dec).x + p * (direction ra' dec').x) * hx +
      (p' * (direction ra dec).y + p * (direction ra' dec').y) * hy + (p' * (direction ra dec).z + p * (direction ra' dec').z) * hz
  rcases mul_self_eq_mul_self_iff.mp hsq with e | e
  · left
    subst e
    exact Vec.ext (mul_left_cancel₀ hp hx) (mul_left_cancel₀ hp hy) (mul_left_cancel₀ hp hz)
  · right
    subst e
    exact Vec.ext (mul_left_cancel₀ hp (by show p * _ = p * (-1 * _); linarith)) (mul_left_cancel₀ hp (by show p * _ = p * (-1 * _); linarith))
      (mul_left_cancel₀ hp (by show p * _ = p * (-1 * _); linarith))

/-- **C38** Two positions in the hemisphere around the centre with the same `(u, v)` are the same direction. -/
theorem C38_injective {ra dec ra' dec' rc dc : ℝ} {uv : ℝ × ℝ} (h : radecToUv ra dec rc dc = .ok uv) (h' : radecToUv ra' dec' rc dc = .ok uv)
    (hh : 0 < (direction ra dec).dot (direction rc dc)) (hh' : 0 < (direction ra' dec').dot (direction rc dc)) :
    direction ra dec = direction ra' dec' := by
  rcases C38_same_uv h h' with e | e
  · exact e
  · rw [e] at hh
    simp only [Vec.dot, Vec.neg] at hh hh'
    linarith

/-- **C38** A direction determines the declination and, off the poles, the right ascension up to whole turns. -/
theorem C38_direction_position {ra dec ra' dec' : ℝ} (hd : |dec| < 90) (hd' : |dec'| ≤ 90) (h : direction ra dec = direction ra' dec') :
    dec = dec' ∧ ∃ n : ℤ, ra' = ra + 360 * n := by
  have hpi := Real.pi_pos
  rw [abs_lt] at hd
  rw [abs_le] at hd'
  have hx := congrArg Vec.x h
  have hy := congrArg Vec.y h
  have hz := congrArg Vec.z h
  simp only [direction] at hx hy hz
  have e : dec * (Real.pi / 180) = dec' * (Real.pi / 180) := by
    apply Real.injOn_sin
    · constructor <;> nlinarith
    · constructor <;> nlinarith
    · exact hz
  have e' : dec = dec' := mul_right_cancel₀ (by positivity) e
  subst e'
  refine ⟨rfl, ?_⟩
  have hc : 0 < Real.cos (dec * (Real.pi / 180)) := by
    apply Real.cos_pos_of_mem_Ioo
    constructor <;> nlinarith
  have c1 := mul_left_cancel₀ hc.ne' hx
  have c2 := mul_left_cancel₀ hc.ne' (neg_injective hy)
  have c3 : Real.cos (ra' * (Real.pi / 180) - ra * (Real.pi / 180)) = 1 := by
    rw [Real.cos_sub, ← c1, ← c2]
    linear_combination Real.sin_sq_add_cos_sq (ra * (Real.pi / 180))
  obtain ⟨n, hn⟩ := (Real.cos_eq_one_iff _).mp c3
  refine ⟨n, ?_⟩
  have : (ra' - ra - 360 * n) * Real.pi = 0 := by linear_combination -180 * hn
  rcases mul_eq_zero.mp this with h | h
  · linarith
  · exact absurd h hpi.ne'

/-- **C38** Orientation and scale: along the meridian of the centre `v` is the tangent of the difference in declination, in arc seconds, and `u` is zero. -/
theorem C38_meridian {ra dec decCen : ℝ} (h : Real.cos ((dec - decCen) * (Real.pi / 180)) ≠ 0) :
    radecToUv ra dec ra decCen = .ok (0, Real.tan ((dec - decCen) * (Real.pi / 180)) * arcsec) := by
  have s2 := Real.sin_sq_add_cos_sq (ra * (Real.pi / 180))
  have e0 : (dec - decCen) * (Real.pi / 180) = dec * (Real.pi / 180) - decCen * (Real.pi / 180) := by ring
  have k1 : (direction ra dec).dot (direction ra decCen) = Real.cos ((dec - decCen) * (Real.pi / 180)) := by
    rw [e0, Real.cos_sub]
    simp only [direction, Vec.dot]
    linear_combination Real.cos (dec * (Real.pi / 180)) * Real.cos (decCen * (Real.pi / 180)) * s2
  have k2 : (direction ra dec).dot (radecToUnitvecs ra decCen).2.1 = 0 := by
    rw [uhat_eq]
    simp only [direction, Vec.dot]
    ring
  have k3 : (direction ra dec).dot (radecToUnitvecs ra decCen).2.2 = Real.sin ((dec - decCen) * (Real.pi / 180)) := by
    rw [vhat_eq, e0, Real.sin_sub]
    simp only [direction, Vec.dot]
    linear_combination -Real.cos (dec * (Real.pi / 180)) * Real.sin (decCen * (Real.pi / 180)) * s2
  unfold radecToUv
  simp only [rhat_eq]
  rw [if_neg (by rw [k1]; exact h), k1, k2, k3, Real.tan_eq_sin_div_cos]
  unfold arcsec
  congr 2
  · ring
  · ring

/-- **C38** Along the equator `u` is minus the tangent of the difference in right ascension. -/
theorem C38_equator {ra raCen : ℝ} (h : Real.cos ((ra - raCen) * (Real.pi / 180)) ≠ 0) :
    radecToUv ra 0 raCen 0 = .ok (-Real.tan ((ra - raCen) * (Real.pi / 180)) * arcsec, 0) := by
  have e0 : (ra - raCen) * (Real.pi / 180) = ra * (Real.pi / 180) - raCen * (Real.pi / 180) := by ring
  have k1 : (direction ra 0).dot (direction raCen 0) = Real.cos ((ra - raCen) * (Real.pi / 180)) := by
    rw [e0, Real.cos_sub]
    simp only [direction, Vec.dot, zero_mul, Real.cos_zero, Real.sin_zero]
    ring
  have k2 : (direction ra 0).dot (radecToUnitvecs raCen 0).2.1 = -Real.sin ((ra - raCen) * (Real.pi / 180)) := by
    rw [uhat_eq, e0, Real.sin_sub]
    simp only [direction, Vec.dot, zero_mul, Real.cos_zero, Real.sin_zero]
    ring
  have k3 : (direction ra 0).dot (radecToUnitvecs raCen 0).2.2 = 0 := by
    rw [vhat_eq]
    simp only [direction, Vec.dot, zero_mul, Real.cos_zero, Real.sin_zero]
    ring
  unfold radecToUv
  simp only [rhat_eq]
  rw [if_neg (by rw [k1]; exact h), k1, k2, k3, Real.tan_eq_sin_div_cos]
  unfold arcsec
  congr 2
  · ring
  · ring

/-! ### Concrete cases -/

-- 45 degrees north of the centre
example : radecToUv 10 45 10 0 = .ok (0, arcsec) := by
  have e : (45 - 0 : ℝ) * (Real.pi / 180) = Real.pi / 4 := by ring
  rw [C38_meridian (by rw [e, Real.cos_pi_div_four]; positivity), e, Real.tan_pi_div_four, one_mul]

-- two notations for one position
example : radecToUv 370 45 (-350) 0 = .ok (0, arcsec) := by
  have e : (45 - 0 : ℝ) * (Real.pi / 180) = Real.pi / 4 := by ring
  have h := C38_whole_turns 10 45 10 0 1 (-1)
  norm_num at h
  rw [h, C38_meridian (by rw [e, Real.cos_pi_div_four]; positivity), e, Real.tan_pi_div_four, one_mul]

-- without the hemisphere condition the claim fails: opposite points have the same (u, v)
theorem C38_antipodes : radecToUv 180 0 0 0 = radecToUv 0 0 0 0 ∧ direction 180 0 ≠ direction 0 0 := by
  have e : (180 - 0 : ℝ) * (Real.pi / 180) = Real.pi := by ring
  have e' : (0 - 0 : ℝ) * (Real.pi / 180) = 0 := by ring
  constructor
  · rw [C38_equator (by rw [e, Real.cos_pi]; norm_num), C38_equator (by rw [e', Real.cos_zero]; norm_num), e, e', Real.tan_pi, Real.tan_zero]
  · intro h
    have := congrArg Vec.x h
    have e2 : (180 : ℝ) * (Real.pi / 180) = Real.pi := by ring
    simp only [direction, zero_mul, Real.cos_zero, e2, Real.cos_pi] at this
    norm_num at this

end Meds.Tangent
