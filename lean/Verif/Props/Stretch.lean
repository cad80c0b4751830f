import Verif.Model.Stretch
import Verif.Props.Viewer

/-!
# The picture of a cutout (C89)
-/

namespace Meds.Spec

/-- Picture `out` of the pixels `im`: each grey value is `g` of its pixel. -/
def DrawnBy (g : ℝ → ℝ) (im : List ℝ) (out : List (Option ℝ)) : Prop := out = im.map (fun x => some (g x))

/-- A brighter pixel is never shown darker, and grey values lie between 0 and 1. -/
def OrderKept (g : ℝ → ℝ) (im : List ℝ) : Prop := ∀ x ∈ im, 0 ≤ g x ∧ g x ≤ 1 ∧ ∀ y ∈ im, x ≤ y → g x ≤ g y

end Meds.Spec

namespace Meds.View

open Meds.Spec

theorem maxOf_map {f : ℝ → ℝ} {im : List ℝ} {m : ℝ} (h : IsMax im m) (hf : ∀ x ∈ im, f x ≤ f m) : maxOf (im.map f) = some (f m) := by
  apply maxOf_eq
  refine ⟨List.mem_map.mpr ⟨m, h.1, rfl⟩, ?_⟩
  intro y hy
  obtain ⟨x, hx, rfl⟩ := List.mem_map.mp hy
  exact hf x hx

theorem foldl_min (xs : List ℝ) (x : ℝ) : (xs.foldl min x ∈ x :: xs) ∧ ∀ y ∈ x :: xs, xs.foldl min x ≤ y := by
  induction xs generalizing x with
  | nil => simp
  | cons z zs ih =>
    obtain ⟨h1, h2⟩ := ih (min x z)
    rw [List.foldl_cons]
    constructor
    · rcases List.mem_cons.mp h1 with h | h
      · rw [h]
        rcases min_choice x z with h | h <;> rw [h] <;> simp
      · simp [h]
    · intro y hy
      have h3 := h2 (min x z) (by simp)
      rcases List.mem_cons.mp hy with rfl | hy
      · exact le_trans h3 (min_le_left _ _)
      · rcases List.mem_cons.mp hy with rfl | hy
        · exact le_trans h3 (min_le_right _ _)
        · exact h2 y (by simp [hy])

theorem minOf_eq {im : List ℝ} {m : ℝ} (h1 : m ∈ im) (h2 : ∀ x ∈ im, m ≤ x) : minOf im = some m := by
  cases im with
  | nil => exact absurd h1 (by simp)
  | cons x xs =>
    obtain ⟨a1, a2⟩ := foldl_min xs x
    show some (xs.foldl min x) = some m
    rw [le_antisymm (a2 _ h1) (h2 _ a1)]

/-- `linear_scale` of pixels with a positive maximum. -/
theorem linearScale_pos {im : List ℝ} {m : ℝ} (hm : IsMax im m) (hpos : 0 < m) : linearScale im = .ok (im.map (fun x => some (max (x / m) 0))) := by
  unfold linearScale
  rw [maxOf_eq hm]
  dsimp only
  rw [if_neg (ne_of_gt hpos)]
  congr 1
  apply List.map_congr_left
  intro x hx
  rw [mul_one_div, min_eq_left]
  exact max_le ((div_le_one hpos).mpr (hm.2 x hx)) zero_le_one

/-- Dividing by the maximum before does not matter when it is positive. -/
theorem byMax_pos {im : List ℝ} {m : ℝ} (hm : IsMax im m) (hpos : 0 < m) :
    ∃ l, byMax im = .ok (some l) ∧ linearScale l = .ok (im.map (fun x => some (max (x / m) 0))) := by
  refine ⟨im.map (fun x => x * (1 / m)), ?_, ?_⟩
  · unfold byMax
    rw [maxOf_eq hm]
    dsimp only
    rw [if_neg (ne_of_gt hpos)]
  · have h1 : IsMax (im.map (fun x => x * (1 / m))) 1 := by
      constructor
      · exact List.mem_map.mpr ⟨m, hm.1, by field_simp⟩
      · intro y hy
        obtain ⟨x, hx, rfl⟩ := List.mem_map.mp hy
        rw [mul_one_div]
        exact (div_le_one hpos).mpr (hm.2 x hx)
    rw [linearScale_pos h1 one_pos, List.map_map]
    congr 1
    apply List.map_congr_left
    intro x _
    simp [Function.comp, div_eq_mul_inv]

/-- **C89** (part: the brightest pixel lies above minus one standard deviation) The picture of an image: NaN counts as zero; the grey value of a pixel is
`(x + σ) / (max + σ)`, or black where that is negative, with `σ² = 1 / max weight`. -/
theorem C89_image_partial {im : List (Option ℝ)} {wt : List ℝ} {w σ m : ℝ} (hw : IsMax wt w) (hpos : 0 < w) (hσ : 0 ≤ σ) (hσ2 : σ ^ 2 = 1 / w)
    (hm : IsMax (im.map (fun x => x.getD 0)) m) (hms : 0 < m + σ) :
    ∃ out, greys (.image im wt) im.length = .ok out ∧ DrawnBy (fun x => max ((x + σ) / (m + σ)) 0) (im.map (fun x => x.getD 0)) out ∧
      OrderKept (fun x => max ((x + σ) / (m + σ)) 0) (im.map (fun x => x.getD 0)) := by
  have hs : Real.sqrt (1 / w) = σ := by rw [← hσ2, Real.sqrt_sq hσ]
  have hm' : IsMax ((im.map (fun x => x.getD 0)).map (fun x => x + σ)) (m + σ) := by
    refine ⟨List.mem_map.mpr ⟨m, hm.1, rfl⟩, ?_⟩
    intro y hy
    obtain ⟨x, hx, rfl⟩ := List.mem_map.mp hy
    have := hm.2 x hx
    linarith
  obtain ⟨l, h1, h2⟩ := byMax_pos hm' hms
  refine ⟨_, ?_, rfl, ?_⟩
  · unfold greys stretch stretchImage
    dsimp only
    rw [maxOf_eq hw]
    dsimp only
    rw [if_pos hpos, hs, h1]
    simp only [Res.ok_bind]
    rw [h2, List.map_map]
    rfl
  · intro x hx
    refine ⟨le_max_right _ _, max_le ((div_le_one hms).mpr (by have := hm.2 x hx; linarith)) zero_le_one, ?_⟩
    intro y _ hxy
    exact max_le_max_right _ (div_le_div_of_nonneg_right (by linarith) hms.le)

/-- **C89 (limits)** When all pixels lie below minus one standard deviation, the picture is a negative: a brighter pixel is never shown brighter, and the
faintest one is white. -/
theorem C89_image_reversed {im : List (Option ℝ)} {wt : List ℝ} {w σ m : ℝ} (hw : IsMax wt w) (hpos : 0 < w) (hσ : 0 ≤ σ) (hσ2 : σ ^ 2 = 1 / w)
    (hm : IsMax (im.map (fun x => x.getD 0)) m) (hms : m + σ < 0) :
    ∃ (out : List (Option ℝ)) (g : ℝ → ℝ), greys (.image im wt) im.length = .ok out ∧ DrawnBy g (im.map (fun x => x.getD 0)) out ∧
      (∀ x ∈ im.map (fun x => x.getD 0), ∀ y ∈ im.map (fun x => x.getD 0), x < y → g y < g x) ∧
      ∃ x ∈ im.map (fun x => x.getD 0), (∀ y ∈ im.map (fun x => x.getD 0), x ≤ y) ∧ g x = 1 := by
  have hs : Real.sqrt (1 / w) = σ := by rw [← hσ2, Real.sqrt_sq hσ]
  generalize ha : im.map (fun x => x.getD 0) = a at *
  obtain ⟨lo, hlo1, hlo2⟩ : ∃ lo ∈ a, ∀ y ∈ a, lo ≤ y := by
    cases a with
    | nil => exact absurd hm.1 (by simp)
    | cons x xs => exact ⟨_, (foldl_min xs x).1, (foldl_min xs x).2⟩
  have hneg : ∀ y ∈ a, y + σ < 0 := fun y hy => by have := hm.2 y hy; linarith
  have hm' : IsMax (a.map (fun x => x + σ)) (m + σ) := by
    refine ⟨List.mem_map.mpr ⟨m, hm.1, rfl⟩, ?_⟩
    intro y hy
    obtain ⟨x, hx, rfl⟩ := List.mem_map.mp hy
    have := hm.2 x hx
    linarith
  have hmx : IsMax (a.map (fun x => (x + σ) * (1 / (m + σ)))) ((lo + σ) * (1 / (m + σ))) := by
    refine ⟨List.mem_map.mpr ⟨lo, hlo1, rfl⟩, ?_⟩
    intro y hy
    obtain ⟨x, hx, rfl⟩ := List.mem_map.mp hy
    have h1 := hlo2 x hx
    rw [mul_one_div, mul_one_div]
    exact div_le_div_of_nonpos_of_le hms.le (by linarith)
  have hmpos : 0 < (lo + σ) * (1 / (m + σ)) := by
    rw [mul_one_div]; exact div_pos_of_neg_of_neg (hneg lo hlo1) hms
  have hl := hneg lo hlo1
  refine ⟨a.map (fun x => some ((x + σ) / (lo + σ))), fun x => (x + σ) / (lo + σ), ?_, rfl, ?_, lo, hlo1, hlo2, div_self (ne_of_lt hl)⟩
  · unfold greys stretch stretchImage
    dsimp only
    rw [ha, maxOf_eq hw]
    dsimp only
    rw [if_pos hpos, hs]
    unfold byMax
    rw [maxOf_eq hm']
    dsimp only
    rw [if_neg (ne_of_lt hms)]
    simp only [Res.ok_bind]
    rw [List.map_map]
    have := linearScale_pos hmx hmpos
    simp only [Function.comp_def]
    rw [this, List.map_map]
    congr 1
    apply List.map_congr_left
    intro x hx
    have h1 := hneg x hx
    have e : (x + σ) * (1 / (m + σ)) / ((lo + σ) * (1 / (m + σ))) = (x + σ) / (lo + σ) :=
      mul_div_mul_right _ _ (one_div_ne_zero (ne_of_lt hms))
    simp only [Function.comp_apply]
    rw [e, max_eq_left (div_nonneg_of_nonpos h1.le hl.le)]
  · intro x hx y hy hxy
    exact div_lt_div_of_neg_of_lt hl (by linarith)

/-- **C89 (limits)** When the brightest pixel lies at minus one standard deviation, nothing can be drawn: all grey values are NaN. -/
theorem C89_image_nan {im : List (Option ℝ)} {wt : List ℝ} {w σ m : ℝ} (hw : IsMax wt w) (hpos : 0 < w) (hσ : 0 ≤ σ) (hσ2 : σ ^ 2 = 1 / w)
    (hm : IsMax (im.map (fun x => x.getD 0)) m) (hms : m + σ = 0) : greys (.image im wt) im.length = .ok (im.map (fun _ => none)) := by
  have hs : Real.sqrt (1 / w) = σ := by rw [← hσ2, Real.sqrt_sq hσ]
  have hm' : IsMax ((im.map (fun x => x.getD 0)).map (fun x => x + σ)) (m + σ) := by
    refine ⟨List.mem_map.mpr ⟨m, hm.1, rfl⟩, ?_⟩
    intro y hy
    obtain ⟨x, hx, rfl⟩ := List.mem_map.mp hy
    have := hm.2 x hx
    linarith
  unfold greys stretch stretchImage
  dsimp only
  rw [maxOf_eq hw]
  dsimp only
  rw [if_pos hpos, hs]
  unfold byMax
  rw [maxOf_eq hm']
  dsimp only
  rw [if_pos hms]
  simp

/-- **C89** Seg maps and bit masks: the grey value of a pixel is `log (x + 1) / log (max + 1)`; two pixels are equally bright only if they have the same value, so
different objects have different greys. -/
theorem C89_seg_partial {im : List ℝ} {m : ℝ} (h0 : ∀ x ∈ im, 0 ≤ x) (hm : IsMax im m) (hpos : 0 < m) :
    ∃ out, greys (.segOrBmask im) im.length = .ok out ∧ DrawnBy (fun x => Real.log (x + 1) / Real.log (m + 1)) im out ∧
      OrderKept (fun x => Real.log (x + 1) / Real.log (m + 1)) im ∧
      ∀ x ∈ im, ∀ y ∈ im, x < y → Real.log (x + 1) / Real.log (m + 1) < Real.log (y + 1) / Real.log (m + 1) := by
  have hlm : 0 < Real.log (m + 1) := Real.log_pos (by linarith)
  have h10 : 0 < Real.log 10 := Real.log_pos (by norm_num)
  have hall : im.all (fun x => decide (-1 < x)) = true := by
    rw [List.all_eq_true]
    intro x hx
    have := h0 x hx
    simp only [decide_eq_true_eq]
    linarith
  have hmx : IsMax (im.map (fun x => Real.logb 10 (x + 1))) (Real.logb 10 (m + 1)) := by
    refine ⟨List.mem_map.mpr ⟨m, hm.1, rfl⟩, ?_⟩
    intro y hy
    obtain ⟨x, hx, rfl⟩ := List.mem_map.mp hy
    have h1 := h0 x hx
    have h2 := hm.2 x hx
    exact Real.logb_le_logb_of_le (by norm_num) (by linarith) (by linarith)
  have hstrict : ∀ x ∈ im, ∀ y ∈ im, x < y → Real.log (x + 1) / Real.log (m + 1) < Real.log (y + 1) / Real.log (m + 1) := by
    intro x hx y _ hxy
    have h1 := h0 x hx
    exact div_lt_div_of_pos_right (Real.log_lt_log (by linarith) (by linarith)) hlm
  refine ⟨_, ?_, rfl, ?_, hstrict⟩
  · unfold greys stretch stretchSeg
    dsimp only
    rw [if_pos hall]
    simp only [Res.ok_bind]
    rw [linearScale_pos hmx (Real.logb_pos (by norm_num) (by linarith)), List.map_map]
    congr 1
    apply List.map_congr_left
    intro x hx
    have h1 := h0 x hx
    have e : Real.logb 10 (x + 1) / Real.logb 10 (m + 1) = Real.log (x + 1) / Real.log (m + 1) := by
      unfold Real.logb; field_simp
    simp only [Function.comp_apply]
    rw [e, max_eq_left (div_nonneg (Real.log_nonneg (by linarith)) hlm.le)]
  · intro x hx
    have h1 := h0 x hx
    have h2 := hm.2 x hx
    refine ⟨div_nonneg (Real.log_nonneg (by linarith)) hlm.le, (div_le_one hlm).mpr (Real.log_le_log (by linarith) (by linarith)), ?_⟩
    intro y hy hxy
    exact div_le_div_of_nonneg_right (Real.log_le_log (by linarith) (by linarith)) hlm.le

/-- **C89** PSF images: from black at the faintest to white at the brightest pixel, in the order of the pixels, pixels below a millionth being equal. -/
theorem C89_psf_partial {im : List ℝ} {m lo : ℝ} (hm : IsMax im m) (hlo : lo ∈ im) (hlo2 : ∀ x ∈ im, lo ≤ x) (h1 : lo < m) (h2 : 1 / 1000000 < m) :
    ∃ (out : List (Option ℝ)) (g : ℝ → ℝ), greys (.psf im) im.length = .ok out ∧ DrawnBy g im out ∧ OrderKept g im ∧ g lo = 0 ∧ g m = 1 ∧
      ∀ x ∈ im, ∀ y ∈ im, 1 / 1000000 ≤ x → x < y → g x < g y := by
  let L : ℝ → ℝ := fun x => Real.logb 10 (max x (1 / 1000000))
  have hp : ∀ x : ℝ, 0 < max x (1 / 1000000) := fun x => lt_of_lt_of_le (by norm_num) (le_max_right _ _)
  have hL : ∀ x y, x ≤ y → L x ≤ L y := fun x y h => Real.logb_le_logb_of_le (by norm_num) (hp x) (max_le_max_right _ h)
  have hLs : ∀ x y, 1 / 1000000 ≤ x → x < y → L x < L y := fun x y h h' => by
    refine Real.logb_lt_logb (by norm_num) (hp x) ?_
    rw [max_eq_left h, max_eq_left (by linarith)]
    exact h'
  have hlm : L lo < L m := by
    refine Real.logb_lt_logb (by norm_num) (hp lo) ?_
    rw [max_eq_left h2.le]
    exact max_lt h1 h2
  have hmin : minOf (im.map L) = some (L lo) := by
    apply minOf_eq (List.mem_map.mpr ⟨lo, hlo, rfl⟩)
    intro y hy
    obtain ⟨x, hx, rfl⟩ := List.mem_map.mp hy
    exact hL _ _ (hlo2 x hx)
  have hmx : IsMax ((im.map L).map (fun x => x - L lo)) (L m - L lo) := by
    refine ⟨List.mem_map.mpr ⟨L m, List.mem_map.mpr ⟨m, hm.1, rfl⟩, rfl⟩, ?_⟩
    intro y hy
    obtain ⟨z, hz, rfl⟩ := List.mem_map.mp hy
    obtain ⟨x, hx, rfl⟩ := List.mem_map.mp hz
    have := hL _ _ (hm.2 x hx)
    linarith
  have hd : 0 < L m - L lo := by linarith
  obtain ⟨l, e1, e2⟩ := byMax_pos hmx hd
  refine ⟨_, fun x => (L x - L lo) / (L m - L lo), ?_, rfl, ?_, by simp, div_self (ne_of_gt hd), ?_⟩
  · unfold greys stretch stretchPsf
    dsimp only
    rw [show (fun x : ℝ => Real.logb 10 (max x (1 / 1000000))) = L from rfl, hmin]
    dsimp only
    rw [e1]
    simp only [Res.ok_bind]
    rw [e2, List.map_map, List.map_map]
    congr 1
    apply List.map_congr_left
    intro x hx
    have := hL _ _ (hlo2 x hx)
    simp only [Function.comp_apply]
    rw [max_eq_left (div_nonneg (by linarith) hd.le)]
  · intro x hx
    have a1 := hL _ _ (hlo2 x hx)
    have a2 := hL _ _ (hm.2 x hx)
    refine ⟨div_nonneg (by linarith) hd.le, (div_le_one hd).mpr (by linarith), ?_⟩
    intro y _ hxy
    have a3 := hL _ _ hxy
    exact div_le_div_of_nonneg_right (by linarith) hd.le
  · intro x hx y hy hx6 hxy
    have a3 := hLs _ _ hx6 hxy
    exact div_lt_div_of_pos_right (by linarith) hd

/-- **C89** is false: here the picture of an image shows the brighter one of two pixels darker. -/
theorem C89_counterexample : ∃ (im : List (Option ℝ)) (wt : List ℝ), im = [some (-5), some (-3)] ∧ wt = [1, 1] ∧
    greys (.image im wt) 2 = .ok [some 1, some (1 / 2)] := by
  refine ⟨_, _, rfl, rfl, ?_⟩
  unfold greys stretch stretchImage byMax linearScale maxOf
  norm_num [Res.ok_bind, maxOf]

-- the hypotheses are met by an image with a NaN pixel
example : ∃ out, greys (.image [some 3, none, some (-2)] [4, 1, 0]) 3 = .ok out ∧
    DrawnBy (fun x => max ((x + 1 / 2) / (3 + 1 / 2)) 0) [3, 0, -2] out := by
  obtain ⟨out, h1, h2, _⟩ := C89_image_partial (im := [some 3, none, some (-2)]) (wt := [4, 1, 0]) (w := 4) (σ := 1 / 2) (m := 3)
    ⟨by simp, by intro x hx; simp at hx; rcases hx with rfl | rfl | rfl <;> norm_num⟩ (by norm_num) (by norm_num) (by norm_num)
    ⟨by simp, by intro x hx; simp at hx; rcases hx with rfl | rfl | rfl <;> norm_num⟩ (by norm_num)
  exact ⟨out, h1, h2⟩

end Meds.View
