import Verif.Model.RoughCut
import Verif.Model.Maker
import Verif.Lemmas.Basic
import Verif.Props.Tangent
import Verif.Examples.Maker
import Mathlib.Analysis.SpecialFunctions.Trigonometric.Arctan
import Mathlib.Tactic.IntervalCases

/-!
# The rough sky cut keeps every object on the image (C56)
-/

namespace Meds.Spec

/-- A position (zero offset) on the image: between the centres of the first and the last pixel, in rows and columns. -/
def OnImage (w : RoughCut.Wcs) (row col : ℝ) : Prop := 0 ≤ row ∧ row ≤ w.nrow - 1 ∧ 0 ≤ col ∧ col ≤ w.ncol - 1

/-- Over the image the tangent plane coordinates differ from some linear function of the pixel coordinates by at most `d`. -/
def NearlyLinear (w : RoughCut.Wcs) (d : ℝ) : Prop :=
  ∃ a₀ a₁ a₂ b₀ b₁ b₂ : ℝ, ∀ row col, OnImage w row col → ∃ u v, w.uv row col = .ok (u, v) ∧ |u - (a₀ + a₁ * row + a₂ * col)| ≤ d ∧ |v - (b₀ + b₁ * row + b₂ * col)| ≤ d

/-- The image spans less than 90 degrees (in the tangent plane) above and below its middle. -/
def Moderate (w : RoughCut.Wcs) : Prop := ∀ row col u v, OnImage w row col → w.uv row col = .ok (u, v) → |v| < 90 * 3600

end Meds.Spec

namespace Meds.RoughCut
open Spec Tangent

theorem foldl_min_le : ∀ (xs : List ℝ) (x : ℝ), xs.foldl min x ≤ x ∧ ∀ y ∈ xs, xs.foldl min x ≤ y := by
  intro xs
  induction xs with
  | nil => intro x; exact ⟨le_refl _, by simp⟩
  | cons a l ih =>
    intro x
    obtain ⟨h1, h2⟩ := ih (min x a)
    refine ⟨h1.trans (min_le_left _ _), ?_⟩
    intro y hy
    rcases List.mem_cons.mp hy with rfl | hy
    · exact h1.trans (min_le_right _ _)
    · exact h2 y hy

theorem le_foldl_max : ∀ (xs : List ℝ) (x : ℝ), x ≤ xs.foldl max x ∧ ∀ y ∈ xs, y ≤ xs.foldl max x := by
  intro xs
  induction xs with
  | nil => intro x; exact ⟨le_refl _, by simp⟩
  | cons a l ih =>
    intro x
    obtain ⟨h1, h2⟩ := ih (max x a)
    refine ⟨(le_max_left _ _).trans h1, ?_⟩
    intro y hy
    rcases List.mem_cons.mp hy with rfl | hy
    · exact (le_max_right _ _).trans h1
    · exact h2 y hy

theorem foldl_min_mem : ∀ (xs : List ℝ) (x : ℝ), xs.foldl min x = x ∨ xs.foldl min x ∈ xs := by
  intro xs
  induction xs with
  | nil => intro x; exact .inl rfl
  | cons a l ih =>
    intro x
    rcases ih (min x a) with h | h
    · rw [List.foldl_cons, h]
      rcases min_choice x a with e | e
      · exact .inl e
      · exact .inr (by rw [e]; simp)
    · exact .inr (by rw [List.foldl_cons]; exact List.mem_cons_of_mem _ h)

theorem foldl_max_mem : ∀ (xs : List ℝ) (x : ℝ), xs.foldl max x = x ∨ xs.foldl max x ∈ xs := by
  intro xs
  induction xs with
  | nil => intro x; exact .inl rfl
  | cons a l ih =>
    intro x
    rcases ih (max x a) with h | h
    · rw [List.foldl_cons, h]
      rcases max_choice x a with e | e
      · exact .inl e
      · exact .inr (by rw [e]; simp)
    · exact .inr (by rw [List.foldl_cons]; exact List.mem_cons_of_mem _ h)

theorem minOf_spec {l : List ℝ} (h : l ≠ []) : ∃ x, minOf l = .ok x ∧ x ∈ l ∧ ∀ y ∈ l, x ≤ y := by
  cases l with
  | nil => exact absurd rfl h
  | cons a l =>
    refine ⟨_, rfl, ?_, ?_⟩
    · rcases foldl_min_mem l a with e | e
      · rw [e]; simp
      · exact List.mem_cons_of_mem _ e
    · intro y hy
      rcases List.mem_cons.mp hy with rfl | hy
      · exact (foldl_min_le l y).1
      · exact (foldl_min_le l a).2 y hy

theorem maxOf_spec {l : List ℝ} (h : l ≠ []) : ∃ x, maxOf l = .ok x ∧ x ∈ l ∧ ∀ y ∈ l, y ≤ x := by
  cases l with
  | nil => exact absurd rfl h
  | cons a l =>
    refine ⟨_, rfl, ?_, ?_⟩
    · rcases foldl_max_mem l a with e | e
      · rw [e]; simp
      · exact List.mem_cons_of_mem _ e
    · intro y hy
      rcases List.mem_cons.mp hy with rfl | hy
      · exact (le_foldl_max l y).1
      · exact (le_foldl_max l a).2 y hy

theorem orders_pos {nrow ncol : Nat} (hr : 0 < nrow) (hc : 0 < ncol) : 0 < (orders nrow ncol).1 ∧ 0 < (orders nrow ncol).2 := by
  have h1 : (0 : ℝ) < nrow := by exact_mod_cast hr
  have h2 : (0 : ℝ) < ncol := by exact_mod_cast hc
  unfold orders
  split
  · exact ⟨Nat.ceil_pos.mpr (by positivity), by norm_num⟩
  · exact ⟨by norm_num, Nat.ceil_pos.mpr (by positivity)⟩

/-- The first and the last pixel are on the grid, and nothing outside the image is. -/
theorem mem_gridCoords {n order : Nat} (hn : 0 < n) (ho : 0 < order) :
    (0 : ℝ) ∈ gridCoords n order ∧ (n : ℝ) - 1 ∈ gridCoords n order ∧ ∀ x ∈ gridCoords n order, 0 ≤ x ∧ x ≤ (n : ℝ) - 1 := by
  have h1 : (0 : ℝ) < order := by exact_mod_cast ho
  have h2 : (0 : ℝ) ≤ (n : ℝ) - 1 := by
    have : (1 : ℝ) ≤ n := by exact_mod_cast hn
    linarith
  unfold gridCoords
  refine ⟨List.mem_map.mpr ⟨0, by simp, by simp⟩, List.mem_map.mpr ⟨order, by simp, ?_⟩, ?_⟩
  · field_simp
  · intro x hx
    obtain ⟨k, hk, rfl⟩ := List.mem_map.mp hx
    have hk' : (k : ℝ) ≤ order := by
      have := List.mem_range.mp hk
      exact_mod_cast Nat.lt_succ_iff.mp this
    refine ⟨by positivity, ?_⟩
    rw [div_le_iff₀ h1, mul_comm ((n : ℝ) - 1)]
    exact mul_le_mul_of_nonneg_right hk' h2

theorem mem_gridPoints {w : Wcs} {r c : ℝ} : (r, c) ∈ gridPoints w ↔ r ∈ gridCoords w.nrow (orders w.nrow w.ncol).1 ∧ c ∈ gridCoords w.ncol (orders w.nrow w.ncol).2 := by
  unfold gridPoints
  rw [List.mem_flatMap]
  constructor
  · rintro ⟨c', hc, h⟩
    obtain ⟨r', hr, e⟩ := List.mem_map.mp h
    injection e with e1 e2
    subst e1 e2
    exact ⟨hr, hc⟩
  · rintro ⟨hr, hc⟩
    exact ⟨c, hc, List.mem_map.mpr ⟨r, hr, rfl⟩⟩

theorem axis_le {a x n : ℝ} (h0 : 0 ≤ x) (h1 : x ≤ n) : ∃ e, (e = 0 ∨ e = n) ∧ a * x ≤ a * e := by
  rcases le_or_gt 0 a with h | h
  · exact ⟨n, .inr rfl, mul_le_mul_of_nonneg_left h1 h⟩
  · exact ⟨0, .inl rfl, by nlinarith⟩

/-- A linear function over the image is largest at a corner. -/
theorem corner_max (a₀ a₁ a₂ : ℝ) {w : Wcs} {row col : ℝ} (h : OnImage w row col) :
    ∃ r c, (r = 0 ∨ r = (w.nrow : ℝ) - 1) ∧ (c = 0 ∨ c = (w.ncol : ℝ) - 1) ∧ a₀ + a₁ * row + a₂ * col ≤ a₀ + a₁ * r + a₂ * c := by
  obtain ⟨r, hr, h1⟩ := axis_le (a := a₁) h.1 h.2.1
  obtain ⟨c, hc, h2⟩ := axis_le (a := a₂) h.2.2.1 h.2.2.2
  exact ⟨r, c, hr, hc, by linarith⟩

theorem corner_min (a₀ a₁ a₂ : ℝ) {w : Wcs} {row col : ℝ} (h : OnImage w row col) :
    ∃ r c, (r = 0 ∨ r = (w.nrow : ℝ) - 1) ∧ (c = 0 ∨ c = (w.ncol : ℝ) - 1) ∧ a₀ + a₁ * r + a₂ * c ≤ a₀ + a₁ * row + a₂ * col := by
  obtain ⟨r, c, hr, hc, h1⟩ := corner_max (-a₀) (-a₁) (-a₂) h
  exact ⟨r, c, hr, hc, by linarith⟩

/-- **C56** When over the image the conversion from pixels to tangent plane coordinates is linear up to half the buffer, the rough cut keeps every object on the
image. -/
theorem C56_kept {buffer : ℝ} {w : Wcs} (hr : 0 < w.nrow) (hc : 0 < w.ncol) (hlin : NearlyLinear w (buffer / 2)) (hmod : Moderate w) {row col ra dec : ℝ}
    (hon : OnImage w row col) (hsky : w.toSky row col = (ra, dec)) : keeps buffer w ra dec = .ok true := by
  obtain ⟨a₀, a₁, a₂, b₀, b₁, b₂, hlin⟩ := hlin
  obtain ⟨o1, o2⟩ := orders_pos hr hc
  obtain ⟨gr0, gr1, gri⟩ := mem_gridCoords hr o1
  obtain ⟨gc0, gc1, gci⟩ := mem_gridCoords hc o2
  have hgrid : ∀ p ∈ gridPoints w, OnImage w p.1 p.2 := by
    rintro ⟨r, c⟩ hp
    obtain ⟨h1, h2⟩ := mem_gridPoints.mp hp
    exact ⟨(gri r h1).1, (gri r h1).2, (gci c h2).1, (gci c h2).2⟩
  obtain ⟨uvs, huv⟩ := mapRes_of_forall (f := fun p : ℝ × ℝ => w.uv p.1 p.2) (l := gridPoints w) (by
    intro p hp
    obtain ⟨u, v, e, _⟩ := hlin p.1 p.2 (hgrid p hp)
    exact ⟨_, e⟩)
  have hf := mapRes_ok_iff.mp huv
  have hin : ∀ p ∈ gridPoints w, ∀ uv, w.uv p.1 p.2 = .ok uv → uv ∈ uvs := by
    intro p hp uv e
    obtain ⟨i, hi⟩ := List.mem_iff_getElem?.mp hp
    obtain ⟨y, hy, e'⟩ := mapRes_getElem? huv hi
    rw [e] at e'
    injection e' with e'
    subst e'
    exact List.mem_of_getElem? hy
  have hout : ∀ uv ∈ uvs, ∃ p ∈ gridPoints w, w.uv p.1 p.2 = .ok uv := by
    intro uv h
    obtain ⟨i, hi⟩ := List.mem_iff_getElem?.mp h
    obtain ⟨p, hp, e⟩ := mapRes_getElem?_inv huv hi
    exact ⟨p, List.mem_of_getElem? hp, e⟩
  have hne : uvs ≠ [] := by
    obtain ⟨u, v, e, _⟩ := hlin 0 0 (hgrid (0, 0) (mem_gridPoints.mpr ⟨gr0, gc0⟩))
    have := hin (0, 0) (mem_gridPoints.mpr ⟨gr0, gc0⟩) _ e
    intro h
    rw [h] at this
    cases this
  obtain ⟨ufac, f1, f2, f3⟩ := minOf_spec (l := (uvs.map Prod.snd).map (fun v => Real.cos (v / 3600 * (Real.pi / 180)))) (by simpa using hne)
  have hpi := Real.pi_pos
  have fpos : 0 < ufac ∧ ufac ≤ 1 := by
    obtain ⟨v, hv, rfl⟩ := List.mem_map.mp f2
    obtain ⟨uv, huv', rfl⟩ := List.mem_map.mp hv
    obtain ⟨p, hp, e⟩ := hout uv huv'
    have hm := hmod p.1 p.2 uv.1 uv.2 (hgrid p hp) e
    rw [abs_lt] at hm
    refine ⟨Real.cos_pos_of_mem_Ioo ⟨?_, ?_⟩, Real.cos_le_one _⟩
    · have : -(90 : ℝ) < uv.2 / 3600 := by rw [lt_div_iff₀ (by norm_num)]; linarith
      nlinarith
    · have : uv.2 / 3600 < (90 : ℝ) := by rw [div_lt_iff₀ (by norm_num)]; linarith
      nlinarith
  obtain ⟨umin, g1, _, g2⟩ := minOf_spec (l := uvs.map Prod.fst) (by simpa using hne)
  obtain ⟨umax, g3, _, g4⟩ := maxOf_spec (l := uvs.map Prod.fst) (by simpa using hne)
  obtain ⟨vmin, g5, _, g6⟩ := minOf_spec (l := uvs.map Prod.snd) (by simpa using hne)
  obtain ⟨vmax, g7, _, g8⟩ := maxOf_spec (l := uvs.map Prod.snd) (by simpa using hne)
  have hb : roughBounds buffer w = .ok ⟨umin - buffer / ufac, umax + buffer / ufac, vmin - buffer, vmax + buffer⟩ := by
    unfold roughBounds
    rw [if_neg (by omega), huv]
    simp only [Res.ok_bind]
    rw [f1]
    simp only [Res.ok_bind]
    rw [if_neg fpos.1.ne', g1, g3, g5, g7]
    rfl
  have hbuf : 0 ≤ buffer := by
    obtain ⟨u, v, _, h1, _⟩ := hlin row col hon
    have := abs_nonneg (u - (a₀ + a₁ * row + a₂ * col))
    linarith
  have hle : buffer ≤ buffer / ufac := by
    rw [le_div_iff₀ fpos.1]
    nlinarith [fpos.2]
  have hcorner : ∀ r c, (r = 0 ∨ r = (w.nrow : ℝ) - 1) → (c = 0 ∨ c = (w.ncol : ℝ) - 1) → (r, c) ∈ gridPoints w := by
    intro r c h1 h2
    refine mem_gridPoints.mpr ⟨?_, ?_⟩
    · rcases h1 with rfl | rfl <;> assumption
    · rcases h2 with rfl | rfl <;> assumption
  have hmemu : ∀ {u v : ℝ}, (u, v) ∈ uvs → u ∈ uvs.map Prod.fst ∧ v ∈ uvs.map Prod.snd := fun h => ⟨List.mem_map.mpr ⟨_, h, rfl⟩, List.mem_map.mpr ⟨_, h, rfl⟩⟩
  obtain ⟨u, v, huv', hu, hv⟩ := hlin row col hon
  rw [abs_le] at hu hv
  have key : u ≤ umax + buffer ∧ umin - buffer ≤ u ∧ v ≤ vmax + buffer ∧ vmin - buffer ≤ v := by
    refine ⟨?_, ?_, ?_, ?_⟩
    · obtain ⟨r, c, q1, q2, q3⟩ := corner_max a₀ a₁ a₂ hon
      have hp := hcorner r c q1 q2
      obtain ⟨u', v', e, hu', hv'⟩ := hlin r c (hgrid _ hp)
      have := g4 _ (hmemu (hin _ hp _ e)).1
      rw [abs_le] at hu'
      linarith
    · obtain ⟨r, c, q1, q2, q3⟩ := corner_min a₀ a₁ a₂ hon
      have hp := hcorner r c q1 q2
      obtain ⟨u', v', e, hu', hv'⟩ := hlin r c (hgrid _ hp)
      have := g2 _ (hmemu (hin _ hp _ e)).1
      rw [abs_le] at hu'
      linarith
    · obtain ⟨r, c, q1, q2, q3⟩ := corner_max b₀ b₁ b₂ hon
      have hp := hcorner r c q1 q2
      obtain ⟨u', v', e, hu', hv'⟩ := hlin r c (hgrid _ hp)
      have := g8 _ (hmemu (hin _ hp _ e)).2
      rw [abs_le] at hv'
      linarith
    · obtain ⟨r, c, q1, q2, q3⟩ := corner_min b₀ b₁ b₂ hon
      have hp := hcorner r c q1 q2
      obtain ⟨u', v', e, hu', hv'⟩ := hlin r c (hgrid _ hp)
      have := g6 _ (hmemu (hin _ hp _ e)).2
      rw [abs_le] at hv'
      linarith
  unfold keeps
  rw [hb]
  simp only [Res.ok_bind]
  unfold Wcs.uv at huv'
  rw [hsky] at huv'
  rw [huv']
  simp only [Res.ok_bind]
  unfold RBounds.contains
  obtain ⟨k1, k2, k3, k4⟩ := key
  simp only [show u ≤ umax + buffer / ufac by linarith, show umin - buffer / ufac ≤ u by linarith, k3, k4, decide_true, Bool.and_true]

/-- **C56** In the maker: let the outcome of the rough cut be that of the code above and let `image2sky` undo `sky2image`; then an object has a position on an image
(not the coadd, whose bounds may be widened) exactly when its pixel position lies on it. -/
theorem C56_accepted {cfg : MakerCfg} {fileId : Nat} {im : SrcImage} {o : ObjRow} {buffer : ℝ} {w : Wcs} (hr : 0 < w.nrow) (hc : 0 < w.ncol)
    (hlin : NearlyLinear w (buffer / 2)) (hmod : Moderate w)
    (hsize : im.wcs.nrow = w.nrow ∧ im.wcs.ncol = w.ncol) (hoff : im.info.positionOffset = 1 ∧ w.offset = 1)
    (hcut : im.wcs.rough o.sky = true ↔ keeps buffer w o.sky.ra o.sky.dec = .ok true)
    (hinv : w.image2sky (im.wcs.sky2image o.sky).1 (im.wcs.sky2image o.sky).2 = (((o.sky.ra : ℚ) : ℝ), ((o.sky.dec : ℚ) : ℝ)))
    (hfile : ¬ (fileId = 0 ∧ cfg.firstImageIsCoadd = true)) :
    Maker.accepted cfg fileId im o = true ↔ OnImage w (((Maker.objPos im o).zrow : ℚ) : ℝ) (((Maker.objPos im o).zcol : ℚ) : ℝ) := by
  have hb : Maker.fileBounds cfg fileId im = ⟨0, (w.nrow : ℚ) - 1, 0, (w.ncol : ℚ) - 1⟩ := by
    unfold Maker.fileBounds
    rw [if_neg hfile]
    unfold Maker.imageBounds makeWcsPosition
    simp [hoff.1, hsize.1, hsize.2]
  have hz : (Maker.objPos im o).zrow = (im.wcs.sky2image o.sky).2 - 1 ∧ (Maker.objPos im o).zcol = (im.wcs.sky2image o.sky).1 - 1 := by
    unfold Maker.objPos makeWcsPosition
    simp [hoff.1]
  have hon : OnImage w (((Maker.objPos im o).zrow : ℚ) : ℝ) (((Maker.objPos im o).zcol : ℚ) : ℝ) ↔
      (Maker.fileBounds cfg fileId im).containsPoint (Maker.objPos im o).zrow (Maker.objPos im o).zcol = true := by
    rw [hb]
    unfold OnImage Bounds.containsPoint
    simp only [Bool.and_eq_true, decide_eq_true_eq]
    constructor
    · rintro ⟨h1, h2, h3, h4⟩
      exact ⟨⟨⟨by exact_mod_cast h2, by exact_mod_cast h1⟩, by exact_mod_cast h4⟩, by exact_mod_cast h3⟩
    · rintro ⟨⟨⟨h2, h1⟩, h4⟩, h3⟩
      exact ⟨by exact_mod_cast h1, by exact_mod_cast h2, by exact_mod_cast h3, by exact_mod_cast h4⟩
  unfold Maker.accepted
  rw [Bool.and_eq_true, ← hon]
  constructor
  · exact And.right
  · intro h
    refine ⟨hcut.mpr (C56_kept hr hc hlin hmod h ?_), h⟩
    unfold Wcs.toSky
    rw [hz.1, hz.2, hoff.2, ← hinv]
    push_cast
    simp

/-! ### Examples -/

/-- A strip along the meridian: 100 by 50 pixels of 1e-5 radians, in tangent projection. -/
noncomputable def strip : Wcs := ⟨100, 50, 1, fun _ row => (0, Real.arctan ((row - 1 - 50) * (1 / 100000)) * (180 / Real.pi))⟩

theorem strip_uv (row col : ℝ) : strip.uv row col = .ok (0, (row - 50) * (1 / 100000) * arcsec) := by
  have hpi := Real.pi_pos.ne'
  have e : ∀ x : ℝ, (Real.arctan x * (180 / Real.pi) - 0) * (Real.pi / 180) = Real.arctan x := by intro x; field_simp; ring
  have hc : strip.ccd = (0, 0) := by
    unfold Wcs.ccd Wcs.toSky strip
    simp
    norm_num
  unfold Wcs.uv
  rw [hc]
  show radecToUv 0 (Real.arctan ((row + 1 - 1 - 50) * (1 / 100000)) * (180 / Real.pi)) 0 0 = _
  rw [C38_meridian (by rw [e]; exact (Real.cos_arctan_pos _).ne'), e, Real.tan_arctan, add_sub_cancel_right]

theorem arcsec_bounds : 16 < arcsec ∧ arcsec ≤ 324000 := by
  have h0 := Real.pi_pos
  have h1 := Real.two_le_pi
  have h2 := Real.pi_le_four
  unfold arcsec
  rw [div_mul_eq_mul_div]
  refine ⟨?_, ?_⟩
  · rw [lt_div_iff₀ h0]; linarith
  · rw [div_le_iff₀ h0]; linarith

theorem strip_ok : NearlyLinear strip (16 / 2) ∧ Moderate strip ∧ OnImage strip 3 (7 / 2) ∧ ∃ ra dec, strip.toSky 3 (7 / 2) = (ra, dec) ∧ keeps 16 strip ra dec = .ok true := by
  obtain ⟨h1, h2⟩ := arcsec_bounds
  have hl : NearlyLinear strip (16 / 2) := by
    refine ⟨0, 0, 0, -(50 * (1 / 100000) * arcsec), 1 / 100000 * arcsec, 0, fun row col _ => ⟨_, _, strip_uv row col, by norm_num, ?_⟩⟩
    rw [show (row - 50) * (1 / 100000) * arcsec - (-(50 * (1 / 100000) * arcsec) + 1 / 100000 * arcsec * row + 0 * col) = 0 by ring]
    norm_num
  have hm : Moderate strip := by
    intro row col u v hon h
    rw [strip_uv] at h
    injection h with h
    injection h with _ h
    subst h
    have a1 : 0 ≤ row := hon.1
    have a2 : row ≤ (100 : Nat) - 1 := hon.2.1
    norm_num at a2
    rw [abs_lt]
    constructor <;> nlinarith
  have ho : OnImage strip 3 (7 / 2) := by
    unfold OnImage strip
    norm_num
  exact ⟨hl, hm, ho, _, _, rfl, C56_kept (by decide) (by decide) hl hm ho rfl⟩

/-- An image on the strip, and an object in the middle of it. -/
def stripImage : SrcImage := { Ex.src 5 0 100 1 with wcs := ⟨50, 100, fun _ => (6, 51), fun _ _ _ => (1, 0, 0, 1), fun _ => true⟩ }

def stripObj : ObjRow := ⟨1, 4, { ra := 0, dec := 0, color := none, psfColor := none }, 0, 1, 0, 0, 0, "", []⟩

example : Maker.accepted Ex.cfg 1 stripImage stripObj = true ↔
    OnImage strip (((Maker.objPos stripImage stripObj).zrow : ℚ) : ℝ) (((Maker.objPos stripImage stripObj).zcol : ℚ) : ℝ) := by
  obtain ⟨hl, hm, _⟩ := strip_ok
  have hinv : strip.image2sky (((6 : ℚ)) : ℝ) (((51 : ℚ)) : ℝ) = (((0 : ℚ) : ℝ), ((0 : ℚ) : ℝ)) := by
    unfold strip
    norm_num
  refine C56_accepted (cfg := Ex.cfg) (o := stripObj) (fileId := 1) (im := stripImage) (w := strip) (buffer := 16) (by decide) (by decide) hl hm ⟨rfl, rfl⟩ ⟨rfl, rfl⟩ ⟨fun _ => ?_, fun _ => rfl⟩ hinv (by decide)
  refine C56_kept (row := 50) (col := 5) (by decide) (by decide) hl hm (by unfold OnImage strip; norm_num) ?_
  unfold Wcs.toSky strip stripObj
  norm_num

example : (Maker.objPos stripImage stripObj).zrow = 50 ∧ (Maker.objPos stripImage stripObj).zcol = 5 := by decide +kernel

/-- A 2 by 2 image over which the declination rises and falls again between the columns. -/
noncomputable def bent : Wcs := ⟨2, 2, 1, fun col _ => (0, 180 * ((col - 1) * (2 - col)))⟩

/-- **C56** needs the assumption: where the sky is bent between the grid points, an object on the image is discarded. -/
theorem C56_needs_linear : OnImage bent 0 (1 / 2) ∧ ∃ ra dec, bent.toSky 0 (1 / 2) = (ra, dec) ∧ keeps 16 bent ra dec = .ok false := by
  obtain ⟨hp1, hp2⟩ := arcsec_bounds
  refine ⟨by unfold OnImage bent; norm_num, _, _, rfl, ?_⟩
  have hccd : bent.ccd = (0, 0) := by
    unfold Wcs.ccd Wcs.toSky bent
    simp
    norm_num
  have hgrid : ∀ p ∈ gridPoints bent, bent.uv p.1 p.2 = .ok (0, 0) := by
    rintro ⟨r, c⟩ hp
    have hc := (mem_gridPoints.mp hp).2
    have ho : (orders bent.nrow bent.ncol).2 = 1 := by
      unfold orders bent
      norm_num
    rw [ho] at hc
    unfold gridCoords at hc
    obtain ⟨k, hk, rfl⟩ := List.mem_map.mp hc
    have hk := List.mem_range.mp hk
    unfold Wcs.uv
    rw [hccd]
    have : bent.toSky r ((k : ℝ) * (((bent.ncol : Nat) : ℝ) - 1) / ((1 : Nat) : ℝ)) = (0, 0) := by
      unfold Wcs.toSky bent
      interval_cases k <;> norm_num
    show radecToUv (bent.toSky r ((k : ℝ) * (((bent.ncol : Nat) : ℝ) - 1) / ((1 : Nat) : ℝ))).1 (bent.toSky r ((k : ℝ) * (((bent.ncol : Nat) : ℝ) - 1) / ((1 : Nat) : ℝ))).2 0 0 = _
    rw [this]
    exact C38_centre 0 0
  obtain ⟨uvs, huv⟩ := mapRes_of_forall (f := fun p : ℝ × ℝ => bent.uv p.1 p.2) (l := gridPoints bent) (fun p hp => ⟨_, hgrid p hp⟩)
  have hall : ∀ uv ∈ uvs, uv = (0, 0) := by
    intro uv h
    obtain ⟨i, hi⟩ := List.mem_iff_getElem?.mp h
    obtain ⟨p, hp, e⟩ := mapRes_getElem?_inv huv hi
    have := hgrid p (List.mem_of_getElem? hp)
    rw [this] at e
    injection e with e
    exact e.symm
  have hne : uvs ≠ [] := by
    obtain ⟨o1, o2⟩ := orders_pos (nrow := bent.nrow) (ncol := bent.ncol) (by decide) (by decide)
    have hp := mem_gridPoints.mpr ⟨(mem_gridCoords (n := bent.nrow) (by decide) o1).1, (mem_gridCoords (n := bent.ncol) (by decide) o2).1⟩
    obtain ⟨i, hi⟩ := List.mem_iff_getElem?.mp hp
    obtain ⟨y, hy, _⟩ := mapRes_getElem? huv hi
    intro h
    rw [h] at hy
    simp at hy
  have hu0 : ∀ x ∈ uvs.map Prod.fst, x = 0 := by
    intro x hx
    obtain ⟨uv, h, rfl⟩ := List.mem_map.mp hx
    rw [hall uv h]
  have hv0 : ∀ x ∈ uvs.map Prod.snd, x = 0 := by
    intro x hx
    obtain ⟨uv, h, rfl⟩ := List.mem_map.mp hx
    rw [hall uv h]
  obtain ⟨ufac, f1, f2, _⟩ := minOf_spec (l := (uvs.map Prod.snd).map (fun v => Real.cos (v / 3600 * (Real.pi / 180)))) (by simpa using hne)
  have hfac : ufac = 1 := by
    obtain ⟨v, hv, rfl⟩ := List.mem_map.mp f2
    rw [hv0 v hv]
    simp
  obtain ⟨umin, g1, g1m, _⟩ := minOf_spec (l := uvs.map Prod.fst) (by simpa using hne)
  obtain ⟨umax, g3, g3m, _⟩ := maxOf_spec (l := uvs.map Prod.fst) (by simpa using hne)
  obtain ⟨vmin, g5, g5m, _⟩ := minOf_spec (l := uvs.map Prod.snd) (by simpa using hne)
  obtain ⟨vmax, g7, g7m, _⟩ := maxOf_spec (l := uvs.map Prod.snd) (by simpa using hne)
  have hb : roughBounds 16 bent = .ok ⟨umin - 16 / ufac, umax + 16 / ufac, vmin - 16, vmax + 16⟩ := by
    unfold roughBounds
    rw [if_neg (by decide), huv]
    simp only [Res.ok_bind]
    rw [f1]
    simp only [Res.ok_bind]
    rw [if_neg (by rw [hfac]; norm_num), g1, g3, g5, g7]
    rfl
  have hdec : (180 * ((1 / 2 + bent.offset - 1) * (2 - (1 / 2 + bent.offset))) : ℝ) = 45 := by
    unfold bent
    norm_num
  have e45 : ((45 : ℝ) - 0) * (Real.pi / 180) = Real.pi / 4 := by ring
  show keeps 16 bent 0 (180 * ((1 / 2 + bent.offset - 1) * (2 - (1 / 2 + bent.offset)))) = _
  rw [hdec]
  unfold keeps
  rw [hb, hccd]
  simp only [Res.ok_bind]
  rw [C38_meridian (by rw [e45, Real.cos_pi_div_four]; positivity), e45, Real.tan_pi_div_four]
  simp only [Res.ok_bind]
  unfold RBounds.contains
  rw [hv0 _ g7m]
  simp only [show ¬ (1 * arcsec ≤ 0 + 16) by linarith, decide_false, Bool.and_false, Bool.false_and]

end Meds.RoughCut
