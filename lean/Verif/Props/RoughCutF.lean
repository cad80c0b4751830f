import Verif.Model.RoughCutF
import Verif.Props.RoughCut

/-!
# The rough sky cut with rounding (C56)
-/

namespace Meds.Spec
open RoughCut

/-- A rounding function: monotone, exact for the integers up to `2^53`, and without underflow of positive numbers. -/
structure Rounding (rd : ℝ → ℝ) : Prop where
  mono : ∀ x y, x ≤ y → rd x ≤ rd y
  int : ∀ k : Int, |k| ≤ 2 ^ 53 → rd k = k
  pos : ∀ x, 0 < x → 0 < rd x

/-- Over the image the computed tangent plane coordinates are machine numbers and differ from some linear function of the pixel coordinates by at most `d`, all of it
taken together: distortion of the image, errors of the wcs, rounding. -/
def NearlyLinearF (A : Arith) (w : RoughCut.Wcs) (d : ℝ) : Prop :=
  ∃ a₀ a₁ a₂ b₀ b₁ b₂ : ℝ, ∀ row col, OnImage w row col → ∃ u v, w.uvF A row col = .ok (u, v) ∧ A.rd u = u ∧ A.rd v = v ∧
    |u - (a₀ + a₁ * row + a₂ * col)| ≤ d ∧ |v - (b₀ + b₁ * row + b₂ * col)| ≤ d ∧ 0 < A.cosf v ∧ A.cosf v ≤ 1

end Meds.Spec

namespace Meds.RoughCut
open Spec Tangent

theorem ordersF_pos {A : Arith} (hA : Rounding A.rd) {nrow ncol : Nat} (hr : 0 < nrow) (hc : 0 < ncol) : 0 < (ordersF A nrow ncol).1 ∧ 0 < (ordersF A nrow ncol).2 := by
  have h1 : (0 : ℝ) < nrow := by exact_mod_cast hr
  have h2 : (0 : ℝ) < ncol := by exact_mod_cast hc
  unfold ordersF
  split
  · exact ⟨Nat.ceil_pos.mpr (hA.pos _ (by positivity)), by norm_num⟩
  · exact ⟨by norm_num, Nat.ceil_pos.mpr (hA.pos _ (by positivity))⟩

theorem mem_gridCoordsF {A : Arith} (hA : Rounding A.rd) {n order : Nat} (hn : 0 < n) (ho : 0 < order) (hbig : order * n ≤ 2 ^ 53) :
    (0 : ℝ) ∈ gridCoordsF A n order ∧ (n : ℝ) - 1 ∈ gridCoordsF A n order ∧ ∀ x ∈ gridCoordsF A n order, 0 ≤ x ∧ x ≤ (n : ℝ) - 1 := by
  have h1 : (0 : ℝ) < order := by exact_mod_cast ho
  have hnat : ∀ k : Nat, k ≤ 2 ^ 53 → A.rd (k : ℝ) = k := by
    intro k hk
    have := hA.int (k : Int) (by rw [abs_of_nonneg (by positivity)]; exact_mod_cast hk)
    simpa using this
  have hsub : ((n : ℝ) - 1) = ((n - 1 : Nat) : ℝ) := by rw [Nat.cast_sub hn]; simp
  have hn1 : n - 1 ≤ 2 ^ 53 := by
    calc n - 1 ≤ 1 * n := by omega
      _ ≤ order * n := Nat.mul_le_mul_right n ho
      _ ≤ 2 ^ 53 := hbig
  have hz : A.rd 0 = 0 := by simpa using hnat 0 (by norm_num)
  have hval : ∀ k : Nat, k ≤ order → A.rd (A.rd ((k : ℝ) * A.rd ((n : ℝ) - 1)) / order) = A.rd (((k * (n - 1) : Nat) : ℝ) / order) := by
    intro k hk
    rw [hsub, hnat _ hn1, ← Nat.cast_mul, hnat]
    calc k * (n - 1) ≤ order * n := Nat.mul_le_mul hk (by omega)
      _ ≤ 2 ^ 53 := hbig
  unfold gridCoordsF
  refine ⟨List.mem_map.mpr ⟨0, by simp, ?_⟩, List.mem_map.mpr ⟨order, by simp, ?_⟩, ?_⟩
  · rw [hval 0 (by omega)]; simp [hz]
  · rw [hval order le_rfl, Nat.cast_mul, mul_div_cancel_left₀ _ h1.ne', hnat _ hn1, hsub]
  · intro x hx
    obtain ⟨k, hk, rfl⟩ := List.mem_map.mp hx
    have hk' : k ≤ order := Nat.lt_succ_iff.mp (List.mem_range.mp hk)
    rw [hval k hk']
    constructor
    · rw [← hz]
      exact hA.mono _ _ (by positivity)
    · rw [hsub, ← hnat _ hn1]
      apply hA.mono
      rw [div_le_iff₀ h1, Nat.cast_mul, mul_comm ((n - 1 : Nat) : ℝ)]
      exact mul_le_mul_of_nonneg_right (by exact_mod_cast hk') (by positivity)

theorem mem_gridPointsF {A : Arith} {w : Wcs} {r c : ℝ} : (r, c) ∈ gridPointsF A w ↔
    r ∈ gridCoordsF A w.nrow (ordersF A w.nrow w.ncol).1 ∧ c ∈ gridCoordsF A w.ncol (ordersF A w.nrow w.ncol).2 := by
  unfold gridPointsF
  rw [List.mem_flatMap]
  constructor
  · rintro ⟨c', hc, h⟩
    obtain ⟨r', hr, e⟩ := List.mem_map.mp h
    injection e with e1 e2
    subst e1 e2
    exact ⟨hr, hc⟩
  · rintro ⟨hr, hc⟩
    exact ⟨c, hc, List.mem_map.mpr ⟨r, hr, rfl⟩⟩

theorem orders_small {A : Arith} (hA : Rounding A.rd) {nrow ncol : Nat} (hr : 0 < nrow) (hc : 0 < ncol) (hs : nrow ≤ 2 ^ 26 ∧ ncol ≤ 2 ^ 26) :
    (ordersF A nrow ncol).1 * nrow ≤ 2 ^ 53 ∧ (ordersF A nrow ncol).2 * ncol ≤ 2 ^ 53 := by
  have key : ∀ a b : Nat, 0 < b → a ≤ 2 ^ 26 → ⌈A.rd ((a : ℝ) / b)⌉₊ ≤ a := by
    intro a b hb ha
    apply Nat.ceil_le.mpr
    have h0 := hA.int (a : Int) (by rw [abs_of_nonneg (by positivity)]; calc ((a : Int)) ≤ 2 ^ 26 := by exact_mod_cast ha
                                      _ ≤ 2 ^ 53 := by norm_num)
    have h0 : A.rd (a : ℝ) = a := by simpa using h0
    calc A.rd ((a : ℝ) / b) ≤ A.rd (a : ℝ) := by
          apply hA.mono
          exact div_le_self (by positivity) (by exact_mod_cast hb)
      _ = a := h0
  have h4 : ∀ n : Nat, n ≤ 2 ^ 26 → 4 * n ≤ 2 ^ 53 := by intro n hn; omega
  have hsq : ∀ n : Nat, n ≤ 2 ^ 26 → n * n ≤ 2 ^ 53 := by
    intro n hn
    calc n * n ≤ 2 ^ 26 * 2 ^ 26 := Nat.mul_le_mul hn hn
      _ ≤ 2 ^ 53 := by norm_num
  unfold ordersF
  split
  · exact ⟨(Nat.mul_le_mul_right _ (key nrow ncol hc hs.1)).trans (hsq _ hs.1), h4 _ hs.2⟩
  · exact ⟨h4 _ hs.1, (Nat.mul_le_mul_right _ (key ncol nrow hr hs.2)).trans (hsq _ hs.2)⟩

/-- **C56** (with rounding) Let every operation of the cut be rounded, on an image of up to `2^26` pixels in each direction.  When the computed tangent plane coordinates
are linear up to half the buffer, rounding included, the cut keeps every object on the image: the rounding of the bounds and of the grid does no harm. -/
theorem C56_rounding {A : Arith} (hA : Rounding A.rd) {buffer : ℝ} (hbuffer : A.rd buffer = buffer) {w : Wcs} (hr : 0 < w.nrow) (hc : 0 < w.ncol)
    (hs : w.nrow ≤ 2 ^ 26 ∧ w.ncol ≤ 2 ^ 26) (hlin : NearlyLinearF A w (buffer / 2)) {row col ra dec : ℝ}
    (hon : OnImage w row col) (hsky : w.toSkyF A row col = (ra, dec)) : keepsF A buffer w ra dec = .ok true := by
  obtain ⟨a₀, a₁, a₂, b₀, b₁, b₂, hlin⟩ := hlin
  obtain ⟨o1, o2⟩ := ordersF_pos hA hr hc
  obtain ⟨s1, s2⟩ := orders_small hA hr hc hs
  obtain ⟨gr0, gr1, gri⟩ := mem_gridCoordsF hA hr o1 s1
  obtain ⟨gc0, gc1, gci⟩ := mem_gridCoordsF hA hc o2 s2
  have hgrid : ∀ p ∈ gridPointsF A w, OnImage w p.1 p.2 := by
    rintro ⟨r, c⟩ hp
    obtain ⟨h1, h2⟩ := mem_gridPointsF.mp hp
    exact ⟨(gri r h1).1, (gri r h1).2, (gci c h2).1, (gci c h2).2⟩
  obtain ⟨uvs, huv⟩ := mapRes_of_forall (f := fun p : ℝ × ℝ => w.uvF A p.1 p.2) (l := gridPointsF A w) (by
    intro p hp
    obtain ⟨u, v, e, _⟩ := hlin p.1 p.2 (hgrid p hp)
    exact ⟨_, e⟩)
  have hin : ∀ p ∈ gridPointsF A w, ∀ uv, w.uvF A p.1 p.2 = .ok uv → uv ∈ uvs := by
    intro p hp uv e
    obtain ⟨i, hi⟩ := List.mem_iff_getElem?.mp hp
    obtain ⟨y, hy, e'⟩ := mapRes_getElem? huv hi
    rw [e] at e'
    injection e' with e'
    subst e'
    exact List.mem_of_getElem? hy
  have hout : ∀ uv ∈ uvs, ∃ p ∈ gridPointsF A w, w.uvF A p.1 p.2 = .ok uv := by
    intro uv h
    obtain ⟨i, hi⟩ := List.mem_iff_getElem?.mp h
    obtain ⟨p, hp, e⟩ := mapRes_getElem?_inv huv hi
    exact ⟨p, List.mem_of_getElem? hp, e⟩
  have hne : uvs ≠ [] := by
    obtain ⟨u, v, e, _⟩ := hlin 0 0 (hgrid (0, 0) (mem_gridPointsF.mpr ⟨gr0, gc0⟩))
    have := hin (0, 0) (mem_gridPointsF.mpr ⟨gr0, gc0⟩) _ e
    intro h
    rw [h] at this
    cases this
  obtain ⟨ufac, f1, f2, f3⟩ := minOf_spec (l := (uvs.map Prod.snd).map A.cosf) (by simpa using hne)
  have fpos : 0 < ufac ∧ ufac ≤ 1 := by
    obtain ⟨v, hv, rfl⟩ := List.mem_map.mp f2
    obtain ⟨uv, huv', rfl⟩ := List.mem_map.mp hv
    obtain ⟨p, hp, e⟩ := hout uv huv'
    obtain ⟨u', v', e', _, _, _, _, c1, c2⟩ := hlin p.1 p.2 (hgrid p hp)
    rw [e] at e'
    injection e' with e'
    subst e'
    exact ⟨c1, c2⟩
  obtain ⟨umin, g1, _, g2⟩ := minOf_spec (l := uvs.map Prod.fst) (by simpa using hne)
  obtain ⟨umax, g3, _, g4⟩ := maxOf_spec (l := uvs.map Prod.fst) (by simpa using hne)
  obtain ⟨vmin, g5, _, g6⟩ := minOf_spec (l := uvs.map Prod.snd) (by simpa using hne)
  obtain ⟨vmax, g7, _, g8⟩ := maxOf_spec (l := uvs.map Prod.snd) (by simpa using hne)
  have hb : roughBoundsF A buffer w = .ok ⟨A.rd (umin - A.rd (buffer / ufac)), A.rd (umax + A.rd (buffer / ufac)), A.rd (vmin - buffer), A.rd (vmax + buffer)⟩ := by
    unfold roughBoundsF
    rw [if_neg (by omega), huv]
    simp only [Res.ok_bind]
    rw [f1]
    simp only [Res.ok_bind]
    rw [if_neg fpos.1.ne', g1, g3, g5, g7]
    rfl
  have hbuf : 0 ≤ buffer := by
    obtain ⟨u, v, _, _, _, h1, _⟩ := hlin row col hon
    have := abs_nonneg (u - (a₀ + a₁ * row + a₂ * col))
    linarith
  have hle : buffer ≤ A.rd (buffer / ufac) := by
    calc buffer = A.rd buffer := hbuffer.symm
      _ ≤ A.rd (buffer / ufac) := by
        apply hA.mono
        rw [le_div_iff₀ fpos.1]
        nlinarith [fpos.2]
  have hcorner : ∀ r c, (r = 0 ∨ r = (w.nrow : ℝ) - 1) → (c = 0 ∨ c = (w.ncol : ℝ) - 1) → (r, c) ∈ gridPointsF A w := by
    intro r c h1 h2
    refine mem_gridPointsF.mpr ⟨?_, ?_⟩
    · rcases h1 with rfl | rfl <;> assumption
    · rcases h2 with rfl | rfl <;> assumption
  have hmemu : ∀ {u v : ℝ}, (u, v) ∈ uvs → u ∈ uvs.map Prod.fst ∧ v ∈ uvs.map Prod.snd := fun h => ⟨List.mem_map.mpr ⟨_, h, rfl⟩, List.mem_map.mpr ⟨_, h, rfl⟩⟩
  obtain ⟨u, v, huv', ru, rv, hu, hv, _⟩ := hlin row col hon
  rw [abs_le] at hu hv
  have key : u ≤ umax + buffer ∧ umin - buffer ≤ u ∧ v ≤ vmax + buffer ∧ vmin - buffer ≤ v := by
    refine ⟨?_, ?_, ?_, ?_⟩
    · obtain ⟨r, c, q1, q2, q3⟩ := corner_max a₀ a₁ a₂ hon
      have hp := hcorner r c q1 q2
      obtain ⟨u', v', e, _, _, hu', hv', _⟩ := hlin r c (hgrid _ hp)
      have := g4 _ (hmemu (hin _ hp _ e)).1
      rw [abs_le] at hu'
      linarith
    · obtain ⟨r, c, q1, q2, q3⟩ := corner_min a₀ a₁ a₂ hon
      have hp := hcorner r c q1 q2
      obtain ⟨u', v', e, _, _, hu', hv', _⟩ := hlin r c (hgrid _ hp)
      have := g2 _ (hmemu (hin _ hp _ e)).1
      rw [abs_le] at hu'
      linarith
    · obtain ⟨r, c, q1, q2, q3⟩ := corner_max b₀ b₁ b₂ hon
      have hp := hcorner r c q1 q2
      obtain ⟨u', v', e, _, _, hu', hv', _⟩ := hlin r c (hgrid _ hp)
      have := g8 _ (hmemu (hin _ hp _ e)).2
      rw [abs_le] at hv'
      linarith
    · obtain ⟨r, c, q1, q2, q3⟩ := corner_min b₀ b₁ b₂ hon
      have hp := hcorner r c q1 q2
      obtain ⟨u', v', e, _, _, hu', hv', _⟩ := hlin r c (hgrid _ hp)
      have := g6 _ (hmemu (hin _ hp _ e)).2
      rw [abs_le] at hv'
      linarith
  obtain ⟨k1, k2, k3, k4⟩ := key
  have m1 : u ≤ A.rd (umax + A.rd (buffer / ufac)) := by rw [← ru]; exact hA.mono _ _ (by linarith)
  have m2 : A.rd (umin - A.rd (buffer / ufac)) ≤ u := by rw [← ru]; exact hA.mono _ _ (by linarith)
  have m3 : v ≤ A.rd (vmax + buffer) := by rw [← rv]; exact hA.mono _ _ (by linarith)
  have m4 : A.rd (vmin - buffer) ≤ v := by rw [← rv]; exact hA.mono _ _ (by linarith)
  unfold keepsF
  rw [hb]
  simp only [Res.ok_bind]
  unfold Wcs.uvF at huv'
  rw [hsky] at huv'
  rw [huv']
  simp only [Res.ok_bind]
  unfold RBounds.contains
  simp only [m1, m2, m3, m4, decide_true, Bool.and_true]

/-- Without rounding these are the functions of `Model/RoughCut`. -/
noncomputable def exactArith : Arith := ⟨id, fun v => Real.cos (v / 3600 * (Real.pi / 180)), radecToUv⟩

theorem keepsF_exact (buffer : ℝ) (w : Wcs) (ra dec : ℝ) : keepsF exactArith buffer w ra dec = keeps buffer w ra dec := rfl

/-! ### A concrete case -/

/-- Rounding up to a multiple of `2^-52`. -/
noncomputable def roundUp (x : ℝ) : ℝ := (⌈x * 2 ^ 52⌉ : Int) / 2 ^ 52

theorem roundUp_ok : Rounding roundUp := by
  refine ⟨?_, ?_, ?_⟩
  · intro x y h
    unfold roundUp
    apply div_le_div_of_nonneg_right _ (by positivity)
    exact_mod_cast Int.ceil_le_ceil (mul_le_mul_of_nonneg_right h (by positivity))
  · intro k _
    unfold roundUp
    have : (k : ℝ) * 2 ^ 52 = ((k * 2 ^ 52 : Int) : ℝ) := by push_cast; ring
    rw [this, Int.ceil_intCast]
    rw [← this, mul_div_cancel_right₀ _ (by positivity)]
  · intro x hx
    unfold roundUp
    apply div_pos _ (by positivity)
    exact_mod_cast Int.ceil_pos.mpr (by positivity)

/-- An arithmetic that rounds up, with a projection of `ra, dec` to the same numbers of arcseconds, rounded. -/
noncomputable def roundedArith : Arith := ⟨roundUp, fun _ => 1 / 2, fun ra dec ra0 dec0 => .ok (roundUp (ra - ra0), roundUp (dec - dec0))⟩

/-- An image with pixels of a third of an arcsecond. -/
noncomputable def flatSky : Wcs := ⟨100, 50, 1, fun x y => (x / 3, y / 3)⟩

theorem roundUp_near (x : ℝ) : |roundUp x - x| ≤ 1 := by
  unfold roundUp
  have h1 := Int.le_ceil (x * 2 ^ 52)
  have h2 := Int.ceil_lt_add_one (x * 2 ^ 52)
  rw [abs_le]
  constructor
  · rw [neg_le_sub_iff_le_add, ← sub_le_iff_le_add, le_div_iff₀ (by positivity)]
    nlinarith
  · rw [sub_le_iff_le_add, div_le_iff₀ (by positivity)]
    nlinarith

theorem roundUp_twice (x : ℝ) : roundUp (roundUp x) = roundUp x := by
  unfold roundUp
  rw [div_mul_cancel₀ _ (by positivity), Int.ceil_intCast]

/-- The theorem applies to it: an object between the pixels is kept. -/
example : keepsF roundedArith 16 flatSky (flatSky.toSkyF roundedArith (31 / 7) 49).1 (flatSky.toSkyF roundedArith (31 / 7) 49).2 = .ok true := by
  refine C56_rounding roundUp_ok ?_ (by norm_num [flatSky]) (by norm_num [flatSky]) (by norm_num [flatSky]) ?_ (row := 31 / 7) (col := 49) ?_ rfl
  · simpa [roundedArith] using roundUp_ok.int 16 (by norm_num)
  · refine ⟨1 / 3 - (flatSky.ccdF roundedArith).1, 0, 1 / 3, 1 / 3 - (flatSky.ccdF roundedArith).2, 1 / 3, 0, fun row col _ => ⟨_, _, rfl, roundUp_twice _, roundUp_twice _, ?_, ?_, ?_, ?_⟩⟩
    · have h1 := roundUp_near (col + 1)
      have h2 := roundUp_near (roundUp (col + 1) / 3 - (flatSky.ccdF roundedArith).1)
      rw [abs_le] at h1 h2 ⊢
      simp only [Wcs.toSkyF, flatSky, roundedArith] at h1 h2 ⊢
      constructor <;> linarith
    · have h1 := roundUp_near (row + 1)
      have h2 := roundUp_near (roundUp (row + 1) / 3 - (flatSky.ccdF roundedArith).2)
      rw [abs_le] at h1 h2 ⊢
      simp only [Wcs.toSkyF, flatSky, roundedArith] at h1 h2 ⊢
      constructor <;> linarith
    · norm_num [roundedArith]
    · norm_num [roundedArith]
  · unfold OnImage flatSky
    norm_num

end Meds.RoughCut
