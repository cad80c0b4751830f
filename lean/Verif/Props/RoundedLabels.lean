import Verif.Lemmas.CompositeF
import Verif.Props.Composite
import Verif.Props.UbersegSlow

/-!
# Rounding in composite images, interpolated seg maps and circular masks (C106)
-/

namespace Meds
open Spec

namespace Spec

/-- The matrix `K` is the inverse of the jacobian of `s` up to `η` in every entry of the product. -/
def InverseUpTo (η : ℚ) (K : MEDS.Mat2) (s : Slot) : Prop :=
  |K.a * s.dudrow + K.b * s.dvdrow - 1| ≤ η ∧ |K.a * s.dudcol + K.b * s.dvdcol| ≤ η ∧
  |K.c * s.dudrow + K.d * s.dvdrow| ≤ η ∧ |K.c * s.dudcol + K.d * s.dvdcol - 1| ≤ η

/-- A pixel of the epoch `s` is at most `κ` pixels of the coadd, all terms of the product of `K` and the jacobian counted with their absolute values. -/
def AtMost (κ : ℚ) (K : MEDS.Mat2) (s : Slot) : Prop :=
  |K.a| * (|s.dudrow| + |s.dudcol|) + |K.b| * (|s.dvdrow| + |s.dvdcol|) ≤ κ ∧
  |K.c| * (|s.dudrow| + |s.dudcol|) + |K.d| * (|s.dvdrow| + |s.dvdcol|) ≤ κ

/-- The recorded centre is inside a stamp of side `n`. -/
def CentreIn (n : Int) (s : Slot) : Prop := 0 ≤ s.cutoutRow ∧ s.cutoutRow ≤ n ∧ 0 ≤ s.cutoutCol ∧ s.cutoutCol ≤ n

/-- The largest possible error of a position, in pixels of the coadd. -/
def slack (η κ : ℚ) (n : Int) : ℚ := 4 * η * κ * n + (κ + 1) * n / 2 ^ 50

/-- As `CoaddPixel`, but the position may be off by `ε` along both axes. -/
def CoaddPixelNear (ε : ℚ) (nr nc : Nat) (k : Nat) (coadd epoch : Slot) (i j a b : Nat) : Prop :=
  (k = 0 ∧ a = i ∧ b = j) ∨
  (k ≠ 0 ∧ ∃ p q : ℚ × ℚ, tangent coadd p = tangent epoch (i, j) ∧ |q.1 - p.1| ≤ ε ∧ |q.2 - p.2| ≤ ε ∧ NearestPixel nr nc q a b)

/-- No pixel centre of an `n` by `n` stamp of the epoch falls within `ε` of a border between two rows or two columns of the coadd. -/
def AwayFromBorders (ε : ℚ) (n : Nat) (coadd epoch : Slot) : Prop :=
  ∀ a b, a < n → b < n → ∀ p : ℚ × ℚ, tangent coadd p = tangent epoch (a, b) → ∀ z : Int, ε < |p.1 - (z + 1 / 2)| ∧ ε < |p.2 - (z + 1 / 2)|

/-- Object `i` with its coadd cutout and another one, and a matrix inversion that is accurate for the jacobian of the coadd. -/
structure Accurate (inv : MEDS.Mat2 → Res MEDS.Mat2) (m : MEDS) (i k : Nat) (o : ObjRow) (sc se : Slot) (η κ : ℚ) : Prop where
  row : m.cat.rows[i]? = some o
  coadd : o.slots[0]? = some sc
  epoch : o.slots[k]? = some se
  inverse : ∃ K, inv ⟨sc.dudrow, sc.dudcol, sc.dvdrow, sc.dvdcol⟩ = .ok K ∧ InverseUpTo η K sc ∧ AtMost κ K se
  small : η ≤ 1 / 4
  centreCoadd : CentreIn o.boxSize sc
  centreEpoch : CentreIn o.boxSize se

end Spec
open Spec

namespace MEDS

/-- An approximate inverse exists only for an invertible jacobian. -/
theorem det_of_inverse {η : ℚ} {K : Mat2} {s : Slot} (h : InverseUpTo η K s) (hη : η ≤ 1 / 4) : det s ≠ 0 := by
  obtain ⟨h1, h2, h3, h4⟩ := h
  intro hd
  unfold det at hd
  have e : (K.a * s.dudrow + K.b * s.dvdrow) * (K.c * s.dudcol + K.d * s.dvdcol) - (K.a * s.dudcol + K.b * s.dvdcol) * (K.c * s.dudrow + K.d * s.dvdrow) = 0 := by
    linear_combination (K.a * K.d - K.b * K.c) * hd
  generalize K.a * s.dudrow + K.b * s.dvdrow = x at *
  generalize K.c * s.dudcol + K.d * s.dvdcol = y at *
  generalize K.a * s.dudcol + K.b * s.dvdcol = u at *
  generalize K.c * s.dudrow + K.d * s.dvdrow = v at *
  obtain ⟨a1, a2⟩ := abs_le.mp (h1.trans hη)
  obtain ⟨b1, b2⟩ := abs_le.mp (h4.trans hη)
  have huv : u * v ≤ 1 / 16 := by
    calc u * v ≤ |u * v| := le_abs_self _
      _ = |u| * |v| := abs_mul _ _
      _ ≤ (1 / 4) * (1 / 4) := mul_le_mul (h2.trans hη) (h3.trans hη) (abs_nonneg _) (by norm_num)
      _ = 1 / 16 := by norm_num
  have hxy : (3 / 4 : ℚ) * (3 / 4) ≤ x * y := mul_le_mul (by linarith) (by linarith) (by norm_num) (by linarith)
  linarith

/-- The computed position against the exact one. -/
theorem toCoaddF_near {η κ : ℚ} {n : Int} {K : Mat2} {sc se : Slot} (hK : InverseUpTo η K sc) (hη : η ≤ 1 / 4) (hκ : AtMost κ K se)
    (hc : CentreIn n sc) (he : CentreIn n se) {a b : Nat} (ha : (a : Int) < n) (hb : (b : Int) < n) {p : ℚ × ℚ} (hp : tangent sc p = tangent se (a, b)) :
    |(toCoaddF K ⟨se.dudrow, se.dudcol, se.dvdrow, se.dvdcol⟩ (sc.cutoutRow, sc.cutoutCol) (se.cutoutRow, se.cutoutCol) a b).1 - p.1| ≤ slack η κ n ∧
    |(toCoaddF K ⟨se.dudrow, se.dudcol, se.dvdrow, se.dvdcol⟩ (sc.cutoutRow, sc.cutoutCol) (se.cutoutRow, se.cutoutCol) a b).2 - p.2| ≤ slack η κ n := by
  obtain ⟨c1, c2, c3, c4⟩ := hc
  obtain ⟨e1, e2, e3, e4⟩ := he
  obtain ⟨k1, k2⟩ := hκ
  have ha' : (a : ℚ) ≤ n := by exact_mod_cast ha.le
  have hb' : (b : ℚ) ≤ n := by exact_mod_cast hb.le
  have a0 : (0 : ℚ) ≤ a := by positivity
  have b0 : (0 : ℚ) ≤ b := by positivity
  have hn : (0 : ℚ) ≤ n := a0.trans ha'
  have hr : |(a : ℚ) - se.cutoutRow| ≤ n := by rw [abs_le]; constructor <;> linarith
  have hcl : |(b : ℚ) - se.cutoutCol| ≤ n := by rw [abs_le]; constructor <;> linarith
  have κ0 : 0 ≤ κ := le_trans (by positivity) k1
  have E1 := coord_error (A := se.dudrow) (B := se.dudcol) (C := se.dvdrow) (D := se.dvdcol) (K := K.a) (L := K.b) (z := sc.cutoutRow) hr hcl
  have E2 := coord_error (A := se.dudrow) (B := se.dudcol) (C := se.dvdrow) (D := se.dvdcol) (K := K.c) (L := K.d) (z := sc.cutoutCol) hr hcl
  have B1 : (|sc.cutoutRow| + n * (|K.a| * (|se.dudrow| + |se.dudcol|) + |K.b| * (|se.dvdrow| + |se.dvdcol|))) / 2 ^ 50 ≤ (κ + 1) * n / 2 ^ 50 := by
    have h1 : |sc.cutoutRow| ≤ n := by rw [abs_le]; constructor <;> linarith
    have h2 := mul_le_mul_of_nonneg_left k1 hn
    rw [div_le_div_iff_of_pos_right (by positivity)]
    linarith
  have B2 : (|sc.cutoutCol| + n * (|K.c| * (|se.dudrow| + |se.dudcol|) + |K.d| * (|se.dvdrow| + |se.dvdcol|))) / 2 ^ 50 ≤ (κ + 1) * n / 2 ^ 50 := by
    have h1 : |sc.cutoutCol| ≤ n := by rw [abs_le]; constructor <;> linarith
    have h2 := mul_le_mul_of_nonneg_left k2 hn
    rw [div_le_div_iff_of_pos_right (by positivity)]
    linarith
  have lin : ∀ x y A B C D : ℚ, |((a : ℚ) - se.cutoutRow)| ≤ n → |((b : ℚ) - se.cutoutCol)| ≤ n →
      |(((a : ℚ) - se.cutoutRow) * A + ((b : ℚ) - se.cutoutCol) * B) * x + (((a : ℚ) - se.cutoutRow) * C + ((b : ℚ) - se.cutoutCol) * D) * y| ≤
        n * (|x| * (|A| + |B|) + |y| * (|C| + |D|)) := by
    intro x y A B C D h1 h2
    have t : ∀ P Q : ℚ, |((a : ℚ) - se.cutoutRow) * P + ((b : ℚ) - se.cutoutCol) * Q| ≤ n * (|P| + |Q|) := by
      intro P Q
      refine (abs_add_le _ _).trans ?_
      rw [abs_mul, abs_mul, mul_add]
      gcongr
    refine (abs_add_le _ _).trans ?_
    rw [abs_mul, abs_mul]
    have u1 := mul_le_mul_of_nonneg_right (t A B) (abs_nonneg x)
    have u2 := mul_le_mul_of_nonneg_right (t C D) (abs_nonneg y)
    linarith
  obtain ⟨i1, i2, i3, i4⟩ := hK
  have hw : (tangent se (a, b)) = (sc.dudrow * (p.1 - sc.cutoutRow) + sc.dudcol * (p.2 - sc.cutoutCol), sc.dvdrow * (p.1 - sc.cutoutRow) + sc.dvdcol * (p.2 - sc.cutoutCol)) :=
    hp.symm
  have T1 : (tangent se (a, b)).1 = ((a : ℚ) - se.cutoutRow) * se.dudrow + ((b : ℚ) - se.cutoutCol) * se.dudcol := by unfold tangent; ring
  have T2 : (tangent se (a, b)).2 = ((a : ℚ) - se.cutoutRow) * se.dvdrow + ((b : ℚ) - se.cutoutCol) * se.dvdcol := by unfold tangent; ring
  have I := inverse_error (K := K) (J := ⟨sc.dudrow, sc.dudcol, sc.dvdrow, sc.dvdcol⟩) (d := (p.1 - sc.cutoutRow, p.2 - sc.cutoutCol)) (κn := κ * n) hη i1 i2 i3 i4 hw
    (by rw [T1, T2]; refine (lin K.a K.b se.dudrow se.dudcol se.dvdrow se.dvdcol hr hcl).trans ?_
        have := mul_le_mul_of_nonneg_left k1 hn
        linarith)
    (by rw [T1, T2]; refine (lin K.c K.d se.dudrow se.dudcol se.dvdrow se.dvdcol hr hcl).trans ?_
        have := mul_le_mul_of_nonneg_left k2 hn
        linarith)
  rw [T1, T2] at I
  obtain ⟨I1, I2⟩ := I
  dsimp only at I1 I2
  unfold toCoaddF slack
  dsimp only
  rw [abs_le] at E1 E2 I1 I2 ⊢
  rw [abs_le]
  refine ⟨⟨?_, ?_⟩, ⟨?_, ?_⟩⟩ <;> linarith [E1.1, E1.2, E2.1, E2.2, I1.1, I1.2, I2.1, I2.2]

theorem ofFnRes_congr {α : Type} {nr nc : Nat} {f g : Nat → Nat → Res α} (h : ∀ a b, a < nr → b < nc → f a b = g a b) : Img.ofFnRes nr nc f = Img.ofFnRes nr nc g := by
  unfold Img.ofFnRes
  congr 1
  refine mapRes_congr ?_
  intro t ht
  rw [List.mem_range] at ht
  have hnc : 0 < nc := Nat.pos_of_ne_zero (by rintro rfl; simp at ht)
  exact h _ _ (Nat.div_lt_of_lt_mul (by rw [Nat.mul_comm]; exact ht)) (Nat.mod_lt _ hnc)

variable {inv : Mat2 → Res Mat2} {m : MEDS} {i k : Nat} {o : ObjRow} {sc se : Slot} {η κ : ℚ}

section
variable (A : Accurate inv m i k o sc se η κ)
include A

theorem coadd_centre : m.getCutoutRowcol i 0 = .ok (sc.cutoutRow, sc.cutoutCol) := by
  unfold getCutoutRowcol; rw [show m.slot (i : Int) 0 = .ok sc from slot_nat (k := 0) A.row A.coadd]; rfl

theorem epoch_centre : m.getCutoutRowcol i k = .ok (se.cutoutRow, se.cutoutCol) := by
  unfold getCutoutRowcol; rw [slot_nat A.row A.epoch]; rfl

theorem epoch_jacobian : m.getJacobianMatrix i k = .ok ⟨se.dudrow, se.dudcol, se.dvdrow, se.dvdcol⟩ := by
  unfold getJacobianMatrix; rw [slot_nat A.row A.epoch]; rfl

theorem coadd_jacobian : m.getJacobianMatrix i 0 = .ok ⟨sc.dudrow, sc.dudcol, sc.dvdrow, sc.dvdcol⟩ := by
  unfold getJacobianMatrix; rw [show m.slot (i : Int) 0 = .ok sc from slot_nat (k := 0) A.row A.coadd]; rfl

theorem det_ne : det sc ≠ 0 := by
  obtain ⟨K, _, hK, _⟩ := A.inverse
  exact det_of_inverse hK A.small

theorem cutout_box {t : String} {c : Int} {im : Img ℚ} (ht : t ≠ "psf") (h : m.getCutout i c t = .ok im) :
    0 < o.boxSize ∧ (im.nr : Int) = o.boxSize ∧ (im.nc : Int) = o.boxSize ∧ im.WF := by
  obtain ⟨o', h1, h2, h3, h4, h5⟩ := getCutout_shape ht h
  rw [show m.row (i : Int) = .ok o from pyGet_nat_some A.row] at h1
  injection h1 with h1
  subst h1
  exact ⟨h2, by omega, by omega, h5⟩

/-- **C106** Every pixel of the interpolated seg map has the label of the coadd pixel nearest to a position that is off by at most `slack`. -/
theorem C106_interpolated_labels {seg : Img ℚ} (hs : m.getCutout i 0 "seg" = .ok seg) :
    ∃ im, interpolateCoaddSegF inv m i k = .ok im ∧ im.nr = seg.nr ∧ im.nc = seg.nc ∧ im.WF ∧
      ∀ a b, a < seg.nr → b < seg.nc → ∃ a' b' s, CoaddPixelNear (slack η κ o.boxSize) seg.nr seg.nc k sc se a b a' b' ∧ seg.get? a' b' = some s ∧ im.get? a b = some s := by
  obtain ⟨q1, q2, q3, q5⟩ := cutout_box A (by decide) hs
  unfold interpolateCoaddSegF
  rw [hs]; simp only [Res.ok_bind]
  by_cases hk : k = 0
  · subst hk
    rw [if_pos (by rfl)]
    refine ⟨seg, rfl, rfl, rfl, q5, ?_⟩
    intro a b ha hb
    obtain ⟨s, h⟩ := Img.get?_some_of_WF q5 ha hb
    exact ⟨a, b, s, .inl ⟨rfl, rfl, rfl⟩, h, h⟩
  · rw [if_neg (by omega), epoch_jacobian A]; simp only [Res.ok_bind]
    rw [epoch_centre A]; simp only [Res.ok_bind]
    unfold interpolateImageF
    rw [hs]; simp only [Res.ok_bind]
    rw [coadd_jacobian A]; simp only [Res.ok_bind]
    rw [coadd_centre A]; simp only [Res.ok_bind]
    obtain ⟨K, hinv, hK, hκ⟩ := A.inverse
    rw [hinv]; simp only [Res.ok_bind]
    have hlab := fun p => coaddLabel_nearest q5 (by omega) (by omega) p
    obtain ⟨im, him⟩ := Img.ofFnRes_of_forall (nr := seg.nr) (nc := seg.nc)
      (f := fun i j => coaddLabel seg (toCoaddF K ⟨se.dudrow, se.dudcol, se.dvdrow, se.dvdcol⟩ (sc.cutoutRow, sc.cutoutCol) (se.cutoutRow, se.cutoutCol) i j)) (by
        intro a b _ _
        obtain ⟨_, _, s, _, _, hs⟩ := hlab (toCoaddF K ⟨se.dudrow, se.dudcol, se.dvdrow, se.dvdcol⟩ (sc.cutoutRow, sc.cutoutCol) (se.cutoutRow, se.cutoutCol) a b)
        exact ⟨s, hs⟩)
    obtain ⟨l1, l2, l3, l4⟩ := Img.ofFnRes_ok him
    refine ⟨im, him, l1, l2, l3, ?_⟩
    intro a b ha hb
    obtain ⟨v, hv, hf⟩ := l4 a b ha hb
    obtain ⟨a', b', s, hn, hs', hc⟩ := hlab (toCoaddF K ⟨se.dudrow, se.dudcol, se.dvdrow, se.dvdcol⟩ (sc.cutoutRow, sc.cutoutCol) (se.cutoutRow, se.cutoutCol) a b)
    rw [hc] at hf
    injection hf with hf
    subst hf
    obtain ⟨cj, hcj⟩ := inv_ok (det_ne A)
    have ht := toCoadd_tangent (se := se) hcj a b
    obtain ⟨n1, n2⟩ := toCoaddF_near hK A.small hκ A.centreCoadd A.centreEpoch (a := a) (b := b) (by omega) (by omega) ht
    exact ⟨a', b', s, .inr ⟨hk, _, _, ht, n1, n2, hn⟩, hs', hv⟩

/-- **C106** With errors below half a pixel, an epoch with the jacobian and the centre of the coadd gets the coadd seg map itself. -/
theorem C106_same_geometry (hgeo : ∀ p, tangent se p = tangent sc p) (hsl : slack η κ o.boxSize < 1 / 2) {seg : Img ℚ} (hs : m.getCutout i 0 "seg" = .ok seg) :
    interpolateCoaddSegF inv m i k = .ok seg := by
  obtain ⟨im, h1, h2, h3, h4, h6⟩ := C106_interpolated_labels A hs
  obtain ⟨_, q2, q3, q5⟩ := cutout_box A (by decide) hs
  rw [h1]
  congr 1
  refine Img.ext_get h4 q5 h2 h3 ?_
  intro a b ha hb
  obtain ⟨a', b', s, d1, d2, d3⟩ := h6 a b (by omega) (by omega)
  rw [d3]
  rcases d1 with ⟨_, rfl, rfl⟩ | ⟨_, p, q, hp, g1, g2, n1, n2, n3, n4⟩
  · exact d2.symm
  · rw [hgeo] at hp
    have := tangent_inj (det_ne A) hp
    subst this
    have near : ∀ (x : ℚ) (c c' : Nat), |x - c| ≤ slack η κ o.boxSize → |x - c'| ≤ |x - c| → c' = c := by
      intro x c c' hx hle
      have hlt : |((c' : Int) : ℚ) - (c : Int)| < 1 := by
        have e : ((c' : Int) : ℚ) - (c : Int) = (x - c) - (x - c') := by push_cast; ring
        rw [e]
        refine (abs_sub _ _).trans_lt ?_
        linarith
      rw [← Int.cast_sub, ← Int.cast_abs] at hlt
      have : |(c' : Int) - c| < 1 := by exact_mod_cast hlt
      have := Int.abs_lt_one_iff.mp this
      omega
    have y1 := near q.1 a a' g1 (n3 a (by omega))
    have y2 := near q.2 b b' g2 (n4 b (by omega))
    rw [← d2, y1, y2]

/-- The labels chosen are the same as in exact arithmetic. -/
theorem label_same {cj K : Mat2} {seg : Img ℚ} (hcj : Mat2.inv ⟨sc.dudrow, sc.dudcol, sc.dvdrow, sc.dvdcol⟩ = .ok cj) (hK : InverseUpTo η K sc) (hκ : AtMost κ K se)
    (haway : AwayFromBorders (slack η κ o.boxSize) o.boxSize.toNat sc se) {a b : Nat} (ha : (a : Int) < o.boxSize) (hb : (b : Int) < o.boxSize) :
    coaddLabel seg (toCoaddF K ⟨se.dudrow, se.dudcol, se.dvdrow, se.dvdcol⟩ (sc.cutoutRow, sc.cutoutCol) (se.cutoutRow, se.cutoutCol) a b) =
      coaddLabel seg (toCoadd cj ⟨se.dudrow, se.dudcol, se.dvdrow, se.dvdcol⟩ (sc.cutoutRow, sc.cutoutCol) (se.cutoutRow, se.cutoutCol) a b) := by
  have ht := toCoadd_tangent (se := se) hcj a b
  obtain ⟨n1, n2⟩ := toCoaddF_near hK A.small hκ A.centreCoadd A.centreEpoch ha hb ht
  have hz := haway a b (by omega) (by omega) _ ht
  unfold coaddLabel
  rw [roundHE_stable n1 (fun z => (hz z).1), roundHE_stable n2 (fun z => (hz z).2)]

/-- **C106** When no pixel centre of the epoch falls on a border between coadd pixels, up to `slack`, the interpolated seg map is the one of exact arithmetic. -/
theorem C106_interpolate_same (haway : k = 0 ∨ AwayFromBorders (slack η κ o.boxSize) o.boxSize.toNat sc se) :
    interpolateCoaddSegF inv m i k = m.interpolateCoaddSeg i k := by
  unfold interpolateCoaddSegF interpolateCoaddSeg
  cases hs : m.getCutout i 0 "seg" with
  | error e => rfl
  | ok seg =>
    simp only [Res.ok_bind]
    by_cases hk : k = 0
    · rw [if_pos (by omega), if_pos (by omega)]
    · rw [if_neg (by omega), if_neg (by omega), epoch_jacobian A]; simp only [Res.ok_bind]
      rw [epoch_centre A]; simp only [Res.ok_bind]
      unfold interpolateImageF interpolateImage
      rw [hs]; simp only [Res.ok_bind]
      rw [coadd_jacobian A]; simp only [Res.ok_bind]
      rw [coadd_centre A]; simp only [Res.ok_bind]
      obtain ⟨K, hinv, hK, hκ⟩ := A.inverse
      obtain ⟨cj, hcj⟩ := inv_ok (det_ne A)
      rw [hinv, hcj]; simp only [Res.ok_bind, Option.getD_some]
      obtain ⟨q1, q2, q3, _⟩ := cutout_box A (by decide) hs
      exact ofFnRes_congr (fun a b ha hb => label_same A hcj hK hκ (haway.resolve_left hk) (by omega) (by omega))

theorem makeCompositeF_same (haway : k = 0 ∨ AwayFromBorders (slack η κ o.boxSize) o.boxSize.toNat sc se) {im seg : Img ℚ} (restrict : Bool)
    (h1 : (im.nr : Int) = o.boxSize) (h2 : (im.nc : Int) = o.boxSize) :
    makeCompositeF inv m i k im seg restrict = m.makeComposite i k im seg restrict := by
  unfold makeCompositeF makeComposite
  rw [coadd_centre A]; simp only [Res.ok_bind]
  rw [epoch_centre A]; simp only [Res.ok_bind]
  cases seg.pyGet2 (truncZ sc.cutoutRow) (truncZ sc.cutoutCol) with
  | error e => rfl
  | ok own =>
    simp only [Res.ok_bind]
    by_cases hk : k = 0
    · rw [if_pos (by omega), if_pos (by omega)]
    · rw [if_neg (by omega), if_neg (by omega), epoch_jacobian A]; simp only [Res.ok_bind]
      rw [coadd_jacobian A]; simp only [Res.ok_bind]
      obtain ⟨K, hinv, hK, hκ⟩ := A.inverse
      obtain ⟨cj, hcj⟩ := inv_ok (det_ne A)
      rw [hinv, hcj]
      dsimp only
      rw [ofFnRes_congr (fun a b ha hb => label_same A hcj hK hκ (haway.resolve_left hk) (by omega) (by omega))]

/-- **C106** The same for the coadd-masked weight. -/
theorem C106_cweight_same (haway : k = 0 ∨ AwayFromBorders (slack η κ o.boxSize) o.boxSize.toNat sc se) (restrict : Bool) :
    getCweightCutoutF inv m i k restrict = m.getCweightCutout i k restrict := by
  unfold getCweightCutoutF getCweightCutout
  cases hw : m.getCutout i k "weight" with
  | error e => rfl
  | ok wt =>
    simp only [Res.ok_bind]
    cases hs : m.getCutout i 0 "seg" with
    | error e => rfl
    | ok seg =>
      simp only [Res.ok_bind]
      obtain ⟨q1, q2, q3, _⟩ := cutout_box A (by decide) hw
      exact makeCompositeF_same A haway restrict q2 q3

/-- **C106** The same for the coadd-masked seg map. -/
theorem C106_cseg_same (haway : k = 0 ∨ AwayFromBorders (slack η κ o.boxSize) o.boxSize.toNat sc se) : getCsegCutoutF inv m i k = m.getCsegCutout i k := by
  unfold getCsegCutoutF getCsegCutout
  cases hw : m.getCutout i k "seg" with
  | error e => rfl
  | ok sk =>
    simp only [Res.ok_bind]
    cases hn : m.getNumber i with
    | error e => rfl
    | ok n =>
      simp only [Res.ok_bind]
      cases hs : m.getCutout i 0 "seg" with
      | error e => rfl
      | ok seg =>
        simp only [Res.ok_bind]
        obtain ⟨q1, q2, q3, _⟩ := cutout_box A (by decide) hw
        exact makeCompositeF_same A haway false q2 q3

/-- **C106** The same for the uberseg weight, whichever loop over the pixels is used. -/
theorem C106_uberseg_same (haway : k = 0 ∨ AwayFromBorders (slack η κ o.boxSize) o.boxSize.toNat sc se) (loop : Img ℚ → Img ℚ → Int → Res (Img ℚ)) :
    getUbersegF inv loop m i k = getUbersegWith loop m i k := by
  unfold getUbersegF getUbersegWith
  rw [C106_cweight_same A haway, C106_interpolate_same A haway]

/-- **C106** The pixels of the coadd-masked weight, without any condition on borders: zero where the label at a position off by at most `slack` is foreign, unchanged
elsewhere. -/
theorem C106_cweight_pixels {wt seg : Img ℚ} (hw : m.getCutout i k "weight" = .ok wt) (hs : m.getCutout i 0 "seg" = .ok seg) {own : ℚ}
    (hown : seg.get? ⌊sc.cutoutRow⌋.toNat ⌊sc.cutoutCol⌋.toNat = some own) (restrict : Bool) :
    ∃ cim, getCweightCutoutF inv m i k restrict = .ok cim ∧ cim.nr = wt.nr ∧ cim.nc = wt.nc ∧ cim.WF ∧
      ∀ a b w, wt.get? a b = some w → ∃ a' b' s, CoaddPixelNear (slack η κ o.boxSize) seg.nr seg.nc k sc se a b a' b' ∧ seg.get? a' b' = some s ∧
        cim.get? a b = some (if Foreign restrict own s then 0 else w) := by
  obtain ⟨p2, p3, p4, p5⟩ := cutout_box A (by decide) hw
  obtain ⟨q2, q3, q4, q5⟩ := cutout_box A (by decide) hs
  have e2 : seg.pyGet2 (truncZ sc.cutoutRow) (truncZ sc.cutoutCol) = .ok own := by
    have := Img.pyGet2_nat hown
    rw [Int.toNat_of_nonneg (Int.floor_nonneg.mpr A.centreCoadd.1), Int.toNat_of_nonneg (Int.floor_nonneg.mpr A.centreCoadd.2.2.1)] at this
    unfold truncZ
    rw [if_pos A.centreCoadd.1, if_pos A.centreCoadd.2.2.1]
    exact this
  unfold getCweightCutoutF
  rw [hw]; simp only [Res.ok_bind]
  rw [hs]; simp only [Res.ok_bind]
  unfold makeCompositeF
  rw [coadd_centre A]; simp only [Res.ok_bind]
  rw [epoch_centre A]; simp only [Res.ok_bind]
  rw [e2]; simp only [Res.ok_bind]
  by_cases hk : k = 0
  · subst hk
    rw [if_pos (by rfl)]
    obtain ⟨cim, c1, c2, c3, c4, c5⟩ := maskBy_ok (r := restrict) (own := own) (labels := seg) (im := wt) p5 (by omega) (by omega)
    refine ⟨cim, c1, c2, c3, c4, ?_⟩
    intro a b v hv
    obtain ⟨ha, hb⟩ := Img.get?_lt hv
    obtain ⟨s, hs⟩ := Img.get?_some_of_WF q5 (i := a) (j := b) (by omega) (by omega)
    exact ⟨a, b, s, .inl ⟨rfl, rfl, rfl⟩, hs, c5 a b v s hv hs⟩
  · rw [if_neg (by omega), epoch_jacobian A]; simp only [Res.ok_bind]
    rw [coadd_jacobian A]; simp only [Res.ok_bind]
    obtain ⟨K, hinv, hK, hκ⟩ := A.inverse
    obtain ⟨cj, hcj⟩ := inv_ok (det_ne A)
    rw [hinv]
    dsimp only
    have hlab := fun p => coaddLabel_nearest q5 (by omega) (by omega) p
    obtain ⟨labels, hl⟩ := Img.ofFnRes_of_forall (nr := wt.nr) (nc := wt.nc)
      (f := fun i j => coaddLabel seg (toCoaddF K ⟨se.dudrow, se.dudcol, se.dvdrow, se.dvdcol⟩ (sc.cutoutRow, sc.cutoutCol) (se.cutoutRow, se.cutoutCol) i j)) (by
        intro a b _ _
        obtain ⟨_, _, s, _, _, hs⟩ := hlab (toCoaddF K ⟨se.dudrow, se.dudcol, se.dvdrow, se.dvdcol⟩ (sc.cutoutRow, sc.cutoutCol) (se.cutoutRow, se.cutoutCol) a b)
        exact ⟨s, hs⟩)
    rw [hl]; simp only [Res.ok_bind]
    obtain ⟨l1, l2, l3, l4⟩ := Img.ofFnRes_ok hl
    obtain ⟨cim, c1, c2, c3, c4, c5⟩ := maskBy_ok (r := restrict) (own := own) p5 l1 l2
    refine ⟨cim, c1, c2, c3, c4, ?_⟩
    intro a b v hv
    obtain ⟨ha, hb⟩ := Img.get?_lt hv
    obtain ⟨l, hll, hlf⟩ := l4 a b ha hb
    obtain ⟨a', b', s, hn, hs', hc⟩ := hlab (toCoaddF K ⟨se.dudrow, se.dudcol, se.dvdrow, se.dvdcol⟩ (sc.cutoutRow, sc.cutoutCol) (se.cutoutRow, se.cutoutCol) a b)
    rw [hc] at hlf
    injection hlf with hlf
    subst hlf
    have ht := toCoadd_tangent (se := se) hcj a b
    obtain ⟨n1, n2⟩ := toCoaddF_near hK A.small hκ A.centreCoadd A.centreEpoch (a := a) (b := b) (by omega) (by omega) ht
    exact ⟨a', b', s, .inr ⟨hk, _, _, ht, n1, n2, hn⟩, hs', c5 a b v s hv hll⟩

end

/-- **C106** For a stamp of at most 2048 pixels a side, an epoch pixel of at most 16 coadd pixels and an inverse accurate to `2^-40`, positions are right to a millionth of a pixel. -/
theorem C106_ordinary_slack {n : Int} (hn : n ≤ 2048) (hn0 : 0 ≤ n) (hη : η ≤ 1 / 2 ^ 40) (hκ0 : 0 ≤ κ) (hκ : κ ≤ 16) : slack η κ n < 1 / 10 ^ 6 := by
  unfold slack
  have h1 : (n : ℚ) ≤ 2048 := by exact_mod_cast hn
  have h0 : (0 : ℚ) ≤ n := by exact_mod_cast hn0
  have a1 : 4 * η * κ * n ≤ 4 * (1 / 2 ^ 40) * 16 * 2048 := by gcongr
  have a2 : (κ + 1) * n / 2 ^ 50 ≤ (16 + 1) * 2048 / 2 ^ 50 := by gcongr
  refine lt_of_le_of_lt (add_le_add a1 a2) ?_
  norm_num

/-- **C106** An inverse whose entries have a relative error of at most `δ` is accurate to `δ` times the condition number of the jacobian. -/
theorem C106_inverse_entries {δ c : ℚ} {cj K : Mat2} (hcj : Mat2.inv ⟨sc.dudrow, sc.dudcol, sc.dvdrow, sc.dvdcol⟩ = .ok cj)
    (ha : |K.a - cj.a| ≤ δ * |cj.a|) (hb : |K.b - cj.b| ≤ δ * |cj.b|) (hc : |K.c - cj.c| ≤ δ * |cj.c|) (hd : |K.d - cj.d| ≤ δ * |cj.d|)
    (hcond : AtMost c cj sc) (hδ : 0 ≤ δ) : InverseUpTo (δ * c) K sc := by
  obtain ⟨c1, c2⟩ := hcond
  have hdet : sc.dudrow * sc.dvdcol - sc.dudcol * sc.dvdrow ≠ 0 := by
    intro h
    unfold Mat2.inv at hcj
    dsimp only at hcj
    rw [if_pos h] at hcj
    cases hcj
  unfold Mat2.inv at hcj
  dsimp only at hcj
  rw [if_neg hdet] at hcj
  injection hcj with hcj
  generalize hD : sc.dudrow * sc.dvdcol - sc.dudcol * sc.dvdrow = D at hdet hcj
  have e1 : cj.a * sc.dudrow + cj.b * sc.dvdrow = 1 := by rw [← hcj]; field_simp; rw [← hD]; ring
  have e2 : cj.a * sc.dudcol + cj.b * sc.dvdcol = 0 := by rw [← hcj]; field_simp; ring
  have e3 : cj.c * sc.dudrow + cj.d * sc.dvdrow = 0 := by rw [← hcj]; field_simp; ring
  have e4 : cj.c * sc.dudcol + cj.d * sc.dvdcol = 1 := by rw [← hcj]; field_simp; rw [← hD]; ring
  have key : ∀ x y x' y' p q r : ℚ, |x' - x| ≤ δ * |x| → |y' - y| ≤ δ * |y| → x * p + y * q = r → |x' * p + y' * q - r| ≤ δ * (|x| * |p| + |y| * |q|) := by
    intro x y x' y' p q r h1 h2 h3
    have : x' * p + y' * q - r = (x' - x) * p + (y' - y) * q := by rw [← h3]; ring
    rw [this]
    refine (abs_add_le _ _).trans ?_
    rw [abs_mul, abs_mul]
    have u1 := mul_le_mul_of_nonneg_right h1 (abs_nonneg p)
    have u2 := mul_le_mul_of_nonneg_right h2 (abs_nonneg q)
    linarith
  have nn : ∀ x y : ℚ, 0 ≤ |x| * |y| := fun x y => by positivity
  refine ⟨(key _ _ _ _ _ _ _ ha hb e1).trans ?_, ?_, ?_, (key _ _ _ _ _ _ _ hc hd e4).trans ?_⟩
  · refine mul_le_mul_of_nonneg_left ?_ hδ
    linarith [nn cj.a sc.dudcol, nn cj.b sc.dvdcol]
  · have := (key _ _ _ _ _ _ _ ha hb e2)
    rw [sub_zero] at this
    refine this.trans (mul_le_mul_of_nonneg_left ?_ hδ)
    linarith [nn cj.a sc.dudrow, nn cj.b sc.dvdrow]
  · have := (key _ _ _ _ _ _ _ hc hd e3)
    rw [sub_zero] at this
    refine this.trans (mul_le_mul_of_nonneg_left ?_ hδ)
    linarith [nn cj.c sc.dudcol, nn cj.d sc.dvdcol]
  · refine mul_le_mul_of_nonneg_left ?_ hδ
    linarith [nn cj.c sc.dudrow, nn cj.d sc.dvdrow]

/-- **C106** When the inversion fails, the coadd-masked weight of any other epoch is zero everywhere, and the interpolation reports the failure. -/
theorem C106_inversion_fails (hr : m.cat.rows[i]? = some o) (hsc : o.slots[0]? = some sc) (hse : o.slots[k]? = some se) (hk : k ≠ 0) {e : Err}
    (hinv : inv ⟨sc.dudrow, sc.dudcol, sc.dvdrow, sc.dvdcol⟩ = .error e) {wt seg : Img ℚ} (hw : m.getCutout i k "weight" = .ok wt)
    (hs : m.getCutout i 0 "seg" = .ok seg) {own : ℚ} (hc0 : 0 ≤ sc.cutoutRow) (hc1 : 0 ≤ sc.cutoutCol)
    (hown : seg.get? ⌊sc.cutoutRow⌋.toNat ⌊sc.cutoutCol⌋.toNat = some own) (restrict : Bool) :
    (∃ cim, getCweightCutoutF inv m i k restrict = .ok cim ∧ cim.nr = wt.nr ∧ cim.nc = wt.nc ∧ ∀ v ∈ cim.flat, v = 0) ∧
    interpolateCoaddSegF inv m i k = .error e := by
  have e0 : m.getCutoutRowcol i 0 = .ok (sc.cutoutRow, sc.cutoutCol) := by
    unfold getCutoutRowcol; rw [show m.slot (i : Int) 0 = .ok sc from slot_nat (k := 0) hr hsc]; rfl
  have e1 : m.getCutoutRowcol i k = .ok (se.cutoutRow, se.cutoutCol) := by
    unfold getCutoutRowcol; rw [slot_nat hr hse]; rfl
  have e2 : seg.pyGet2 (truncZ sc.cutoutRow) (truncZ sc.cutoutCol) = .ok own := by
    have := Img.pyGet2_nat hown
    rw [Int.toNat_of_nonneg (Int.floor_nonneg.mpr hc0), Int.toNat_of_nonneg (Int.floor_nonneg.mpr hc1)] at this
    unfold truncZ
    rw [if_pos hc0, if_pos hc1]
    exact this
  have e3 : m.getJacobianMatrix i k = .ok ⟨se.dudrow, se.dudcol, se.dvdrow, se.dvdcol⟩ := by
    unfold getJacobianMatrix; rw [slot_nat hr hse]; rfl
  have e4 : m.getJacobianMatrix i 0 = .ok ⟨sc.dudrow, sc.dudcol, sc.dvdrow, sc.dvdcol⟩ := by
    unfold getJacobianMatrix; rw [show m.slot (i : Int) 0 = .ok sc from slot_nat (k := 0) hr hsc]; rfl
  refine ⟨⟨wt.mapPix (fun _ _ _ => 0), ?_, rfl, rfl, ?_⟩, ?_⟩
  · unfold getCweightCutoutF
    rw [hw]; simp only [Res.ok_bind]
    rw [hs]; simp only [Res.ok_bind]
    unfold makeCompositeF
    rw [e0]; simp only [Res.ok_bind]
    rw [e1]; simp only [Res.ok_bind]
    rw [e2]; simp only [Res.ok_bind]
    rw [if_neg (by omega), e3]; simp only [Res.ok_bind]
    rw [e4]; simp only [Res.ok_bind]
    rw [hinv]
  · intro v hv
    unfold Img.mapPix at hv
    simp only [List.mem_mapIdx] at hv
    obtain ⟨_, _, h⟩ := hv
    exact h.symm
  · unfold interpolateCoaddSegF
    rw [hs]; simp only [Res.ok_bind]
    rw [if_neg (by omega), e3]; simp only [Res.ok_bind]
    rw [e1]; simp only [Res.ok_bind]
    unfold interpolateImageF
    rw [hs]; simp only [Res.ok_bind]
    rw [e4]; simp only [Res.ok_bind]
    rw [e0]; simp only [Res.ok_bind]
    rw [hinv]; rfl

/-! ### Circular masks -/

/-- **C106** `get_cseg_weight` in doubles: pixels of other objects are always zero.  A pixel is kept when it is closer to the centre than every pixel of another object by
more than a relative `2^-48` of the squared distance, and zero when one of them is closer by more than that. -/
theorem C106_circular_mask (hr : m.cat.rows[i]? = some o) (hnum : m.cat.dtype.hasNumber = true) (hse : o.slots[k]? = some se) (canonical : Bool)
    {wt seg : Img ℚ} (hw : m.getCutout i k "weight" = .ok wt) (hs : m.getCutout i k "seg" = .ok seg) {cen : ℚ × ℚ}
    (hcen : cen = if canonical then (((o.boxSize : ℚ) - 1) / 2, ((o.boxSize : ℚ) - 1) / 2) else (se.cutoutRow, se.cutoutCol)) :
    ∃ u, getCsegWeightF m i k canonical = .ok u ∧ u.nr = wt.nr ∧ u.nc = wt.nc ∧
      ((∀ c d l, Labelled seg c d l → l = o.number) → u = wt) ∧
      ∀ a b w, wt.get? a b = some w →
        (u.get? a b = some w ∨ u.get? a b = some 0) ∧
        (∀ l, Labelled seg a b l → l ≠ o.number → u.get? a b = some 0) ∧
        ((∀ c d l, Labelled seg c d l → l ≠ o.number → centreDist2 cen a b * (1 + 1 / 2 ^ 48) < centreDist2 cen c d) → u.get? a b = some w) ∧
        (∀ c d l, Labelled seg c d l → l ≠ o.number → centreDist2 cen c d * (1 + 1 / 2 ^ 48) < centreDist2 cen a b → u.get? a b = some 0) := by
  have hmem : ∀ c d, (c, d) ∈ «where» seg (fun v => decide (v ≠ 0) && decide (v ≠ (o.number : ℚ))) ↔ ∃ l, Labelled seg c d l ∧ l ≠ o.number := by
    intro c d
    rw [mem_where]
    simp [Labelled, and_assoc]
  have cmp : ∀ a b c d, centreDist2 cen a b * (1 + 1 / 2 ^ 48) < centreDist2 cen c d → r2F cen a b < r2F cen c d := by
    intro a b c d h
    have h1 := (abs_le.mp (r2F_error cen a b)).2
    have h2 := (abs_le.mp (r2F_error cen c d)).1
    have e1 : r2 cen a b = centreDist2 cen a b := rfl
    have e2 : r2 cen c d = centreDist2 cen c d := rfl
    rw [e1] at h1
    rw [e2] at h2
    have n1 : 0 ≤ centreDist2 cen a b := by unfold centreDist2; positivity
    have t2 : (centreDist2 cen a b * (1 + 1 / 2 ^ 48)) * (1 - 1 / 2 ^ 50) < centreDist2 cen c d * (1 - 1 / 2 ^ 50) := mul_lt_mul_of_pos_right h (by norm_num)
    have t3 : centreDist2 cen a b * (1 + 1 / 2 ^ 50) ≤ (centreDist2 cen a b * (1 + 1 / 2 ^ 48)) * (1 - 1 / 2 ^ 50) := by
      rw [mul_assoc]
      exact mul_le_mul_of_nonneg_left (by norm_num) n1
    linarith
  unfold getCsegWeightF
  rw [hs]; simp only [Res.ok_bind]
  rw [hw]; simp only [Res.ok_bind]
  unfold numberColumn
  rw [if_pos hnum, show m.row (i : Int) = .ok o from pyGet_nat_some hr]
  simp only [Res.ok_bind]
  cases hl : «where» seg (fun v => decide (v ≠ 0) && decide (v ≠ (o.number : ℚ))) with
  | nil =>
    have hno : ∀ c d l, Labelled seg c d l → l ≠ o.number → False := by
      intro c d l h1 h2
      have := (hmem c d).mpr ⟨l, h1, h2⟩
      rw [hl] at this
      cases this
    refine ⟨wt, rfl, rfl, rfl, fun _ => rfl, ?_⟩
    intro a b w hab
    exact ⟨.inl hab, fun l h1 h2 => (hno _ _ _ h1 h2).elim, fun _ => hab, fun c d l h1 h2 _ => (hno _ _ _ h1 h2).elim⟩
  | cons x xs =>
    have hc : m.csegCentre i k canonical wt = .ok cen := by
      unfold csegCentre
      cases canonical with
      | true =>
        rw [if_pos rfl, hcen, if_pos rfl]
        obtain ⟨o1, p1, p2, p3, p4, p5⟩ := getCutout_shape (by decide) hw
        rw [show m.row (i : Int) = .ok o from pyGet_nat_some hr] at p1
        injection p1 with p1
        subst p1
        have eb : ((o.boxSize.toNat : Nat) : ℚ) = (o.boxSize : ℚ) := by
          have : ((o.boxSize.toNat : Nat) : Int) = o.boxSize := Int.toNat_of_nonneg p2.le
          exact_mod_cast congrArg (Int.cast : Int → ℚ) this
        rw [p3, p4, eb]
      | false =>
        rw [if_neg (by decide), hcen, if_neg (by decide)]
        unfold getCutoutRowcol
        rw [slot_nat hr hse]
        rfl
    dsimp only
    rw [hc]; simp only [Res.ok_bind]
    obtain ⟨m1, m2⟩ := minList_spec (r2F cen x.1 x.2) (xs.map (fun x => r2F cen x.1 x.2))
    rw [← List.map_cons (f := fun x : Nat × Nat => r2F cen x.1 x.2)] at m1 m2
    refine ⟨_, rfl, rfl, rfl, ?_, ?_⟩
    · intro hall
      have hx := (hmem x.1 x.2).mp (by rw [hl]; simp)
      obtain ⟨l, h1, h2⟩ := hx
      exact absurd (hall _ _ _ h1) h2
    · intro a b w hab
      have hle : ∀ c d l, Labelled seg c d l → l ≠ o.number → minList (r2F cen x.1 x.2) (xs.map (fun x => r2F cen x.1 x.2)) ≤ r2F cen c d := by
        intro c d l h1 h2
        have := (hmem c d).mpr ⟨l, h1, h2⟩
        rw [hl] at this
        exact m2 _ (List.mem_map.mpr ⟨(c, d), this, rfl⟩)
      rw [Img.mapPix_get?, hab, Option.map_some]
      refine ⟨?_, ?_, ?_, ?_⟩
      · split
        · exact .inl rfl
        · exact .inr rfl
      · intro l h1 h2
        rw [if_neg (not_lt.mpr (hle _ _ _ h1 h2))]
      · intro hall
        rw [if_pos]
        obtain ⟨y, hy, hy2⟩ := List.mem_map.mp m1
        rw [← hy2]
        obtain ⟨l, h1, h2⟩ := (hmem y.1 y.2).mp (by rw [hl]; exact hy)
        exact cmp _ _ _ _ (hall _ _ _ h1 h2)
      · intro c d l h1 h2 hlt
        rw [if_neg (not_lt.mpr ((hle _ _ _ h1 h2).trans (cmp _ _ _ _ hlt).le))]

/-- Distances from the middle of a stamp are doubles. -/
theorem r2F_canonical {n a b : Nat} (hn : n < 2 ^ 25) (ha : a < n) (hb : b < n) :
    r2F (((n : ℚ) - 1) / 2, ((n : ℚ) - 1) / 2) a b = r2 (((n : ℚ) - 1) / 2, ((n : ℚ) - 1) / 2) a b := by
  have half : ∀ c : Nat, c < n → ∃ t : Int, |t| < 2 ^ 25 ∧ (c : ℚ) - ((n : ℚ) - 1) / 2 = (t : ℚ) * 2 ^ (-1 : Int) := by
    intro c hc
    refine ⟨2 * c - n + 1, ?_, ?_⟩
    · rw [abs_lt]; constructor <;> omega
    · push_cast; rw [zpow_neg_one]; ring
  obtain ⟨s, hs, es⟩ := half a ha
  obtain ⟨t, ht, et⟩ := half b hb
  have sq : ∀ x : Int, |x| < 2 ^ 25 → 0 ≤ x * x ∧ x * x < 2 ^ 50 := by
    intro x hx
    refine ⟨mul_self_nonneg x, ?_⟩
    have : x * x = |x| * |x| := (abs_mul_abs_self x).symm
    rw [this]
    have := abs_nonneg x
    nlinarith
  have s1 := sq s hs
  have t1 := sq t ht
  have q : ∀ z : Int, ((z : ℚ) * 2 ^ (-1 : Int)) * ((z : ℚ) * 2 ^ (-1 : Int)) = ((z * z : Int) : ℚ) * 2 ^ (-2 : Int) := by
    intro z
    push_cast
    rw [show ((2 : ℚ) ^ (-2 : Int)) = 2 ^ (-1 : Int) * 2 ^ (-1 : Int) from by rw [← zpow_add₀ (by norm_num)]; norm_num]
    ring
  have d1 : rndD ((s : ℚ) * 2 ^ (-1 : Int)) = (s : ℚ) * 2 ^ (-1 : Int) := rndD_double ⟨s, -1, by omega, rfl⟩
  have d2 : rndD ((t : ℚ) * 2 ^ (-1 : Int)) = (t : ℚ) * 2 ^ (-1 : Int) := rndD_double ⟨t, -1, by omega, rfl⟩
  have d3 : rndD (((s * s : Int) : ℚ) * 2 ^ (-2 : Int)) = ((s * s : Int) : ℚ) * 2 ^ (-2 : Int) :=
    rndD_double ⟨s * s, -2, by rw [abs_of_nonneg s1.1]; omega, rfl⟩
  have d4 : rndD (((t * t : Int) : ℚ) * 2 ^ (-2 : Int)) = ((t * t : Int) : ℚ) * 2 ^ (-2 : Int) :=
    rndD_double ⟨t * t, -2, by rw [abs_of_nonneg t1.1]; omega, rfl⟩
  have e5 : ((s * s : Int) : ℚ) * 2 ^ (-2 : Int) + ((t * t : Int) : ℚ) * 2 ^ (-2 : Int) = ((s * s + t * t : Int) : ℚ) * 2 ^ (-2 : Int) := by push_cast; ring
  have d5 : rndD (((s * s + t * t : Int) : ℚ) * 2 ^ (-2 : Int)) = ((s * s + t * t : Int) : ℚ) * 2 ^ (-2 : Int) :=
    rndD_double ⟨s * s + t * t, -2, by rw [abs_of_nonneg (by omega)]; omega, rfl⟩
  unfold r2F r2
  dsimp only
  rw [es, et, d1, d2, q, q, d3, d4, e5, d5, ← e5, ← q, ← q]
  ring

/-- **C106** With `use_canonical_cen` nothing is rounded, up to a side of 2^25 pixels. -/
theorem C106_canonical_centre (hr : m.cat.rows[i]? = some o) (hbox : o.boxSize < 2 ^ 25) : getCsegWeightF m i k true = m.getCsegWeight i k true := by
  unfold getCsegWeightF getCsegWeight
  cases hs : m.getCutout i k "seg" with
  | error e => rfl
  | ok seg =>
    simp only [Res.ok_bind]
    cases hw : m.getCutout i k "weight" with
    | error e => rfl
    | ok wt =>
      simp only [Res.ok_bind]
      cases hn : m.numberColumn i with
      | error e => rfl
      | ok number =>
        simp only [Res.ok_bind]
        obtain ⟨o1, p1, p2, p3, p4, p5⟩ := getCutout_shape (by decide) hw
        obtain ⟨o2, q1, q2, q3, q4, q5⟩ := getCutout_shape (by decide) hs
        rw [show m.row (i : Int) = .ok o from pyGet_nat_some hr] at p1 q1
        injection p1 with p1
        injection q1 with q1
        subst p1 q1
        have same : ∀ a b, a < o.boxSize.toNat → b < o.boxSize.toNat → r2F (((o.boxSize.toNat : ℚ) - 1) / 2, ((o.boxSize.toNat : ℚ) - 1) / 2) a b =
            r2 (((o.boxSize.toNat : ℚ) - 1) / 2, ((o.boxSize.toNat : ℚ) - 1) / 2) a b := fun a b ha hb => r2F_canonical (by omega) ha hb
        have hin : ∀ x ∈ «where» seg (fun v => decide (v ≠ 0) && decide (v ≠ (number : ℚ))), x.1 < o.boxSize.toNat ∧ x.2 < o.boxSize.toNat := by
          intro x hx
          obtain ⟨v, hv, _⟩ := mem_where.mp hx
          have := Img.get?_lt hv
          omega
        cases hl : «where» seg (fun v => decide (v ≠ 0) && decide (v ≠ (number : ℚ))) with
        | nil => rfl
        | cons x xs =>
          rw [hl] at hin
          unfold csegCentre
          rw [if_pos rfl]; simp only [Res.ok_bind]
          rw [p3, p4]
          have hmin : minList (r2F (((o.boxSize.toNat : ℚ) - 1) / 2, ((o.boxSize.toNat : ℚ) - 1) / 2) x.1 x.2)
                (xs.map (fun x => r2F (((o.boxSize.toNat : ℚ) - 1) / 2, ((o.boxSize.toNat : ℚ) - 1) / 2) x.1 x.2)) =
              minList (r2 (((o.boxSize.toNat : ℚ) - 1) / 2, ((o.boxSize.toNat : ℚ) - 1) / 2) x.1 x.2)
                (xs.map (fun x => r2 (((o.boxSize.toNat : ℚ) - 1) / 2, ((o.boxSize.toNat : ℚ) - 1) / 2) x.1 x.2)) := by
            rw [same _ _ (hin x (by simp)).1 (hin x (by simp)).2]
            congr 1
            refine List.map_congr_left ?_
            intro y hy
            exact same _ _ (hin y (by simp [hy])).1 (hin y (by simp [hy])).2
          rw [hmin]
          congr 1
          refine Img.ext_get (Img.mapPix_WF p5 _) (Img.mapPix_WF p5 _) rfl rfl ?_
          intro a b ha hb
          rw [Img.mapPix_get?, Img.mapPix_get?, same a b (by rw [← p3]; exact ha) (by rw [← p4]; exact hb)]

/-- Distance to the borders, checked at one border only. -/
theorem away_of_floor {x ε : ℚ} (h : ε < |x - ⌊x⌋ - 1 / 2|) (z : Int) : ε < |x - (z + 1 / 2)| := by
  have a := Int.floor_le x
  have b := Int.lt_floor_add_one x
  have hle : |x - ⌊x⌋ - 1 / 2| ≤ 1 / 2 := by rw [abs_le]; constructor <;> linarith
  rcases lt_trichotomy z ⌊x⌋ with hz | hz | hz
  · have : (z : ℚ) + 1 ≤ ⌊x⌋ := by exact_mod_cast hz
    have e : 1 / 2 ≤ |x - (z + 1 / 2)| := le_trans (by linarith) (le_abs_self _)
    linarith
  · subst hz
    rwa [← sub_sub]
  · have : (⌊x⌋ : ℚ) + 1 ≤ z := by exact_mod_cast hz
    have e : 1 / 2 ≤ |x - (z + 1 / 2)| := le_trans (by linarith) (neg_le_abs _)
    linarith

/-! ### Examples -/

/-- A matrix inversion with relative errors of about `10^-15`. -/
def Ex.lapack (j : Mat2) : Res Mat2 := do
  let c ← Mat2.inv j
  .ok ⟨c.a * (1 + 1 / 2 ^ 50), c.b * (1 - 1 / 2 ^ 50), c.c, c.d * (1 - 1 / 2 ^ 51)⟩

/-- The file of the example, with the object of the first row a quarter of a pixel off in its second cutout. -/
def Ex.segOff : MEDS :=
  { Meds.Ex.segMed with cat := { Meds.Ex.segMed.cat with rows := Meds.Ex.segMed.cat.rows.map (fun o =>
      { o with slots := o.slots.mapIdx (fun k s => if k = 1 then { s with cutoutCol := 5 / 4 } else s) }) } }

def Ex.segRow : ObjRow := (Ex.segOff.cat.rows[0]?).get (by decide +kernel)
def Ex.segCoadd : Slot := (Ex.segRow.slots[0]?).get (by decide +kernel)
def Ex.segEpoch : Slot := (Ex.segRow.slots[1]?).get (by decide +kernel)
def Ex.segInverse : Mat2 := ((Ex.lapack ⟨Ex.segCoadd.dudrow, Ex.segCoadd.dudcol, Ex.segCoadd.dvdrow, Ex.segCoadd.dvdcol⟩).toOption).get (by decide +kernel)

theorem Ex.accurate : Accurate Ex.lapack Ex.segOff 0 1 Ex.segRow Ex.segCoadd Ex.segEpoch (1 / 2 ^ 48) 3 where
  row := by decide +kernel
  coadd := by decide +kernel
  epoch := by decide +kernel
  inverse := ⟨Ex.segInverse, by decide +kernel, by unfold InverseUpTo; decide +kernel, by unfold AtMost; decide +kernel⟩
  small := by decide +kernel
  centreCoadd := by unfold CentreIn; decide +kernel
  centreEpoch := by unfold CentreIn; decide +kernel

theorem Ex.away : AwayFromBorders (slack (1 / 2 ^ 48) 3 Ex.segRow.boxSize) Ex.segRow.boxSize.toNat Ex.segCoadd Ex.segEpoch := by
  intro a b ha hb p hp z
  obtain ⟨cj, hcj⟩ := inv_ok (show det Ex.segCoadd ≠ 0 by decide +kernel)
  have ht := toCoadd_tangent (se := Ex.segEpoch) hcj a b
  rw [← hp] at ht
  have := tangent_inj (by decide +kernel) ht
  have hc : cj = ((Mat2.inv ⟨Ex.segCoadd.dudrow, Ex.segCoadd.dudcol, Ex.segCoadd.dvdrow, Ex.segCoadd.dvdcol⟩).toOption).get (by decide +kernel) := by
    simp [hcj, Except.toOption]
  rw [← this, hc]
  have h4 : Ex.segRow.boxSize.toNat = 4 := by decide +kernel
  rw [h4] at ha hb
  have check : ∀ a : Fin 4, ∀ b : Fin 4, slack (1 / 2 ^ 48) 3 Ex.segRow.boxSize <
      |(toCoadd (((Mat2.inv ⟨Ex.segCoadd.dudrow, Ex.segCoadd.dudcol, Ex.segCoadd.dvdrow, Ex.segCoadd.dvdcol⟩).toOption).get (by decide +kernel))
        ⟨Ex.segEpoch.dudrow, Ex.segEpoch.dudcol, Ex.segEpoch.dvdrow, Ex.segEpoch.dvdcol⟩ (Ex.segCoadd.cutoutRow, Ex.segCoadd.cutoutCol)
        (Ex.segEpoch.cutoutRow, Ex.segEpoch.cutoutCol) a b).1 - ⌊(toCoadd (((Mat2.inv ⟨Ex.segCoadd.dudrow, Ex.segCoadd.dudcol, Ex.segCoadd.dvdrow, Ex.segCoadd.dvdcol⟩).toOption).get (by decide +kernel))
        ⟨Ex.segEpoch.dudrow, Ex.segEpoch.dudcol, Ex.segEpoch.dvdrow, Ex.segEpoch.dvdcol⟩ (Ex.segCoadd.cutoutRow, Ex.segCoadd.cutoutCol)
        (Ex.segEpoch.cutoutRow, Ex.segEpoch.cutoutCol) a b).1⌋ - 1 / 2| ∧ slack (1 / 2 ^ 48) 3 Ex.segRow.boxSize <
      |(toCoadd (((Mat2.inv ⟨Ex.segCoadd.dudrow, Ex.segCoadd.dudcol, Ex.segCoadd.dvdrow, Ex.segCoadd.dvdcol⟩).toOption).get (by decide +kernel))
        ⟨Ex.segEpoch.dudrow, Ex.segEpoch.dudcol, Ex.segEpoch.dvdrow, Ex.segEpoch.dvdcol⟩ (Ex.segCoadd.cutoutRow, Ex.segCoadd.cutoutCol)
        (Ex.segEpoch.cutoutRow, Ex.segEpoch.cutoutCol) a b).2 - ⌊(toCoadd (((Mat2.inv ⟨Ex.segCoadd.dudrow, Ex.segCoadd.dudcol, Ex.segCoadd.dvdrow, Ex.segCoadd.dvdcol⟩).toOption).get (by decide +kernel))
        ⟨Ex.segEpoch.dudrow, Ex.segEpoch.dudcol, Ex.segEpoch.dvdrow, Ex.segEpoch.dvdcol⟩ (Ex.segCoadd.cutoutRow, Ex.segCoadd.cutoutCol)
        (Ex.segEpoch.cutoutRow, Ex.segEpoch.cutoutCol) a b).2⌋ - 1 / 2| := by decide +kernel
  obtain ⟨c1, c2⟩ := check ⟨a, ha⟩ ⟨b, hb⟩
  exact ⟨away_of_floor c1 z, away_of_floor c2 z⟩

example : interpolateCoaddSegF Ex.lapack Ex.segOff 0 1 = .ok ⟨4, 4, [11, 11, 12, 12, 11, 11, 12, 12, 0, 0, 0, 0, 0, 0, 0, 0]⟩ :=
  (C106_interpolate_same Ex.accurate (.inr Ex.away)).trans (by decide +kernel)

example : getCweightCutoutF Ex.lapack Ex.segOff 0 1 false = .ok ⟨4, 4, [4, 0, 0, 0, 0, 0, 0, 0, 0, 4, 4, 0, 4, 4, 0, 0]⟩ :=
  (C106_cweight_same Ex.accurate (.inr Ex.away) false).trans (by decide +kernel)

/-- The file of the example with the geometry of the coadd in both cutouts of the first object. -/
def Ex.segSame : MEDS :=
  { Meds.Ex.segMed with cat := { Meds.Ex.segMed.cat with rows := Meds.Ex.segMed.cat.rows.map (fun o =>
      { o with slots := o.slots.mapIdx (fun k s => if k = 1 then
          { s with cutoutRow := 1, cutoutCol := 1, dudrow := 3 / 10, dudcol := 1, dvdrow := 1, dvdcol := 3 / 10 } else s) }) } }

def Ex.sameRow : ObjRow := (Ex.segSame.cat.rows[0]?).get (by decide +kernel)
def Ex.sameEpoch : Slot := (Ex.sameRow.slots[1]?).get (by decide +kernel)

theorem Ex.accurateSame : Accurate Ex.lapack Ex.segSame 0 1 Ex.sameRow Ex.segCoadd Ex.sameEpoch (1 / 2 ^ 48) 3 where
  row := by decide +kernel
  coadd := by decide +kernel
  epoch := by decide +kernel
  inverse := ⟨Ex.segInverse, by decide +kernel, by unfold InverseUpTo; decide +kernel, by unfold AtMost; decide +kernel⟩
  small := by decide +kernel
  centreCoadd := by unfold CentreIn; decide +kernel
  centreEpoch := by unfold CentreIn; decide +kernel

example : interpolateCoaddSegF Ex.lapack Ex.segSame 0 1 = .ok ⟨4, 4, [11, 11, 12, 12, 11, 11, 12, 12, 0, 0, 0, 0, 0, 0, 0, 0]⟩ := by
  refine C106_same_geometry Ex.accurateSame ?_ (by decide +kernel) (by decide +kernel)
  intro p
  have h : (Ex.sameEpoch.cutoutRow, Ex.sameEpoch.cutoutCol, Ex.sameEpoch.dudrow, Ex.sameEpoch.dudcol, Ex.sameEpoch.dvdrow, Ex.sameEpoch.dvdcol) =
      (Ex.segCoadd.cutoutRow, Ex.segCoadd.cutoutCol, Ex.segCoadd.dudrow, Ex.segCoadd.dudcol, Ex.segCoadd.dvdrow, Ex.segCoadd.dvdcol) := by decide +kernel
  simp only [Prod.mk.injEq] at h
  obtain ⟨h1, h2, h3, h4, h5, h6⟩ := h
  unfold tangent
  rw [h1, h2, h3, h4, h5, h6]

example : getCsegWeightF Meds.Ex.segMed 0 1 true = Meds.Ex.segMed.getCsegWeight 0 1 true :=
  C106_canonical_centre (o := (Meds.Ex.segMed.cat.rows[0]?).get (by decide +kernel)) (by decide +kernel) (by decide +kernel)

/-- On a border the label depends on the rounding: a pixel centre exactly between columns 1 and 2 belongs to column 2 in exact arithmetic, to column 1 when the inverse
is too small by `2^-50`. -/
theorem C106_border_depends : coaddLabel ⟨1, 3, [7, 8, 9]⟩ (toCoadd ⟨1, 0, 0, 1⟩ ⟨1, 0, 0, 1⟩ (0, 1) (0, 3 / 2) 0 2) = .ok 9 ∧
    coaddLabel ⟨1, 3, [7, 8, 9]⟩ (toCoaddF ⟨1, 0, 0, 1 - 1 / 2 ^ 50⟩ ⟨1, 0, 0, 1⟩ (0, 1) (0, 3 / 2) 0 2) = .ok 8 := by
  refine ⟨by decide +kernel, ?_⟩
  have d0 : rndD 0 = 0 := rndD_double ⟨0, 0, by decide, by norm_num⟩
  have d1 : rndD (1 / 2) = 1 / 2 := rndD_double ⟨1, -1, by decide, by norm_num⟩
  have d1' : rndD 1 = 1 := rndD_double ⟨1, 0, by decide, by norm_num⟩
  have d2 : rndD (1 / 2 * (1 - 1 / 2 ^ 50)) = 1 / 2 * (1 - 1 / 2 ^ 50) := rndD_double ⟨2 ^ 50 - 1, -51, by decide, by norm_num⟩
  have d3 : rndD (1 + 1 / 2 * (1 - 1 / 2 ^ 50)) = 1 + 1 / 2 * (1 - 1 / 2 ^ 50) := rndD_double ⟨2 ^ 51 + 2 ^ 50 - 1, -51, by decide, by norm_num⟩
  have e : toCoaddF ⟨1, 0, 0, 1 - 1 / 2 ^ 50⟩ ⟨1, 0, 0, 1⟩ (0, 1) (0, 3 / 2) 0 2 = (0, 1 + 1 / 2 * (1 - 1 / 2 ^ 50)) := by
    have c : ((2 : Nat) : ℚ) - 3 / 2 = 1 / 2 := by norm_num
    have c' : ((0 : Nat) : ℚ) - 0 = 0 := by norm_num
    unfold toCoaddF
    dsimp only
    rw [c, c']
    simp only [d0, d1, d1', mul_one, mul_zero, add_zero, zero_add, d2, d3]
  rw [e]
  decide +kernel

end MEDS
end Meds
