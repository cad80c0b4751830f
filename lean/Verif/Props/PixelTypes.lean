import Verif.Lemmas.PixelTypes
import Verif.Props.Completion
import Verif.Props.Photometry

/-!
# Pixels in single and double precision, and integer images (C100)
-/

namespace Meds
open Spec Maker

/-- `a` is `b` up to a relative error of `e`. -/
def Spec.Near (e a b : ℚ) : Prop := |a - b| ≤ e * |b|

/-- The unit of rounding of a type of floats. -/
def Spec.unit (k : PixType) : ℚ := if k = .f8 then 1 / 2 ^ 53 else 1 / 2 ^ 24

/-- Is it a type of floats? -/
def Spec.IsFloat (k : PixType) : Prop := k = .f4 ∨ k = .f8

theorem isInt_iff (k : PixType) : k.isInt = false ↔ IsFloat k := by
  cases k <;> simp [PixType.isInt, IsFloat]

theorem unit_bits (k : PixType) : (1 : ℚ) / 2 ^ k.bits = unit k := by
  cases k <;> simp [PixType.bits, unit]

theorem unit_small (k : PixType) : unit k ≤ 1 / 2 ^ 24 ∧ 0 < unit k := by
  unfold unit
  split <;> norm_num

theorem pow_unit {b w : Nat} (h : b ≤ w) : (1 : ℚ) / 2 ^ w ≤ 1 / 2 ^ b :=
  one_div_le_one_div_of_le (by positivity) (pow_le_pow_right₀ (by norm_num) h)

theorem one_near_mul {a b x y : ℚ} (ha : |a - 1| ≤ x) (hb : |b - 1| ≤ y) : |a * b - 1| ≤ x + y + x * y := by
  have h : a * b - 1 = (a - 1) + (b - 1) + (a - 1) * (b - 1) := by ring
  rw [h]
  refine le_trans (abs_add_le _ _) ?_
  refine add_le_add (le_trans (abs_add_le _ _) (add_le_add ha hb)) ?_
  rw [abs_mul]
  exact mul_le_mul ha hb (abs_nonneg _) (le_trans (abs_nonneg _) ha)

theorem one_near_inv {a x : ℚ} (ha : |a - 1| ≤ x) (hx : x ≤ 1 / 2) : |1 / a - 1| ≤ 2 * x := by
  have h1 := (abs_le.mp ha).1
  have hp : 1 / 2 ≤ a := by linarith
  have h : 1 / a - 1 = -(a - 1) / a := by field_simp; ring
  rw [h, abs_div, abs_neg, div_le_iff₀ (abs_pos.mpr (by linarith)), abs_of_pos (show 0 < a by linarith)]
  nlinarith [abs_nonneg (a - 1)]

theorem near_of_factor {a b c e : ℚ} (h : a = b * c) (hc : |c - 1| ≤ e) : Near e a b := by
  unfold Near
  rw [h, show b * c - b = (c - 1) * b by ring, abs_mul]
  exact mul_le_mul_of_nonneg_right hc (abs_nonneg _)

theorem factor_of_near {a b e : ℚ} (he : 0 ≤ e) (h : Near e a b) : ∃ c, a = b * c ∧ |c - 1| ≤ e := by
  unfold Near at h
  by_cases hb : b = 0
  · subst hb
    rw [sub_zero, abs_zero, mul_zero] at h
    have := abs_eq_zero.mp (le_antisymm h (abs_nonneg _))
    exact ⟨1, by rw [this, zero_mul], by rw [sub_self, abs_zero]; exact he⟩
  · refine ⟨a / b, by field_simp, ?_⟩
    rw [show a / b - 1 = (a - b) / b by field_simp, abs_div, div_le_iff₀ (abs_pos.mpr hb)]
    exact h

theorem near_mono {a b e e' : ℚ} (h : Near e a b) (he : e ≤ e') : Near e' a b :=
  le_trans h (mul_le_mul_of_nonneg_right he (abs_nonneg _))

theorem rndP_near (p : Nat) (q : ℚ) : ∃ c : ℚ, |c - 1| ≤ 1 / 2 ^ p ∧ rndP p q = q * c := by
  obtain ⟨d, h1, h2⟩ := rndP_factor p q
  exact ⟨1 + d, by rwa [add_sub_cancel_left], h2⟩

/-- Two roundings and a product. -/
theorem image_near {k : PixType} {w : Nat} (hw : k.bits ≤ w) (v s : ℚ) : Near (4 * unit k) (rndP k.bits (rndP k.bits (rndP w v) * s)) (v * s) := by
  obtain ⟨c1, h1, e1⟩ := rndP_near w v
  obtain ⟨c2, h2, e2⟩ := rndP_near k.bits (rndP w v)
  obtain ⟨c3, h3, e3⟩ := rndP_near k.bits (rndP k.bits (rndP w v) * s)
  obtain ⟨u1, u2⟩ := unit_small k
  have h1 := le_trans h1 (pow_unit hw)
  rw [unit_bits] at h1 h2 h3
  refine near_of_factor (c := c1 * c2 * c3) (by rw [e3, e2, e1]; ring) ?_
  have := one_near_mul (one_near_mul h1 h2) h3
  refine le_trans this ?_
  nlinarith

theorem product_near {k : PixType} (v s : ℚ) : Near (4 * unit k) (rndP k.bits (v * s)) (v * s) := by
  obtain ⟨c3, h3, e3⟩ := rndP_near k.bits (v * s)
  obtain ⟨u1, u2⟩ := unit_small k
  rw [unit_bits] at h3
  exact near_of_factor e3 (by linarith)

theorem mul_self_small {u : ℚ} (hu : u ≤ 1 / 2 ^ 24) (h0 : 0 < u) : u * u ≤ u / 100 := by
  have : u ≤ 1 / 100 := le_trans hu (by norm_num)
  nlinarith

/-- The unit of rounding of a weight: that of the worse of the weight image and the factor `1 / scale²`. -/
def Spec.weightUnit (env : PixEnv) : ℚ := max (unit (env.kind "weight")) (1 / 2 ^ env.factorBits)

theorem weightFactor_near {env : PixEnv} (hb : 24 ≤ env.factorBits) (s : ℚ) :
    ∃ c : ℚ, weightFactor env s = 1 / s ^ 2 * c ∧ |c - 1| ≤ 9 / 2 * weightUnit env := by
  obtain ⟨c1, h1, e1⟩ := rndP_near env.factorBits (s ^ 2)
  obtain ⟨c2, h2, e2⟩ := rndP_near env.factorBits (1 / rndP env.factorBits (s ^ 2))
  obtain ⟨c3, h3, e3⟩ := rndP_near (env.kind "weight").bits (rndP env.factorBits (1 / rndP env.factorBits (s ^ 2)))
  have hu : weightUnit env ≤ 1 / 2 ^ 24 := max_le (unit_small _).1 (pow_unit hb)
  have hu0 : 0 < weightUnit env := lt_of_lt_of_le (unit_small _).2 (le_max_left _ _)
  have hf : (1 : ℚ) / 2 ^ env.factorBits ≤ weightUnit env := le_max_right _ _
  have hk : unit (env.kind "weight") ≤ weightUnit env := le_max_left _ _
  rw [unit_bits] at h3
  have h1 := one_near_inv (le_trans h1 hf) (by linarith [show (1 : ℚ) / 2 ^ 24 ≤ 1 / 2 by norm_num])
  refine ⟨1 / c1 * c2 * c3, ?_, ?_⟩
  · unfold weightFactor
    rw [e3, e2, e1]
    rw [show (1 : ℚ) / (s ^ 2 * c1) = 1 / s ^ 2 * (1 / c1) by rw [one_div_mul_one_div]]
    ring
  · refine le_trans (one_near_mul (one_near_mul h1 (le_trans h2 hf)) (le_trans h3 hk)) ?_
    have q1 := mul_self_small hu hu0
    have q2 : weightUnit env * weightUnit env * weightUnit env ≤ weightUnit env / 100 := by nlinarith
    nlinarith

theorem weight_near {env : PixEnv} (hb : 24 ≤ env.factorBits) (v s : ℚ) :
    Near (6 * weightUnit env) (rndP (env.kind "weight").bits (v * weightFactor env s)) (v * (1 / s ^ 2)) := by
  obtain ⟨c, e, h⟩ := weightFactor_near hb s
  obtain ⟨c3, h3, e3⟩ := rndP_near (env.kind "weight").bits (v * weightFactor env s)
  have hu : weightUnit env ≤ 1 / 2 ^ 24 := max_le (unit_small _).1 (pow_unit hb)
  have hu0 : 0 < weightUnit env := lt_of_lt_of_le (unit_small _).2 (le_max_left _ _)
  have hk : unit (env.kind "weight") ≤ weightUnit env := le_max_left _ _
  rw [unit_bits] at h3
  refine near_of_factor (c := c * c3) (by rw [e3, e]; ring) ?_
  refine le_trans (one_near_mul h (le_trans h3 hk)) ?_
  nlinarith

/-- Near pixel by pixel. -/
def Spec.ImgNear (e : ℚ) (z y : Img ℚ) : Prop :=
  z.nr = y.nr ∧ z.nc = y.nc ∧ ∀ i j v, y.get? i j = some v → ∃ a, z.get? i j = some a ∧ Near e a v

theorem imgNear_map {e : ℚ} {x : Img ℚ} {f g : ℚ → ℚ} (h : ∀ v, Near e (f v) (g v)) : ImgNear e (x.map f) (x.map g) := by
  refine ⟨rfl, rfl, fun i j v hv => ?_⟩
  rw [Img.map_get?] at hv ⊢
  obtain ⟨w, hw, rfl⟩ := Option.map_eq_some_iff.mp hv
  exact ⟨f w, by rw [hw]; rfl, h w⟩

/-- The relative error allowed for a type of plane. -/
def Spec.tolerance (env : PixEnv) (t : String) : ℚ :=
  if t = "image" then 4 * unit (env.kind "image") else if t = "weight" then 6 * weightUnit env else 0

theorem near_self {e : ℚ} (he : 0 ≤ e) (v : ℚ) : Near e v v := by
  unfold Near
  rw [sub_self, abs_zero]
  exact mul_nonneg he (abs_nonneg _)

theorem workBits_ge {k kb : PixType} (h : k.isInt = false) : k.bits ≤ workBits k kb := by
  cases k <;> cases kb <;> simp [PixType.isInt, PixType.bits, workBits] at *

theorem readF_ok {cfg : MakerCfg} {env : PixEnv} {im : SrcImage} {t : String} {r : Option (Img ℚ)} (hb : 24 ≤ env.factorBits)
    (h : readImageF cfg env im t = .ok r) :
    ((t = "image" ∨ t = "weight") → IsFloat (env.kind t)) ∧
      ((r = none ∧ readImage cfg im t = .ok none) ∨
        ∃ z y, r = some z ∧ readImage cfg im t = .ok (some y) ∧ ImgNear (tolerance env t) z y) := by
  unfold readImageF at h
  obtain ⟨raw, e1, h⟩ := Res.bind_eq_ok.mp h
  by_cases h1 : t = "image"
  · subst h1
    rw [if_pos rfl] at h
    obtain ⟨bkg, e2, h⟩ := Res.bind_eq_ok.mp h
    cases raw with
    | none => cases h
    | some x =>
      obtain ⟨y, e3, h⟩ := Res.bind_eq_ok.mp h
      obtain ⟨hf, rfl⟩ := scaleF_ok h
      refine ⟨fun _ => (isInt_iff _).mp hf, .inr ?_⟩
      unfold readImage
      rw [e1, Res.ok_bind, if_pos rfl, e2]
      simp only [Res.ok_bind]
      unfold tolerance
      rw [if_pos rfl]
      cases bkg with
      | none =>
        dsimp only at e3 ⊢
        injection e3 with e3
        subst e3
        exact ⟨_, _, rfl, rfl, imgNear_map (fun v => product_near v _)⟩
      | some b =>
        dsimp only at e3 ⊢
        unfold subBkgF at e3
        rw [if_neg (by rw [hf]; decide)] at e3
        obtain ⟨y0, e4, e3⟩ := Res.bind_eq_ok.mp e3
        injection e3 with e3
        subst e3
        rw [e4, img_map_map]
        exact ⟨_, _, rfl, rfl, imgNear_map (fun v => image_near (workBits_ge hf) v _)⟩
  · by_cases h2 : t = "weight"
    · subst h2
      rw [if_neg (by decide), if_pos rfl] at h
      unfold readImage
      rw [e1, Res.ok_bind, if_neg (by decide), if_pos rfl]
      rw [show tolerance env "weight" = 6 * weightUnit env by unfold tolerance; rw [if_neg (by decide), if_pos rfl]]
      split at h
      · cases h
      · rename_i hm
        rw [if_neg hm]
        cases hu : cfg.unusableBmask with
        | none =>
          rw [hu] at h
          dsimp only at h ⊢
          cases raw with
          | none => cases h
          | some x =>
            obtain ⟨hf, rfl⟩ := scaleF_ok h
            exact ⟨fun _ => (isInt_iff _).mp hf, .inr ⟨_, _, rfl, rfl, imgNear_map (fun v => weight_near hb v _)⟩⟩
        | some flags =>
          rw [hu] at h
          dsimp only at h ⊢
          obtain ⟨bm, e2, h⟩ := Res.bind_eq_ok.mp h
          rw [e2]
          simp only [Res.ok_bind]
          cases raw with
          | none => cases h
          | some x =>
            obtain ⟨y, e3, h⟩ := Res.bind_eq_ok.mp h
            obtain ⟨hf, rfl⟩ := scaleF_ok h
            cases bm <;>
            · dsimp only at e3 ⊢
              rw [e3]
              exact ⟨fun _ => (isInt_iff _).mp hf, .inr ⟨_, _, rfl, rfl, imgNear_map (fun v => weight_near hb v _)⟩⟩
    · rw [if_neg h1, if_neg h2] at h
      refine ⟨fun ht => absurd ht (by tauto), ?_⟩
      unfold readImage
      rw [e1, Res.ok_bind, if_neg h1, if_neg h2]
      injection h with h
      subst h
      cases raw with
      | none => exact .inl ⟨rfl, rfl⟩
      | some x =>
        refine .inr ⟨x, x, rfl, rfl, rfl, rfl, fun i j v hv => ⟨v, hv, near_self ?_ v⟩⟩
        unfold tolerance
        rw [if_neg h1, if_neg h2]

theorem scaleF_float {k : PixType} (hk : k.isInt = false) (x : ℚ) (y : Img ℚ) : scaleF k x y = .ok (some (y.map (fun v => rndP k.bits (v * x)))) := by
  unfold scaleF
  rw [if_neg (by rw [hk]; decide)]

theorem scaleF_int {k : PixType} (hk : k.isInt = true) (x : ℚ) (y : Img ℚ) : scaleF k x y = .error .typeError := by
  unfold scaleF
  rw [if_pos hk]

theorem readF_total {cfg : MakerCfg} {env : PixEnv} {im : SrcImage} {t : String} {y : Option (Img ℚ)} (h : readImage cfg im t = .ok y)
    (hf : (t = "image" ∨ t = "weight") → IsFloat (env.kind t)) : ∃ r, readImageF cfg env im t = .ok r := by
  unfold readImage at h
  obtain ⟨raw, e1, h⟩ := Res.bind_eq_ok.mp h
  unfold readImageF
  rw [e1, Res.ok_bind]
  by_cases h1 : t = "image"
  · subst h1
    have hk := (isInt_iff _).mpr (hf (.inl rfl))
    rw [if_pos rfl] at h ⊢
    obtain ⟨bkg, e2, h⟩ := Res.bind_eq_ok.mp h
    rw [e2]
    simp only [Res.ok_bind]
    cases raw with
    | none => cases h
    | some x =>
      obtain ⟨y, e3, h⟩ := Res.bind_eq_ok.mp h
      dsimp only
      simp only [scaleF_float hk]
      cases bkg with
      | none => exact ⟨_, rfl⟩
      | some b =>
        dsimp only at e3 ⊢
        unfold subBkgF
        rw [if_neg (by rw [hk]; decide), e3]
        exact ⟨_, rfl⟩
  · by_cases h2 : t = "weight"
    · subst h2
      have hk := (isInt_iff _).mpr (hf (.inr rfl))
      rw [if_neg (by decide), if_pos rfl] at h ⊢
      simp only [scaleF_float hk]
      split at h
      · cases h
      · rename_i hm
        rw [if_neg hm]
        cases hu : cfg.unusableBmask with
        | none =>
          rw [hu] at h
          dsimp only at h ⊢
          cases raw with
          | none => cases h
          | some x => exact ⟨_, rfl⟩
        | some flags =>
          rw [hu] at h
          dsimp only at h ⊢
          obtain ⟨bm, e2, h⟩ := Res.bind_eq_ok.mp h
          rw [e2]
          simp only [Res.ok_bind]
          cases raw with
          | none => cases h
          | some x =>
            obtain ⟨y, e3, h⟩ := Res.bind_eq_ok.mp h
            cases bm <;>
            · dsimp only at e3 ⊢
              rw [e3]
              exact ⟨_, rfl⟩
    · rw [if_neg h1, if_neg h2]
      exact ⟨_, rfl⟩

theorem readWeight_WF {cfg : MakerCfg} {im : SrcImage} {y : Img ℚ} (h : readImage cfg im "weight" = .ok (some y))
    (hwf : ∀ t p, im.plane t = some (some p) → p.WF) : y.WF := by
  unfold readImage at h
  obtain ⟨raw, e1, h⟩ := Res.bind_eq_ok.mp h
  rw [if_neg (by decide), if_pos rfl] at h
  have hraw : ∀ x, raw = some x → x.WF := by
    intro x hx
    subst hx
    unfold readOneImage at e1
    split at e1
    · cases e1
    · rename_i r hr
      injection e1 with e1
      subst e1
      exact hwf _ _ hr
  split at h
  · cases h
  · split at h
    · split at h
      · cases h
      · injection h with h
        injection h with h
        subst h
        exact Img.map_WF (hraw _ rfl) _
    · obtain ⟨bm, _, h⟩ := Res.bind_eq_ok.mp h
      split at h
      · cases h
      · obtain ⟨y0, e3, h⟩ := Res.bind_eq_ok.mp h
        injection h with h
        injection h with h
        subst h
        apply Img.map_WF
        split at e3
        · unfold zeroWhereBad at e3
          split at e3
          · cases e3
          · injection e3 with e3
            rw [← e3]
            exact Img.ofFn_WF ..
        · injection e3 with e3
          subst e3
          exact hraw _ rfl

/-- **C100** An integer image (or weight) that the exact program would read is refused with a TypeError. -/
theorem C100_integer_refused {cfg : MakerCfg} {env : PixEnv} {im : SrcImage} {t : String} {y : Option (Img ℚ)} (h : readImage cfg im t = .ok y)
    (ht : t = "image" ∨ t = "weight") (hf : ¬ IsFloat (env.kind t)) : readImageF cfg env im t = .error .typeError := by
  have hk : (env.kind t).isInt = true := by
    cases h : (env.kind t).isInt
    · exact absurd ((isInt_iff _).mp h) hf
    · rfl
  unfold readImage at h
  obtain ⟨raw, e1, h⟩ := Res.bind_eq_ok.mp h
  unfold readImageF
  rw [e1, Res.ok_bind]
  rcases ht with rfl | rfl
  · rw [if_pos rfl] at h ⊢
    obtain ⟨bkg, e2, h⟩ := Res.bind_eq_ok.mp h
    rw [e2]
    simp only [Res.ok_bind]
    cases raw with
    | none => cases h
    | some x =>
      obtain ⟨y, e3, h⟩ := Res.bind_eq_ok.mp h
      dsimp only
      simp only [scaleF_int hk]
      cases bkg with
      | none => rfl
      | some b =>
        dsimp only at e3 ⊢
        unfold subBkgF
        rw [if_pos hk]
        split
        · rw [e3]; rfl
        · rfl
  · rw [if_neg (by decide), if_pos rfl] at h ⊢
    simp only [scaleF_int hk]
    split at h
    · cases h
    · rename_i hm
      rw [if_neg hm]
      cases hu : cfg.unusableBmask with
      | none =>
        rw [hu] at h
        dsimp only at h ⊢
        cases raw with
        | none => cases h
        | some x => rfl
      | some flags =>
        rw [hu] at h
        dsimp only at h ⊢
        obtain ⟨bm, e2, h⟩ := Res.bind_eq_ok.mp h
        rw [e2]
        simp only [Res.ok_bind]
        cases raw with
        | none => cases h
        | some x =>
          obtain ⟨y, e3, h⟩ := Res.bind_eq_ok.mp h
          cases bm <;>
          · dsimp only at e3 ⊢
            rw [e3]
            rfl

/-- **C100** The processed image in single or double precision is `(raw - background) * scale` up to four units of rounding, pixel by pixel. -/
theorem C100_image {cfg : MakerCfg} {env : PixEnv} {im : SrcImage} {z : Img ℚ} (hb : 24 ≤ env.factorBits) (h : readImageF cfg env im "image" = .ok (some z))
    (hwf : ∀ t p, im.plane t = some (some p) → p.WF) :
    IsFloat (env.kind "image") ∧
    ∃ raw bkg, im.plane "image" = some (some raw) ∧ im.plane "bkg" = some bkg ∧ z.nr = raw.nr ∧ z.nc = raw.nc ∧
      ∀ i j v, raw.get? i j = some v → ∃ a, z.get? i j = some a ∧ Near (4 * unit (env.kind "image")) a ((v - bkgAt bkg i j) * im.info.scale) := by
  obtain ⟨hf, h⟩ := readF_ok hb h
  refine ⟨hf (.inl rfl), ?_⟩
  rcases h with ⟨h, _⟩ | ⟨z', y, h, hy, n1, n2, n3⟩
  · cases h
  · injection h with h
    subst h
    obtain ⟨raw, bkg, g1, g2, g3, g4, g5⟩ := C10_image_scaled hy hwf
    exact ⟨raw, bkg, g1, g2, n1.trans g3, n2.trans g4, fun i j v hv => n3 i j _ (g5 i j v hv)⟩

/-- **C100** The processed weight is `raw / scale²` up to six units of rounding, and exactly zero where the mask shares a bit with the configured flags. -/
theorem C100_weight {cfg : MakerCfg} {env : PixEnv} {im : SrcImage} {z : Img ℚ} (hb : 24 ≤ env.factorBits) (h : readImageF cfg env im "weight" = .ok (some z))
    (hwf : ∀ t p, im.plane t = some (some p) → p.WF) :
    IsFloat (env.kind "weight") ∧
    ∃ raw, im.plane "weight" = some (some raw) ∧ z.nr = raw.nr ∧ z.nc = raw.nc ∧
      ∀ i j v, raw.get? i j = some v → ∃ a, z.get? i j = some a ∧
        (cfg.unusableBmask = none → Near (6 * weightUnit env) a (v / im.info.scale ^ 2)) ∧
        (∀ flags, cfg.unusableBmask = some flags →
          (im.plane "bmask" = some none → Near (6 * weightUnit env) a (v / im.info.scale ^ 2)) ∧
          (∀ bm, im.plane "bmask" = some (some bm) → ∀ b : Int, bm.get? i j = some (b : ℚ) →
            (SharesBit b flags → a = 0) ∧ (¬ SharesBit b flags → Near (6 * weightUnit env) a (v / im.info.scale ^ 2))) ∧
          (∀ bm, im.plane "bmask" = some (some bm) → bm.get? i j = none → Near (6 * weightUnit env) a (v / im.info.scale ^ 2))) := by
  obtain ⟨hf, h⟩ := readF_ok hb h
  refine ⟨hf (.inr rfl), ?_⟩
  rcases h with ⟨h, _⟩ | ⟨z', y, h, hy, n1, n2, n3⟩
  · cases h
  · injection h with h
    subst h
    obtain ⟨raw, g1, g3, g4, g5⟩ := C10_weight_scaled hy hwf
    refine ⟨raw, g1, n1.trans g3, n2.trans g4, fun i j v hv => ?_⟩
    obtain ⟨k1, k2⟩ := g5 i j v hv
    have hy' : y.WF := readWeight_WF hy hwf
    obtain ⟨hi, hj⟩ := Img.get?_lt hv
    obtain ⟨w, hw⟩ := Img.get?_some_of_WF hy' (i := i) (j := j) (by rw [g3]; exact hi) (by rw [g4]; exact hj)
    obtain ⟨a, ha, hn⟩ := n3 i j w hw
    have key : ∀ q, y.get? i j = some q → Near (6 * weightUnit env) a q := by
      intro q hq
      rw [hw] at hq
      injection hq with hq
      rw [← hq]
      exact hn
    refine ⟨a, ha, fun hu => key _ (k1 hu), fun flags hu => ?_⟩
    obtain ⟨q1, q2, q3⟩ := k2 flags hu
    refine ⟨fun hm => key _ (q1 hm), fun bm hm b hbm => ⟨fun hs => ?_, fun hs => key _ ((q2 bm hm b hbm).2 hs)⟩, fun bm hm hbm => key _ (q3 bm hm hbm)⟩
    have := key _ ((q2 bm hm b hbm).1 hs)
    unfold Near at this
    rw [sub_zero, abs_zero, mul_zero] at this
    exact abs_eq_zero.mp (le_antisymm this (abs_nonneg _))

/-- **C100** At a good pixel `image² · weight` is `(raw - background)² · rawweight` up to 16 units of single precision, whatever the (non-zero) scale. -/
theorem C100_signal_to_noise {cfg : MakerCfg} {env : PixEnv} {im : SrcImage} {y w : Img ℚ} (hb : 24 ≤ env.factorBits)
    (hy : readImageF cfg env im "image" = .ok (some y)) (hw : readImageF cfg env im "weight" = .ok (some w))
    (hwf : ∀ t p, im.plane t = some (some p) → p.WF) (hscale : im.info.scale ≠ 0) :
    ∃ raw bkg wraw, im.plane "image" = some (some raw) ∧ im.plane "bkg" = some bkg ∧ im.plane "weight" = some (some wraw) ∧
      ∀ i j v u, raw.get? i j = some v → wraw.get? i j = some u →
        (∀ flags, cfg.unusableBmask = some flags → im.plane "bmask" = some none ∨
          ∃ bm b, im.plane "bmask" = some (some bm) ∧ bm.get? i j = some ((b : Int) : ℚ) ∧ ¬ SharesBit b flags) →
        ∃ a b, y.get? i j = some a ∧ w.get? i j = some b ∧
        Near (16 / 2 ^ 24) (a ^ 2 * b) ((v - bkgAt bkg i j) ^ 2 * u) := by
  obtain ⟨_, raw, bkg, h1, h2, _, _, h3⟩ := C100_image hb hy hwf
  obtain ⟨_, wraw, g1, _, _, g2⟩ := C100_weight hb hw hwf
  refine ⟨raw, bkg, wraw, h1, h2, g1, ?_⟩
  intro i j v u hv hu hgood
  obtain ⟨a, ha, hna⟩ := h3 i j v hv
  obtain ⟨b, hbb, k0, k1⟩ := g2 i j u hu
  have hnb : Near (6 * weightUnit env) b (u / im.info.scale ^ 2) := by
    cases hf : cfg.unusableBmask with
    | none => exact k0 hf
    | some flags =>
      obtain ⟨q1, q2, _⟩ := k1 flags hf
      rcases hgood flags hf with h | ⟨bm, x, e1, e2, e3⟩
      · exact q1 h
      · exact (q2 bm e1 x e2).2 e3
  refine ⟨a, b, ha, hbb, ?_⟩
  have hna := near_mono hna (show 4 * unit (env.kind "image") ≤ 4 / 2 ^ 24 by have := (unit_small (env.kind "image")).1; linarith)
  have hnb := near_mono hnb (show 6 * weightUnit env ≤ 6 / 2 ^ 24 by
    have : weightUnit env ≤ 1 / 2 ^ 24 := max_le (unit_small _).1 (pow_unit hb)
    linarith)
  obtain ⟨c, ec, hc⟩ := factor_of_near (by norm_num) hna
  obtain ⟨d, ed, hd⟩ := factor_of_near (by norm_num) hnb
  refine near_of_factor (c := c * c * d) ?_ (le_trans (one_near_mul (one_near_mul hc hc) hd) (by norm_num))
  rw [ec, ed]
  field_simp

/-- The same sky coordinates and the same information about the image. -/
def Spec.frame (im : SrcImage) : Wcs × InfoRow := (im.wcs, im.info)

theorem frame_get {images images' : List SrcImage} (h : images'.map frame = images.map frame) (j : Nat) :
    (images'[j]? = none ∧ images[j]? = none) ∨
      ∃ im im', images'[j]? = some im' ∧ images[j]? = some im ∧ im'.wcs = im.wcs ∧ im'.info = im.info := by
  have := congrArg (fun l => l[j]?) h
  simp only [List.getElem?_map] at this
  cases h1 : images'[j]? <;> cases h2 : images[j]? <;> rw [h1, h2] at this
  · exact .inl ⟨rfl, rfl⟩
  · cases this
  · cases this
  · rename_i im' im
    simp only [Option.map_some, Option.some.injEq, frame, Prod.mk.injEq] at this
    exact .inr ⟨im, im', rfl, rfl, this.1, this.2⟩

theorem covers_frame {cfg : MakerCfg} {i : Nat} {im im' : SrcImage} (h1 : im'.wcs = im.wcs) (h2 : im'.info = im.info) (sky : SkyPos) :
    Covers cfg i im' sky ↔ Covers cfg i im sky := by
  unfold Covers rowIn colIn
  rw [h1, h2]

theorem kept_frame {cfg : MakerCfg} {images images' : List SrcImage} (h : images'.map frame = images.map frame) (sky : SkyPos) :
    kept cfg images' sky = kept cfg images sky := by
  unfold kept
  cases images' <;> cases images
  · rfl
  · cases h
  · cases h
  · simp only [List.map_cons, List.cons.injEq, frame, Prod.mk.injEq] at h
    dsimp only
    simp only [covers_frame h.1.1 h.1.2]

theorem covering_frame {cfg : MakerCfg} {images images' : List SrcImage} (h : images'.map frame = images.map frame) (sky : SkyPos) :
    coveringImages cfg images' sky = coveringImages cfg images sky := by
  unfold coveringImages
  have hl : images'.length = images.length := by simpa using congrArg List.length h
  rw [hl]
  apply List.filter_congr
  intro j _
  rcases frame_get h j with ⟨h1, h2⟩ | ⟨im, im', h1, h2, h3, h4⟩
  · rw [h1, h2]
  · rw [h1, h2]
    dsimp only
    simp only [covers_frame h3 h4]

theorem writable_transfer {cfg : MakerCfg} {objs : List InputObj} {images images' : List SrcImage} {psf : Option (List PsfModel)}
    (hs : images'.map frame = images.map frame) (hr : ∀ t, t = "image" ∨ t ∈ cfg.cutoutTypes → ∀ im ∈ images', Readable cfg im t)
    (hp : ∀ (j : Nat) (im im' : SrcImage), images[j]? = some im → images'[j]? = some im' → ∀ t ∈ supportedTypes, ∀ raw, im'.plane t = some (some raw) →
      documentedFill t ≠ none ∨ ∃ raw', im.plane t = some (some raw')) (w : Writable cfg objs images psf) : Writable cfg objs images' psf where
  types := w.types
  psfCount := fun ps h => by
    rw [w.psfCount ps h]
    simpa using (congrArg List.length hs).symm
  nonempty := by
    obtain ⟨a, h1, h2⟩ := w.nonempty
    exact ⟨a, h1, by rw [kept_frame hs]; exact h2⟩
  forced := fun h1 h2 im' rest' h => by
    subst h
    cases images with
    | nil => cases hs
    | cons im rest =>
      obtain ⟨a, g1, g2, g3⟩ := w.forced h1 h2 im rest rfl
      refine ⟨a, g1, by rw [kept_frame hs]; exact g2, ?_⟩
      simp only [List.map_cons, List.cons.injEq, frame, Prod.mk.injEq] at hs
      exact (covers_frame hs.1.1 hs.1.2 _).mpr g3
  inCoadd := fun h1 h2 im' rest' h a ha hk => by
    subst h
    cases images with
    | nil => cases hs
    | cons im rest =>
      rw [kept_frame hs] at hk
      simp only [List.map_cons, List.cons.injEq, frame, Prod.mk.injEq] at hs
      exact (covers_frame hs.1.1 hs.1.2 _).mpr (w.inCoadd h1 h2 im rest rfl a ha hk)
  room := fun a ha hk => by
    rw [kept_frame hs] at hk
    rw [covering_frame hs, show images'.length = images.length by simpa using congrArg List.length hs]
    exact w.room a ha hk
  planes := hr
  boxes := fun a ha hk hc => by
    rw [kept_frame hs] at hk
    rw [covering_frame hs] at hc
    exact w.boxes a ha hk hc
  fills := fun a ha hk j hj im' him' t ht raw hraw => by
    rw [kept_frame hs] at hk
    rw [covering_frame hs] at hj
    rcases frame_get hs j with ⟨h1, h2⟩ | ⟨im, im2, h1, h2, h3, h4⟩
    · rw [h1] at him'; cases him'
    · rw [h1] at him'; injection him' with him'; subst him'
      rcases hp j im im2 h2 h1 t (w.types t ht) raw hraw with h | ⟨raw', h⟩
      · exact h
      · exact w.fills a ha hk j hj im h2 t ht raw' h
  psfShapes := fun ps hps a ha hk j hj im' p him' hpj shape hsh => by
    rw [kept_frame hs] at hk
    rw [covering_frame hs] at hj
    rcases frame_get hs j with ⟨h1, h2⟩ | ⟨im, im2, h1, h2, h3, h4⟩
    · rw [h1] at him'; cases him'
    · rw [h1] at him'; injection him' with him'; subst him'
      have := w.psfShapes ps hps a ha hk j hj im p h2 hpj shape hsh
      unfold rowIn colIn at this ⊢
      rw [h3, h4]
      exact this

theorem round_frame (cfg : MakerCfg) (kinds : Nat → PixEnv) (images : List SrcImage) : (roundAll cfg kinds images).map frame = images.map frame := by
  apply List.ext_getElem?
  intro k
  rw [List.getElem?_map, roundAll_getElem?, List.getElem?_map, Option.map_map]
  rfl

theorem round_plane {cfg : MakerCfg} {kind : PixEnv} {im : SrcImage} {t : String} (ht : t ∈ supportedTypes) :
    documentedFill t ≠ none ∨ (roundImage cfg kind im).plane t = im.plane t := by
  unfold supportedTypes at ht
  by_cases h1 : t = "image"
  · left; subst h1; decide
  · by_cases h2 : t = "weight"
    · left; subst h2; decide
    · right
      have h3 : t ≠ "bkg" := by rintro rfl; revert ht; decide
      unfold roundImage
      dsimp only
      rw [if_neg h1, if_neg h2, if_neg h3]

theorem init_round {cfg : MakerCfg} {hn : Bool} {objs : List InputObj} {images : List SrcImage} {psf : Option (List PsfModel)}
    {psfInfo : Option String} {md : String} {mk : Maker} (kinds : Nat → PixEnv) (hi : Maker.init cfg hn objs images psf psfInfo md = .ok mk) :
    Maker.init cfg hn objs (roundAll cfg kinds images) psf psfInfo md = .ok { mk with images := roundAll mk.cfg kinds mk.images } := by
  unfold Maker.init at hi ⊢
  obtain ⟨types, h1, hi⟩ := Res.bind_eq_ok.mp hi
  rw [h1, Res.ok_bind, roundAll_length]
  split at hi
  · cases hi
  · rename_i hp
    rw [if_neg hp]
    injection hi with hi
    subst hi
    rfl

theorem types_no_bkg {cfg : MakerCfg} {hn : Bool} {objs : List InputObj} {images : List SrcImage} {psf : Option (List PsfModel)}
    {psfInfo : Option String} {md : String} {mk : Maker} (hi : Maker.init cfg hn objs images psf psfInfo md = .ok mk) : "bkg" ∉ mk.types := by
  intro h
  have := (setCutoutTypes_ok (init_ok hi).2.2.2.2.2.1).2 _ h
  revert this
  decide

/-- **C100** A write in single and double precision gives exactly the file that the exact program would write for some other images with the same coordinates
and information; their pixels, processed, are the processed pixels of the images up to rounding. -/
theorem C100_file_of_near_images {cfg : MakerCfg} {hn : Bool} {objs : List InputObj} {images : List SrcImage} {psf : Option (List PsfModel)}
    {psfInfo : Option String} {md : String} {mk mk' : Maker} {f : Fits} {kinds : Nat → PixEnv} (hb : ∀ j, 24 ≤ (kinds j).factorBits)
    (hi : Maker.init cfg hn objs images psf psfInfo md = .ok mk) (hw : mk.writeF kinds = .ok (mk', f)) :
    ∃ images' mk₁ mk₁', images'.map frame = images.map frame ∧ Maker.init cfg hn objs images' psf psfInfo md = .ok mk₁ ∧ mk₁.write = .ok (mk₁', f) ∧
      ∀ (j : Nat) (im im' : SrcImage), images[j]? = some im → images'[j]? = some im' → ∀ t, t = "image" ∨ t ∈ cfg.cutoutTypes →
        (readImage cfg im' t = .ok none ∧ readImage cfg im t = .ok none) ∨
          ∃ z y, readImage cfg im' t = .ok (some z) ∧ readImage cfg im t = .ok (some y) ∧ ImgNear (tolerance (kinds j) t) z y := by
  have hbk := types_no_bkg hi
  obtain ⟨_, hr, hw⟩ := (writeF_iff hbk).mp hw
  obtain ⟨e1, e2, _, _, _, e6, _⟩ := init_ok hi
  have hi' := init_round kinds hi
  refine ⟨roundAll cfg kinds images, _, _, round_frame .., hi', hw, ?_⟩
  intro j im im' hj hj' t ht
  have htm : t ∈ mk.types := (mem_types e6 t).mpr ht
  rw [roundAll_getElem?, hj] at hj'
  injection hj' with hj'
  subst hj'
  obtain ⟨r, hr⟩ := hr t htm j im (by rw [e2]; exact hj)
  rw [e1] at hr
  have h1 := read_round (fun h => hbk (h ▸ htm)) hr
  obtain ⟨_, h2⟩ := readF_ok (hb j) hr
  rcases h2 with ⟨h2, h3⟩ | ⟨z, y, h2, h3, h4⟩
  · subst h2; exact .inl ⟨h1, h3⟩
  · subst h2; exact .inr ⟨z, y, h1, h3, h4⟩

/-- **C100** Exactly the inputs with which a write completes in the types of the images: those of the exact program, with images of floats, and weights of
floats if weights are requested. -/
theorem C100_completes_iff {cfg : MakerCfg} {objs : List InputObj} {images : List SrcImage} {psf : Option (List PsfModel)} {kinds : Nat → PixEnv}
    (hb : ∀ j, 24 ≤ (kinds j).factorBits) (hwf : ∀ ps, psf = some ps → ∀ p ∈ ps, ∀ sky r c, (p.getRec sky r c).WF) (hn : Bool) (psfInfo : Option String)
    (md : String) :
    (∃ mk mk' f, Maker.init cfg hn objs images psf psfInfo md = .ok mk ∧ mk.writeF kinds = .ok (mk', f)) ↔
      Writable cfg objs images psf ∧ ∀ j < images.length, IsFloat ((kinds j).kind "image") ∧
        ("weight" ∈ cfg.cutoutTypes → IsFloat ((kinds j).kind "weight")) := by
  constructor
  · rintro ⟨mk, mk', f, hi, hw⟩
    have hbk := types_no_bkg hi
    obtain ⟨_, hr, hw⟩ := (writeF_iff hbk).mp hw
    obtain ⟨e1, e2, _, _, _, e6, _⟩ := init_ok hi
    have hW : Writable cfg objs (roundAll cfg kinds images) psf := (C15_completes_iff hwf hn psfInfo md).mp ⟨_, _, f, init_round kinds hi, hw⟩
    have hread : ∀ t, t = "image" ∨ t ∈ cfg.cutoutTypes → ∀ j im, images[j]? = some im → ∃ r, readImageF cfg (kinds j) im t = .ok r := by
      intro t ht j im hj
      have := hr t ((mem_types e6 t).mpr ht) j im (by rw [e2]; exact hj)
      rwa [e1] at this
    refine ⟨writable_transfer (round_frame ..).symm ?_ ?_ hW, ?_⟩
    · intro t ht im him
      obtain ⟨j, hj⟩ := List.mem_iff_getElem?.mp him
      obtain ⟨r, h⟩ := hread t ht j im hj
      apply (C10_read_iff cfg im t).mp
      rcases (readF_ok (hb j) h).2 with ⟨_, h⟩ | ⟨_, _, _, h, _⟩ <;> exact ⟨_, h⟩
    · intro j im' im hj' hj t ht raw hraw
      rw [roundAll_getElem?, hj] at hj'
      injection hj' with hj'
      subst hj'
      rcases round_plane (cfg := cfg) (kind := kinds j) (im := im) ht with h | h
      · exact .inl h
      · exact .inr ⟨raw, by rw [h]; exact hraw⟩
    · intro j hj
      have hg : images[j]? = some images[j] := List.getElem?_eq_getElem hj
      obtain ⟨r, h⟩ := hread "image" (.inl rfl) j _ hg
      refine ⟨(readF_ok (hb j) h).1 (.inl rfl), fun hwt => ?_⟩
      obtain ⟨r, h⟩ := hread "weight" (.inr hwt) j _ hg
      exact (readF_ok (hb j) h).1 (.inr rfl)
  · rintro ⟨w, hf⟩
    obtain ⟨mk, mk0, f0, hi, hw⟩ := (C15_completes_iff hwf hn psfInfo md).mpr w
    have hbk := types_no_bkg hi
    obtain ⟨e1, e2, _, _, _, e6, _⟩ := init_ok hi
    have hread : ∀ t, t = "image" ∨ t ∈ cfg.cutoutTypes → ∀ j im, images[j]? = some im → ∃ r, readImageF cfg (kinds j) im t = .ok r := by
      intro t ht j im hj
      obtain ⟨y, hy⟩ := (C10_read_iff cfg im t).mpr (w.planes t ht im (List.mem_of_getElem? hj))
      obtain ⟨f1, f2⟩ := hf j (List.getElem?_eq_some_iff.mp hj).1
      refine readF_total hy ?_
      rintro (rfl | rfl)
      · exact f1
      · exact f2 (ht.resolve_left (by decide))
    have hW : Writable cfg objs (roundAll cfg kinds images) psf := by
      refine writable_transfer (round_frame ..) ?_ ?_ w
      · intro t ht im' him
        obtain ⟨j, hj'⟩ := List.mem_iff_getElem?.mp him
        rw [roundAll_getElem?] at hj'
        obtain ⟨im, hj, rfl⟩ := Option.map_eq_some_iff.mp hj'
        obtain ⟨r, h⟩ := hread t ht j im hj
        exact (C10_read_iff cfg _ t).mp ⟨r, read_round (fun h => hbk (h ▸ (mem_types e6 t).mpr ht)) h⟩
      · intro j im im' hj hj' t ht raw hraw
        rw [roundAll_getElem?, hj] at hj'
        injection hj' with hj'
        subst hj'
        rcases round_plane (cfg := cfg) (kind := kinds j) (im := im) ht with h | h
        · exact .inl h
        · exact .inr ⟨raw, by rw [← h]; exact hraw⟩
    obtain ⟨mk1, mk1', f, hi1, hw1⟩ := (C15_completes_iff hwf hn psfInfo md).mpr hW
    rw [init_round kinds hi] at hi1
    injection hi1 with hi1
    subst hi1
    refine ⟨mk, { mk1' with images := mk.images }, f, hi, (writeF_iff hbk).mpr ⟨rfl, ?_, ?_⟩⟩
    · intro t ht j im hj
      rw [e1]
      exact hread t ((mem_types e6 t).mp ht) j im (by rw [← e2]; exact hj)
    · have : mk1'.images = roundAll mk.cfg kinds mk.images := (buildLayout_keeps (write_ok hw1).1).2.2
      rw [hw1, ← this]

/-- **C100** In a file written in single or double precision the stored image pixel inside the source is the cast of a number that is
`(raw - background) * scale` up to four units of rounding.  Partial: a write with integer images does not complete (`C100_counterexample`). -/
theorem C100_stored_image_partial {cfg : MakerCfg} {hn : Bool} {objs : List InputObj} {images : List SrcImage} {psf : Option (List PsfModel)}
    {psfInfo : Option String} {md : String} {mk mk' : Maker} {f : Fits} {m : MEDS} {kinds : Nat → PixEnv} (hb : ∀ j, 24 ≤ (kinds j).factorBits)
    (hi : Maker.init cfg hn objs images psf psfInfo md = .ok mk) (hw : mk.writeF kinds = .ok (mk', f))
    (ho : MEDS.openFile f = .ok m) {i k : Nat} {o : ObjRow} {s : Slot} (he : Epoch m.cat.rows i k o s) (hbox : 0 < o.boxSize)
    {j : Nat} {im : SrcImage} (hj : s.fileId = (j : Int)) (him : images[j]? = some im)
    (hwf : ∀ t p, im.plane t = some (some p) → p.WF) :
    ∃ c raw bkg, m.getCutout i k "image" = .ok c ∧ im.plane "image" = some (some raw) ∧ im.plane "bkg" = some bkg ∧
      ∀ r q a b : Nat, (r : Int) < o.boxSize → (q : Int) < o.boxSize → s.origStartRow + r = (a : Int) → s.origStartCol + q = (b : Int) →
        ∀ v, raw.get? a b = some v → ∃ x, c.get? r q = some (cfg.cast "image" x) ∧
          Near (4 * unit ((kinds j).kind "image")) x ((v - bkgAt bkg a b) * im.info.scale) := by
  obtain ⟨images', mk₁, mk₁', hs, hi', hw', hnear⟩ := C100_file_of_near_images hb hi hw
  obtain ⟨j', im', c, h1, h2, h3, _, _, _, _, h7, _⟩ := C01_cutouts_read_back hi' hw' ho he hbox (t := "image") (.inl rfl)
  have hjj : j' = j := by omega
  subst hjj
  rcases hnear j' im im' him h2 "image" (.inl rfl) with ⟨_, h⟩ | ⟨z, y, hz, hy, n1, n2, n3⟩
  · exfalso
    obtain ⟨hR, hne⟩ := readable_of_readImage h
    unfold Readable at hR
    rw [if_pos rfl] at hR
    obtain ⟨raw, _, hraw, _⟩ := hR
    exact hne.mpr ⟨raw, hraw⟩ rfl
  · obtain ⟨raw, bkg, g1, g2, _, _, g5⟩ := C10_image_scaled hy hwf
    obtain ⟨fill, _, hp⟩ := h7 z hz
    refine ⟨c, raw, bkg, h3, g1, g2, ?_⟩
    intro r q a b hr hq ha hb' v hv
    obtain ⟨x, hx, hnx⟩ := n3 a b _ (g5 a b v hv)
    refine ⟨x, ?_, hnx⟩
    rw [hp r q hr hq]
    unfold cutoutPixel pixelAt
    rw [ha, hb', if_pos ⟨by omega, by omega⟩]
    simp only [Int.toNat_natCast]
    rw [hx]

/-- **C100** The stored weight inside the source: the cast of a number that is `raw / scale²` up to six units of rounding, and of exactly zero where the mask shares a bit
with the configured flags; without a weight image all are zero.  Partial: as above. -/
theorem C100_stored_weight_partial {cfg : MakerCfg} {hn : Bool} {objs : List InputObj} {images : List SrcImage} {psf : Option (List PsfModel)}
    {psfInfo : Option String} {md : String} {mk mk' : Maker} {f : Fits} {m : MEDS} {kinds : Nat → PixEnv} (hb : ∀ j, 24 ≤ (kinds j).factorBits)
    (hi : Maker.init cfg hn objs images psf psfInfo md = .ok mk) (hw : mk.writeF kinds = .ok (mk', f))
    (ho : MEDS.openFile f = .ok m) {i k : Nat} {o : ObjRow} {s : Slot} (he : Epoch m.cat.rows i k o s) (hbox : 0 < o.boxSize)
    {j : Nat} {im : SrcImage} (hj : s.fileId = (j : Int)) (him : images[j]? = some im)
    (hwf : ∀ t p, im.plane t = some (some p) → p.WF) (hty : "weight" ∈ cfg.cutoutTypes) :
    ∃ c, m.getCutout i k "weight" = .ok c ∧
      (im.plane "weight" = some none → ∀ r q : Nat, (r : Int) < o.boxSize → (q : Int) < o.boxSize → c.get? r q = some 0) ∧
      ∀ raw, im.plane "weight" = some (some raw) →
      ∀ r q a b : Nat, (r : Int) < o.boxSize → (q : Int) < o.boxSize → s.origStartRow + r = (a : Int) → s.origStartCol + q = (b : Int) →
        ∀ v, raw.get? a b = some v → ∃ x, c.get? r q = some (cfg.cast "weight" x) ∧
          (cfg.unusableBmask = none → Near (6 * weightUnit (kinds j)) x (v / im.info.scale ^ 2)) ∧
          (∀ flags, cfg.unusableBmask = some flags →
            (im.plane "bmask" = some none → Near (6 * weightUnit (kinds j)) x (v / im.info.scale ^ 2)) ∧
            (∀ bm, im.plane "bmask" = some (some bm) → ∀ p : Int, bm.get? a b = some (p : ℚ) →
              (SharesBit p flags → x = 0) ∧ (¬ SharesBit p flags → Near (6 * weightUnit (kinds j)) x (v / im.info.scale ^ 2)))) := by
  obtain ⟨images', mk₁, mk₁', hs, hi', hw', hnear⟩ := C100_file_of_near_images hb hi hw
  obtain ⟨j', im', c, h1, h2, h3, _, _, _, _, h7, h8⟩ := C01_cutouts_read_back hi' hw' ho he hbox (t := "weight") (.inr hty)
  have hjj : j' = j := by omega
  subst hjj
  refine ⟨c, h3, ?_⟩
  rcases hnear j' im im' him h2 "weight" (.inr hty) with ⟨g1, g2⟩ | ⟨z, y, hz, hy, n1, n2, n3⟩
  · refine ⟨fun _ => h8 g1, fun raw hraw => ?_⟩
    exact absurd rfl ((readable_of_readImage g2).2.mpr ⟨raw, hraw⟩)
  · obtain ⟨raw, g1, g3, g4, g5⟩ := C10_weight_scaled hy hwf
    obtain ⟨fill, _, hp⟩ := h7 z hz
    refine ⟨fun h => absurd (g1.symm.trans h) (by simp), fun raw' hraw' => ?_⟩
    rw [g1] at hraw'
    injection hraw' with hraw'
    injection hraw' with hraw'
    subst hraw'
    intro r q a b hr hq ha hb' v hv
    obtain ⟨k1, k2⟩ := g5 a b v hv
    have hy' : y.WF := readWeight_WF hy hwf
    obtain ⟨la, lb⟩ := Img.get?_lt hv
    obtain ⟨w, hw⟩ := Img.get?_some_of_WF hy' (i := a) (j := b) (by rw [g3]; exact la) (by rw [g4]; exact lb)
    obtain ⟨x, hx, hnx⟩ := n3 a b w hw
    have key : ∀ u, y.get? a b = some u → Near (6 * weightUnit (kinds j')) x u := by
      intro u hu
      rw [hw] at hu
      injection hu with hu
      rw [← hu]
      exact hnx
    refine ⟨x, ?_, fun hu => key _ (k1 hu), fun flags hu => ?_⟩
    · rw [hp r q hr hq]
      unfold cutoutPixel pixelAt
      rw [ha, hb', if_pos ⟨by omega, by omega⟩]
      simp only [Int.toNat_natCast]
      rw [hx]
    · obtain ⟨q1, q2, q3⟩ := k2 flags hu
      refine ⟨fun hm => key _ (q1 hm), fun bm hm b hbm => ⟨fun hs => ?_, fun hs => key _ ((q2 bm hm b hbm).2 hs)⟩⟩
      have := key _ ((q2 bm hm b hbm).1 hs)
      unfold Near at this
      rw [sub_zero, abs_zero, mul_zero] at this
      exact abs_eq_zero.mp (le_antisymm this (abs_nonneg _))

/-- Images of 16-bit integers. -/
def Ex.intKinds : Nat → PixEnv := fun _ => ⟨fun _ => .i2, 24⟩

/-- Images in single, weights in double precision. -/
def Ex.floatKinds : Nat → PixEnv := fun _ => ⟨fun t => if t = "weight" then .f8 else .f4, 24⟩

theorem Ex.psfs_WF : ∀ ps, some Ex.psfs = some ps → ∀ p ∈ ps, ∀ sky r c, (p.getRec sky r c).WF := by
  intro ps h p hp sky r c
  injection h with h
  subst h
  simp only [Ex.psfs, List.mem_cons, List.not_mem_nil, or_false] at hp
  rcases hp with rfl | rfl | rfl <;> exact Img.ofFn_WF ..

/-- Image and weight of an example with background, mask and scale 2 can be read in single and double precision. -/
-- the background decides the precision of the subtraction: with a background of doubles the difference is rounded twice
example : (subBkgF .f4 .f8 ⟨1, 1, [1]⟩ ⟨1, 1, [-(1 / 2 ^ 24 + 1 / 2 ^ 60)]⟩).toOption = some ⟨1, 1, [1]⟩ ∧
    (subBkgF .f4 .f4 ⟨1, 1, [1]⟩ ⟨1, 1, [-(1 / 2 ^ 24 + 1 / 2 ^ 60)]⟩).toOption = some ⟨1, 1, [1 + 1 / 2 ^ 23]⟩ ∧
    (subBkgF .f4 .i4 ⟨1, 1, [1]⟩ ⟨1, 1, [-(2 ^ 24)]⟩).toOption = some ⟨1, 1, [2 ^ 24]⟩ := by decide +kernel
example : ∀ t, t = "image" ∨ t = "weight" → ∃ z, readImageF Ex.cfg (Ex.floatKinds 0) (Ex.src 2 0 100 2) t = .ok (some z) := by
  intro t ht
  have hy : ∃ y, readImage Ex.cfg (Ex.src 2 0 100 2) t = .ok (some y) := by
    rcases ht with rfl | rfl
    · exact ⟨⟨2, 2, [198, 200, 218, 220]⟩, by decide +kernel⟩
    · exact ⟨⟨2, 2, [1, 1, 1, 0]⟩, by decide +kernel⟩
  obtain ⟨y, hy⟩ := hy
  obtain ⟨r, hr⟩ := readF_total (env := Ex.floatKinds 0) hy (by rintro (rfl | rfl); exacts [.inl rfl, .inr rfl])
  rcases (readF_ok (le_refl _) hr).2 with ⟨_, h⟩ | ⟨z, _, rfl, _⟩
  · rw [hy] at h; cases h
  · exact ⟨z, hr⟩

/-- The write of the small example completes in single and double precision. -/
example : ∃ mk mk' f, Maker.init Ex.cfg true Ex.objs Ex.images (some Ex.psfs) none "m" = .ok mk ∧ mk.writeF Ex.floatKinds = .ok (mk', f) :=
  (C100_completes_iff (fun _ => le_refl _) Ex.psfs_WF true none "m").mpr
    ⟨valid_writable Ex.valid, fun _ _ => ⟨.inl rfl, fun _ => .inr rfl⟩⟩

/-- **C100** (false in general) The exact program writes the small example; with images of 16-bit integers no write of it completes. -/
theorem C100_counterexample : (∃ mk mk' f, Maker.init Ex.cfg true Ex.objs Ex.images (some Ex.psfs) none "m" = .ok mk ∧ mk.write = .ok (mk', f)) ∧
    ¬ ∃ mk mk' f, Maker.init Ex.cfg true Ex.objs Ex.images (some Ex.psfs) none "m" = .ok mk ∧ mk.writeF Ex.intKinds = .ok (mk', f) := by
  refine ⟨(C15_completes_iff Ex.psfs_WF true none "m").mpr (valid_writable Ex.valid), fun h => ?_⟩
  obtain ⟨_, h⟩ := (C100_completes_iff (fun _ => le_refl _) Ex.psfs_WF true none "m").mp h
  obtain ⟨h | h, _⟩ := h 0 (by decide) <;> exact absurd h (by decide)

end Meds
