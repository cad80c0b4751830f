import Verif.Props.RoundTrip

/-!
# Scaling and masking of images and weights (C10)
-/

namespace Meds
open Spec Maker

/-- Two integers have a common bit. -/
def Spec.SharesBit (a b : Int) : Prop := ∃ n, a.testBit n = true ∧ b.testBit n = true

/-- The background at a pixel: 0 without a background image; a background of one row (column) has that row (column) everywhere. -/
def Spec.bkgAt (bkg : Option (Img ℚ)) (i j : Nat) : ℚ :=
  match bkg with
  | none => 0
  | some b => (b.get? (if b.nr = 1 then 0 else i) (if b.nc = 1 then 0 else j)).getD 0

theorem int_eq_zero_of_testBit {a : Int} (h : ∀ n, a.testBit n = false) : a = 0 := by
  cases a with
  | ofNat a =>
    have : a = 0 := Nat.eq_of_testBit_eq (fun n => by simpa [Int.testBit] using h n)
    rw [this]; rfl
  | negSucc a =>
    exfalso
    obtain ⟨n, hn⟩ : ∃ n, a < 2 ^ n := ⟨a, Nat.lt_two_pow_self⟩
    have := h n
    simp [Int.testBit, Nat.testBit_lt_two_pow hn] at this

theorem badBit_floor (flags : Int) (v : ℚ) : badBit flags v = badBit flags ((⌊v⌋ : Int) : ℚ) := by
  unfold badBit
  rw [Int.floor_intCast]

theorem badBit_iff (flags v : Int) : badBit flags (v : ℚ) = true ↔ SharesBit v flags := by
  unfold badBit SharesBit
  rw [Int.floor_intCast]
  simp only [ne_eq, decide_eq_true_eq]
  constructor
  · intro h
    by_contra hc
    push Not at hc
    apply h
    apply int_eq_zero_of_testBit
    intro n
    rw [Int.testBit_land]
    have := hc n
    cases h1 : v.testBit n <;> cases h2 : flags.testBit n <;> simp_all
  · rintro ⟨n, h1, h2⟩ h0
    have := Int.testBit_land v flags n
    rw [h1, h2, h0] at this
    simp [Int.testBit] at this

/-- **C10** The processed image is `(raw - background) * scale`, pixel by pixel. -/
theorem C10_image_scaled {cfg : MakerCfg} {im : SrcImage} {y : Img ℚ} (h : readImage cfg im "image" = .ok (some y))
    (hwf : ∀ t p, im.plane t = some (some p) → p.WF) :
    ∃ raw bkg, im.plane "image" = some (some raw) ∧ im.plane "bkg" = some bkg ∧ y.nr = raw.nr ∧ y.nc = raw.nc ∧
      ∀ i j v, raw.get? i j = some v → y.get? i j = some ((v - bkgAt bkg i j) * im.info.scale) := by
  unfold readImage readOneImage at h
  obtain ⟨raw, h1, h⟩ := Res.bind_eq_ok.mp h
  rw [if_pos rfl] at h
  obtain ⟨bkg, h2, h⟩ := Res.bind_eq_ok.mp h
  have e1 : im.plane "image" = some raw := by
    split at h1
    · cases h1
    · rename_i r hr; injection h1 with h1; rw [hr, h1]
  have e2 : im.plane "bkg" = some bkg := by
    split at h2
    · cases h2
    · rename_i r hr; injection h2 with h2; rw [hr, h2]
  cases raw with
  | none => cases h
  | some x =>
    dsimp only at h
    obtain ⟨z, hz, h⟩ := Res.bind_eq_ok.mp h
    injection h with h
    injection h with h
    subst h
    refine ⟨x, bkg, e1, e2, ?_⟩
    cases bkg with
    | none =>
      dsimp only at hz
      injection hz with hz
      subst hz
      refine ⟨rfl, rfl, fun i j v hv => ?_⟩
      rw [Img.map_get?, hv]
      simp [bkgAt]
    | some b =>
      dsimp only at hz
      unfold subBkg at hz
      split at hz
      · rename_i hs
        injection hz with hz
        subst hz
        refine ⟨rfl, rfl, fun i j v hv => ?_⟩
        obtain ⟨hi, hj⟩ := Img.get?_lt hv
        rw [Img.map_get?, Img.ofFn_get? _ hi hj, hv]
        simp [bkgAt]
      · cases hz

/-- **C10** The processed weight is `raw / scale²`, and zero exactly where the (integer) bit mask, which may be smaller, shares a bit with the configured
flags. -/
theorem C10_weight_scaled {cfg : MakerCfg} {im : SrcImage} {y : Img ℚ} (h : readImage cfg im "weight" = .ok (some y))
    (hwf : ∀ t p, im.plane t = some (some p) → p.WF) :
    ∃ raw, im.plane "weight" = some (some raw) ∧ y.nr = raw.nr ∧ y.nc = raw.nc ∧
      ∀ i j v, raw.get? i j = some v →
        (cfg.unusableBmask = none → y.get? i j = some (v / im.info.scale ^ 2)) ∧
        (∀ flags, cfg.unusableBmask = some flags →
          (im.plane "bmask" = some none → y.get? i j = some (v / im.info.scale ^ 2)) ∧
          (∀ bm, im.plane "bmask" = some (some bm) → ∀ b : Int, bm.get? i j = some (b : ℚ) →
            (SharesBit b flags → y.get? i j = some 0) ∧
            (¬ SharesBit b flags → y.get? i j = some (v / im.info.scale ^ 2))) ∧
          (∀ bm, im.plane "bmask" = some (some bm) → bm.get? i j = none → y.get? i j = some (v / im.info.scale ^ 2))) := by
  have hdiv : ∀ v : ℚ, v * (1 / im.info.scale ^ 2) = v / im.info.scale ^ 2 := fun v => by rw [mul_one_div]
  unfold readImage at h
  obtain ⟨raw, h1, h⟩ := Res.bind_eq_ok.mp h
  rw [if_neg (by decide), if_pos rfl] at h
  have e1 : im.plane "weight" = some raw := by
    unfold readOneImage at h1
    split at h1
    · cases h1
    · rename_i r hr; injection h1 with h1; rw [hr, h1]
  split at h
  · cases h
  cases hf : cfg.unusableBmask with
  | none =>
    rw [hf] at h
    cases raw with
    | none => cases h
    | some x =>
      injection h with h
      injection h with h
      subst h
      refine ⟨x, e1, rfl, rfl, fun i j v hv => ⟨fun _ => ?_, by simp⟩⟩
      rw [Img.map_get?, hv, Option.map_some, hdiv]
  | some flags =>
    rw [hf] at h
    dsimp only at h
    obtain ⟨bm, h2, h⟩ := Res.bind_eq_ok.mp h
    have e2 : im.plane "bmask" = some bm := by
      unfold readOneImage at h2
      split at h2
      · cases h2
      · rename_i r hr; injection h2 with h2; rw [hr, h2]
    cases raw with
    | none => cases h
    | some x =>
      dsimp only at h
      obtain ⟨z, hz, h⟩ := Res.bind_eq_ok.mp h
      injection h with h
      injection h with h
      subst h
      refine ⟨x, e1, ?_⟩
      cases bm with
      | none =>
        injection hz with hz
        subst hz
        refine ⟨rfl, rfl, fun i j v hv => ⟨by simp, fun fl hfl => ⟨fun _ => ?_, ?_, ?_⟩⟩⟩
        · rw [Img.map_get?, hv, Option.map_some, hdiv]
        · intro bm hbm; rw [e2] at hbm; simp at hbm
        · intro bm hbm; rw [e2] at hbm; simp at hbm
      | some b =>
        dsimp only at hz
        unfold zeroWhereBad at hz
        split at hz
        · cases hz
        · rename_i hs
          injection hz with hz
          subst hz
          refine ⟨rfl, rfl, fun i j v hv => ⟨by simp, fun fl hfl => ⟨fun hn => ?_, ?_, ?_⟩⟩⟩
          · rw [e2] at hn; simp at hn
          · intro bm hbm bv hbv
            injection hfl with hfl
            subst hfl
            rw [e2] at hbm
            injection hbm with hbm
            injection hbm with hbm
            subst hbm
            rw [Img.map_get?, Img.ofFn_get? _ (Img.get?_lt hv).1 (Img.get?_lt hv).2, hbv, hv]
            simp only [Option.map_some, Option.some.injEq, Option.getD_some]
            constructor
            · intro hsb
              rw [if_pos ((badBit_iff _ _).mpr hsb)]; ring
            · intro hsb
              rw [if_neg (fun hc => hsb ((badBit_iff _ _).mp hc)), hdiv]
          · intro bm hbm hno
            rw [e2] at hbm
            injection hbm with hbm
            injection hbm with hbm
            subst hbm
            rw [Img.map_get?, Img.ofFn_get? _ (Img.get?_lt hv).1 (Img.get?_lt hv).2, hno, hv]
            simp only [Option.map_some, Option.some.injEq, Option.getD_some]
            rw [hdiv]

/-- **C10** (end to end) In a written file the stored image pixel inside the source is the cast of `(raw - background) * scale`. -/
theorem C10_stored_image {cfg : MakerCfg} {hn : Bool} {objs : List InputObj} {images : List SrcImage} {psf : Option (List PsfModel)}
    {psfInfo : Option String} {md : String} {mk mk' : Maker} {f : Fits} {m : MEDS}
    (hi : Maker.init cfg hn objs images psf psfInfo md = .ok mk) (hw : mk.write = .ok (mk', f))
    (ho : MEDS.openFile f = .ok m) {i k : Nat} {o : ObjRow} {s : Slot} (he : Epoch m.cat.rows i k o s) (hbox : 0 < o.boxSize)
    {j : Nat} {im : SrcImage} (hj : s.fileId = (j : Int)) (him : images[j]? = some im)
    (hwf : ∀ t p, im.plane t = some (some p) → p.WF) :
    ∃ c raw bkg, m.getCutout i k "image" = .ok c ∧ im.plane "image" = some (some raw) ∧ im.plane "bkg" = some bkg ∧
      ∀ r q a b : Nat, (r : Int) < o.boxSize → (q : Int) < o.boxSize → s.origStartRow + r = (a : Int) → s.origStartCol + q = (b : Int) →
        ∀ v, raw.get? a b = some v → c.get? r q = some (cfg.cast "image" ((v - bkgAt bkg a b) * im.info.scale)) := by
  obtain ⟨j', im', c, h1, h2, h3, _, _, _, ⟨res, h6⟩, h7, _⟩ := C01_cutouts_read_back hi hw ho he hbox (t := "image") (.inl rfl)
  have hjj : j' = j := by omega
  subst hjj
  rw [h2] at him; injection him with him; subst him
  cases res with
  | none =>
    exfalso
    unfold readImage at h6
    obtain ⟨raw, _, h6⟩ := Res.bind_eq_ok.mp h6
    rw [if_pos rfl] at h6
    obtain ⟨bkg, _, h6⟩ := Res.bind_eq_ok.mp h6
    cases raw with
    | none => cases h6
    | some x =>
      dsimp only at h6
      obtain ⟨z, _, h6⟩ := Res.bind_eq_ok.mp h6
      cases h6
  | some src =>
    obtain ⟨raw, bkg, g1, g2, _, _, g5⟩ := C10_image_scaled h6 hwf
    obtain ⟨fill, _, hp⟩ := h7 src h6
    refine ⟨c, raw, bkg, h3, g1, g2, ?_⟩
    intro r q a b hr hq ha hb v hv
    rw [hp r q hr hq]
    unfold cutoutPixel pixelAt
    rw [ha, hb, if_pos ⟨by omega, by omega⟩]
    simp only [Int.toNat_natCast]
    rw [g5 a b v hv]

/-- **C10** At a good pixel `image² · weight` is `(raw - background)² · rawweight`: it does not depend on the (non-zero) scale. -/
theorem C10_signal_to_noise_independent_of_scale {cfg : MakerCfg} {im : SrcImage} {y w : Img ℚ}
    (hy : readImage cfg im "image" = .ok (some y)) (hw : readImage cfg im "weight" = .ok (some w))
    (hwf : ∀ t p, im.plane t = some (some p) → p.WF) (hscale : im.info.scale ≠ 0) :
    ∃ raw bkg wraw, im.plane "image" = some (some raw) ∧ im.plane "bkg" = some bkg ∧ im.plane "weight" = some (some wraw) ∧
      ∀ i j v u, raw.get? i j = some v → wraw.get? i j = some u →
        (∀ flags, cfg.unusableBmask = some flags → im.plane "bmask" = some none ∨
          ∃ bm b, im.plane "bmask" = some (some bm) ∧ bm.get? i j = some ((b : Int) : ℚ) ∧ ¬ SharesBit b flags) →
        ∃ a b, y.get? i j = some a ∧ w.get? i j = some b ∧
        a ^ 2 * b = (v - bkgAt bkg i j) ^ 2 * u := by
  obtain ⟨raw, bkg, h1, h2, _, _, h3⟩ := C10_image_scaled hy hwf
  obtain ⟨wraw, g1, _, _, g2⟩ := C10_weight_scaled hw hwf
  refine ⟨raw, bkg, wraw, h1, h2, g1, ?_⟩
  intro i j v u hv hu hgood
  have hwt : w.get? i j = some (u / im.info.scale ^ 2) := by
    cases hf : cfg.unusableBmask with
    | none => exact (g2 i j u hu).1 hf
    | some flags =>
      obtain ⟨k1, k2, _⟩ := (g2 i j u hu).2 flags hf
      rcases hgood flags hf with h | ⟨bm, b, e1, e2, e3⟩
      · exact k1 h
      · exact (k2 bm e1 b e2).2 e3
  refine ⟨_, _, h3 i j v hv, hwt, ?_⟩
  field_simp

/-- A concrete image with background, scale 2, and a mask whose bit 2 is bad. -/
example :
    readImage Ex.cfg (Ex.src 2 0 100 2) "image" = .ok (some ⟨2, 2, [198, 200, 218, 220]⟩) ∧
    readImage Ex.cfg (Ex.src 2 0 100 2) "weight" = .ok (some ⟨2, 2, [1, 1, 1, 0]⟩) := by decide +kernel

/-- Its first three planes with a background of one row and a mask of one column. -/
def Ex.broadcast : SrcImage :=
  { Ex.src 2 0 100 2 with plane := fun t =>
      if t = "bkg" then some (some ⟨1, 2, [1, 3]⟩) else if t = "bmask" then some (some ⟨2, 1, [0, 6]⟩) else (Ex.src 2 0 100 2).plane t }

example :
    readImage Ex.cfg Ex.broadcast "image" = .ok (some ⟨2, 2, [198, 196, 218, 216]⟩) ∧
    readImage Ex.cfg Ex.broadcast "weight" = .ok (some ⟨2, 2, [1, 1, 0, 1]⟩) := by decide +kernel

end Meds
