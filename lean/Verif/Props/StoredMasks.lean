import Verif.Model.IntTypes
import Verif.Lemmas.IntTypes
import Verif.Props.RoundTrip
import Verif.Props.Photometry

/-!
# Integer planes as stored: bits of masks, labels of seg maps (C110)
-/

namespace Meds
open Spec Maker

/-- The integers that a type of `bits` bits has. -/
def Spec.Holds (ty : IntType) (k : Int) : Prop :=
  if ty.signed then 0 < ty.bits ∧ -2 ^ (ty.bits - 1) ≤ k ∧ k < 2 ^ (ty.bits - 1) else 0 ≤ k ∧ k < 2 ^ ty.bits

instance (ty : IntType) (k : Int) : Decidable (Holds ty k) := by unfold Holds; infer_instance

/-- All pixels of the plane are integers. -/
def Spec.Whole (x : Img ℚ) : Prop := ∀ v ∈ x.flat, ∃ k : Int, v = k

namespace IntType

theorem wrap_holds (ty : IntType) (hb : 0 < ty.bits) (k : Int) : Holds ty (ty.wrap k) := by
  obtain ⟨b, sg⟩ := ty
  obtain ⟨n, rfl⟩ : ∃ n, b = n + 1 := ⟨b - 1, by simp only at hb; omega⟩
  unfold Holds wrap
  cases sg
  · simp only [Bool.false_eq_true, if_false]
    exact ⟨Int.emod_nonneg _ (by positivity), Int.emod_lt_of_pos _ (by positivity)⟩
  · simp only [if_true, Nat.add_sub_cancel]
    have h1 := Int.le_bmod (x := k) (m := 2 ^ (n + 1)) (by positivity)
    have h2 := Int.bmod_lt (x := k) (m := 2 ^ (n + 1)) (by positivity)
    push_cast at h1 h2
    have hp : (2 : Int) ^ (n + 1) = 2 * 2 ^ n := by ring
    refine ⟨hb, ?_, ?_⟩
    · omega
    · omega

theorem wrap_congr (ty : IntType) (k : Int) : ∃ q, k = ty.wrap k + 2 ^ ty.bits * q := by
  unfold wrap
  cases ty.signed
  · simp only [Bool.false_eq_true, if_false]
    exact ⟨k / 2 ^ ty.bits, (Int.emod_add_mul_ediv k _).symm⟩
  · simp only [if_true]
    have := Int.bmod_add_bdiv k (2 ^ ty.bits)
    push_cast at this
    exact ⟨_, this.symm⟩

theorem holds_unique {ty : IntType} {a b q : Int} (ha : Holds ty a) (hb : Holds ty b) (h : a = b + 2 ^ ty.bits * q) : a = b := by
  obtain ⟨w, sg⟩ := ty
  unfold Holds at ha hb
  have key : q = 0 := by
    cases sg
    · simp only [Bool.false_eq_true, if_false] at ha hb h
      have hp : (0 : Int) < 2 ^ w := by positivity
      by_contra hq
      rcases lt_or_gt_of_ne hq with hq | hq
      · nlinarith
      · nlinarith
    · simp only [if_true] at ha hb h
      obtain ⟨n, rfl⟩ : ∃ n, w = n + 1 := ⟨w - 1, by omega⟩
      simp only [Nat.add_sub_cancel] at ha hb
      have hp : (0 : Int) < 2 ^ n := by positivity
      rw [pow_succ] at h
      by_contra hq
      rcases lt_or_gt_of_ne hq with hq | hq
      · nlinarith
      · nlinarith
  rw [h, key]
  ring

theorem wrap_of_holds {ty : IntType} {k : Int} (h : Holds ty k) : ty.wrap k = k := by
  have hb : 0 < ty.bits ∨ ty.bits = 0 := by omega
  obtain ⟨q, hq⟩ := ty.wrap_congr k
  rcases hb with hb | hb
  · exact (holds_unique h (ty.wrap_holds hb k) hq).symm
  · unfold Holds at h
    unfold wrap
    cases hs : ty.signed <;> rw [hs] at h <;> simp only [Bool.false_eq_true, if_false, if_true] at h ⊢
    · exact Int.emod_eq_of_lt h.1 h.2
    · omega

theorem wrap_testBit {ty : IntType} {n : Nat} (h : n < ty.bits) (k : Int) : (ty.wrap k).testBit n = k.testBit n := by
  unfold wrap
  cases ty.signed
  · exact Int.testBit_emod h k
  · exact Int.testBit_bmod h k

theorem cast_int (ty : IntType) (k : Int) : ty.cast (k : ℚ) = (ty.wrap k : Int) := by
  unfold cast
  rw [show truncZ (k : ℚ) = k by unfold truncZ; split; exacts [Int.floor_intCast k, Int.ceil_intCast k]]

end IntType

variable {cfg : MakerCfg} {hn : Bool} {objs : List InputObj} {images : List SrcImage} {psf : Option (List PsfModel)} {psfInfo : Option String} {md : String}
  {mk mk' : Maker} {f : Fits} {m : MEDS} {i k : Nat} {o : ObjRow} {s : Slot} {ty : IntType}

theorem readImage_plain {im : SrcImage} {t : String} (hti : t ≠ "image") (htw : t ≠ "weight") {r : Option (Img ℚ)} :
    readImage cfg im t = .ok r ↔ im.plane t = some r := by
  unfold readImage readOneImage
  cases im.plane t with
  | none => simp only [reduceCtorEq, iff_false]; intro h; cases h
  | some x =>
    simp only [Res.ok_bind]
    rw [if_neg hti, if_neg htw]
    constructor
    · intro h; injection h with h; rw [h]
    · intro h; injection h with h; rw [h]

/-- The pixels of a stored plane of integers. -/
theorem stored_pixel (hi : Maker.init cfg hn objs images psf psfInfo md = .ok mk) (hw : mk.write = .ok (mk', f)) (ho : MEDS.openFile f = .ok m)
    (he : Epoch m.cat.rows i k o s) (hbox : 0 < o.boxSize) {t : String} (ht : t ∈ cfg.cutoutTypes) (hti : t ≠ "image") (htw : t ≠ "weight") {j : Nat} {im : SrcImage}
    (hj : s.fileId = (j : Int)) (him : images[j]? = some im) {raw : Img ℚ} (hp : im.plane t = some (some raw)) :
    ∃ c fill, m.getCutout i k t = .ok c ∧ documentedFill t = some fill ∧ ∀ r q : Nat, (r : Int) < o.boxSize → (q : Int) < o.boxSize →
      c.get? r q = some (cutoutPixel (cfg.cast t) fill raw s.origStartRow s.origStartCol r q) := by
  obtain ⟨j', im', c, h1, h2, h3, _, _, _, _, h5, _⟩ := C01_cutouts_read_back hi hw ho he hbox (t := t) (.inr ht)
  have : j' = j := by omega
  subst this
  rw [him] at h2
  injection h2 with h2
  subst h2
  obtain ⟨fill, g1, g2⟩ := h5 raw ((readImage_plain hti htw).mpr hp)
  exact ⟨c, fill, h3, g1, g2⟩

/-- **C110** (what happens) In a file with bit masks of an integer type of `bits` bits, each stored mask pixel that lies on the source image has the source's bits, as many as the
type has; if the type has the source's number, that number is stored. -/
theorem C110_bits_below_width (hi : Maker.init cfg hn objs images psf psfInfo md = .ok mk) (hw : mk.write = .ok (mk', f)) (ho : MEDS.openFile f = .ok m)
    (he : Epoch m.cat.rows i k o s) (hbox : 0 < o.boxSize) (ht : "bmask" ∈ cfg.cutoutTypes) (hty : cfg.cast "bmask" = ty.cast) {j : Nat} {im : SrcImage}
    (hj : s.fileId = (j : Int)) (him : images[j]? = some im) {raw : Img ℚ} (hp : im.plane "bmask" = some (some raw)) :
    ∃ c, m.getCutout i k "bmask" = .ok c ∧
      ∀ r q a b : Nat, (r : Int) < o.boxSize → (q : Int) < o.boxSize → s.origStartRow + r = (a : Int) → s.origStartCol + q = (b : Int) →
        ∀ v : Int, raw.get? a b = some (v : ℚ) → ∃ v' : Int, c.get? r q = some (v' : ℚ) ∧ (∀ n < ty.bits, v'.testBit n = v.testBit n) ∧ (Holds ty v → v' = v) := by
  obtain ⟨c, fill, h1, h2, h3⟩ := stored_pixel hi hw ho he hbox ht (by decide) (by decide) hj him hp
  refine ⟨c, h1, ?_⟩
  intro r q a b hr hq ha hb v hv
  refine ⟨ty.wrap v, ?_, fun n hn => IntType.wrap_testBit hn v, fun h => IntType.wrap_of_holds h⟩
  rw [h3 r q hr hq]
  unfold cutoutPixel pixelAt
  rw [ha, hb, if_pos ⟨by omega, by omega⟩]
  simp only [Int.toNat_natCast]
  rw [hv, hty, ← IntType.cast_int]

/-- The position is not on the image. -/
def Spec.OffImage (x : Img ℚ) (a b : Int) : Prop := a < 0 ∨ b < 0 ∨ (x.nr : Int) ≤ a ∨ (x.nc : Int) ≤ b

theorem pixelAt_off {x : Img ℚ} {a b : Int} (h : OffImage x a b) : pixelAt x a b = none := by
  unfold pixelAt
  split
  · rename_i h'
    cases hg : x.get? a.toNat b.toNat with
    | none => rfl
    | some v =>
      obtain ⟨h1, h2⟩ := Img.get?_lt hg
      unfold OffImage at h
      omega
  · rfl

/-- **C110** Off the image the stored mask has the bit 30 ("edge") and no other, if the type has the number 2^30. -/
theorem C110_edge_bit (hi : Maker.init cfg hn objs images psf psfInfo md = .ok mk) (hw : mk.write = .ok (mk', f)) (ho : MEDS.openFile f = .ok m)
    (he : Epoch m.cat.rows i k o s) (hbox : 0 < o.boxSize) (ht : "bmask" ∈ cfg.cutoutTypes) (hty : cfg.cast "bmask" = ty.cast) (hwide : Holds ty (2 ^ 30)) {j : Nat} {im : SrcImage}
    (hj : s.fileId = (j : Int)) (him : images[j]? = some im) {raw : Img ℚ} (hp : im.plane "bmask" = some (some raw)) :
    ∃ c, m.getCutout i k "bmask" = .ok c ∧
      ∀ r q : Nat, (r : Int) < o.boxSize → (q : Int) < o.boxSize → OffImage raw (s.origStartRow + r) (s.origStartCol + q) →
        ∃ v' : Int, c.get? r q = some (v' : ℚ) ∧ ∀ n, v'.testBit n = decide (n = 30) := by
  obtain ⟨c, fill, h1, h2, h3⟩ := stored_pixel hi hw ho he hbox ht (by decide) (by decide) hj him hp
  refine ⟨c, h1, ?_⟩
  intro r q hr hq hoff
  refine ⟨2 ^ 30, ?_, ?_⟩
  · rw [h3 r q hr hq]
    unfold cutoutPixel
    rw [pixelAt_off hoff]
    have e : fill = ((2 ^ 30 : Int) : ℚ) := by
      unfold documentedFill at h2
      injection h2 with h2
      rw [← h2]; norm_num
    rw [hty, e, IntType.cast_int, IntType.wrap_of_holds hwide]
  · intro n
    show Nat.testBit (2 ^ 30) n = _
    rw [Nat.testBit_two_pow]
    congr 1
    exact propext eq_comm

/-- **C110** (limits) In types of up to 30 bits (`i1`, `i2`, `u1`, `u2`) nothing is left of the edge bit: pixels off the image are stored as 0, like good pixels. -/
theorem C110_edge_lost (hi : Maker.init cfg hn objs images psf psfInfo md = .ok mk) (hw : mk.write = .ok (mk', f)) (ho : MEDS.openFile f = .ok m)
    (he : Epoch m.cat.rows i k o s) (hbox : 0 < o.boxSize) (ht : "bmask" ∈ cfg.cutoutTypes) (hty : cfg.cast "bmask" = ty.cast) (hb : 0 < ty.bits) (hnarrow : ty.bits ≤ 30) {j : Nat}
    {im : SrcImage} (hj : s.fileId = (j : Int)) (him : images[j]? = some im) {raw : Img ℚ} (hp : im.plane "bmask" = some (some raw)) :
    ∃ c, m.getCutout i k "bmask" = .ok c ∧
      ∀ r q : Nat, (r : Int) < o.boxSize → (q : Int) < o.boxSize → OffImage raw (s.origStartRow + r) (s.origStartCol + q) → c.get? r q = some 0 := by
  obtain ⟨c, fill, h1, h2, h3⟩ := stored_pixel hi hw ho he hbox ht (by decide) (by decide) hj him hp
  refine ⟨c, h1, ?_⟩
  intro r q hr hq hoff
  rw [h3 r q hr hq]
  unfold cutoutPixel
  rw [pixelAt_off hoff]
  have e : fill = ((2 ^ 30 : Int) : ℚ) := by
    unfold documentedFill at h2
    injection h2 with h2
    rw [← h2]; norm_num
  obtain ⟨p, hp'⟩ := ty.wrap_congr (2 ^ 30)
  obtain ⟨d, hd⟩ : ∃ d, 30 = ty.bits + d := ⟨30 - ty.bits, by omega⟩
  have h0 : ty.wrap (2 ^ 30) = 0 := by
    refine IntType.holds_unique (q := 2 ^ d - p) (ty.wrap_holds hb _) ?_ ?_
    · unfold Holds
      cases ty.signed
      · simp only [Bool.false_eq_true, if_false]
        exact ⟨le_refl _, by positivity⟩
      · simp only [if_true]
        have : (0 : Int) < 2 ^ (ty.bits - 1) := by positivity
        exact ⟨hb, by linarith, this⟩
    · rw [hd, pow_add] at hp' ⊢
      linarith
  rw [hty, e, IntType.cast_int, h0]
  norm_num

/-- **C110 (partial)** If every bit of the flags `unusable_bmask` is below the number of bits of the type, the stored mask tells which weights were set to zero: a stored weight on both
images is 0 where the stored mask shares a bit with the flags, and the (cast) scaled weight elsewhere.  Missing: flags with further bits (`C110_counterexample`). -/
theorem C110_weights_explained_partial (hi : Maker.init cfg hn objs images psf psfInfo md = .ok mk) (hw : mk.write = .ok (mk', f)) (ho : MEDS.openFile f = .ok m)
    (he : Epoch m.cat.rows i k o s) (hbox : 0 < o.boxSize) (ht : "bmask" ∈ cfg.cutoutTypes) (htw : "weight" ∈ cfg.cutoutTypes) (hty : cfg.cast "bmask" = ty.cast) {flags : Int}
    (hflags : cfg.unusableBmask = some flags) (hlow : ∀ n, flags.testBit n = true → n < ty.bits) {j : Nat} {im : SrcImage} (hj : s.fileId = (j : Int)) (him : images[j]? = some im)
    (hwf : ∀ t p, im.plane t = some (some p) → p.WF) {raw wraw : Img ℚ} (hp : im.plane "bmask" = some (some raw)) (hpw : im.plane "weight" = some (some wraw)) :
    ∃ c w, m.getCutout i k "bmask" = .ok c ∧ m.getCutout i k "weight" = .ok w ∧
      ∀ r q a b : Nat, (r : Int) < o.boxSize → (q : Int) < o.boxSize → s.origStartRow + r = (a : Int) → s.origStartCol + q = (b : Int) →
        ∀ (v : Int) (u : ℚ), raw.get? a b = some (v : ℚ) → wraw.get? a b = some u →
          ∃ v' : Int, c.get? r q = some (v' : ℚ) ∧ (SharesBit v' flags → w.get? r q = some (cfg.cast "weight" 0)) ∧
            (¬ SharesBit v' flags → w.get? r q = some (cfg.cast "weight" (u / im.info.scale ^ 2))) := by
  obtain ⟨c, h1, h2⟩ := C110_bits_below_width hi hw ho he hbox ht hty hj him hp
  obtain ⟨j', im', w, g1, g2, g3, _, _, _, ⟨y, g4⟩, g5, _⟩ := C01_cutouts_read_back hi hw ho he hbox (t := "weight") (.inr htw)
  have : j' = j := by omega
  subst this
  rw [him] at g2
  injection g2 with g2
  subst g2
  have hy : ∃ y', y = some y' := by
    cases y with
    | some y' => exact ⟨y', rfl⟩
    | none =>
      exfalso
      unfold readImage readOneImage at g4
      rw [hpw, hp, hflags] at g4
      simp only [Res.ok_bind, String.reduceEq, if_false, if_true] at g4
      split at g4
      · cases g4
      · obtain ⟨z, _, hz⟩ := Res.bind_eq_ok.mp g4
        cases hz
  obtain ⟨y, rfl⟩ := hy
  obtain ⟨fill, _, k2⟩ := g5 y g4
  obtain ⟨wr, e1, _, _, e4⟩ := C10_weight_scaled g4 hwf
  rw [hpw] at e1
  injection e1 with e1
  injection e1 with e1
  subst e1
  refine ⟨c, w, h1, g3, ?_⟩
  intro r q a b hr hq ha hb v u hv hu
  obtain ⟨v', l1, l2, _⟩ := h2 r q a b hr hq ha hb v hv
  have hs : SharesBit v' flags ↔ SharesBit v flags := by
    unfold SharesBit
    constructor
    · rintro ⟨n, a1, a2⟩
      exact ⟨n, by rw [← l2 n (hlow n a2)]; exact a1, a2⟩
    · rintro ⟨n, a1, a2⟩
      exact ⟨n, by rw [l2 n (hlow n a2)]; exact a1, a2⟩
  have hpix : ∀ x, y.get? a b = some x → w.get? r q = some (cfg.cast "weight" x) := by
    intro x hx
    rw [k2 r q hr hq]
    unfold cutoutPixel pixelAt
    rw [ha, hb, if_pos ⟨by omega, by omega⟩]
    simp only [Int.toNat_natCast]
    rw [hx]
  obtain ⟨_, f2, _⟩ := (e4 a b u hu).2 flags hflags
  obtain ⟨f3, f4⟩ := f2 raw hp v hv
  exact ⟨v', l1, fun h => hpix _ (f3 (hs.mp h)), fun h => hpix _ (f4 (fun h' => h (hs.mpr h')))⟩

/-- **C110** Labels of seg maps: the stored label is the number of the type that differs from the source's by a multiple of `2^bits`, so a label that the type has is stored as it is;
off the image it is 0. -/
theorem C110_labels (hi : Maker.init cfg hn objs images psf psfInfo md = .ok mk) (hw : mk.write = .ok (mk', f)) (ho : MEDS.openFile f = .ok m)
    (he : Epoch m.cat.rows i k o s) (hbox : 0 < o.boxSize) (ht : "seg" ∈ cfg.cutoutTypes) (hty : cfg.cast "seg" = ty.cast) (hb : 0 < ty.bits) {j : Nat} {im : SrcImage}
    (hj : s.fileId = (j : Int)) (him : images[j]? = some im) {raw : Img ℚ} (hp : im.plane "seg" = some (some raw)) :
    ∃ c, m.getCutout i k "seg" = .ok c ∧
      (∀ r q a b : Nat, (r : Int) < o.boxSize → (q : Int) < o.boxSize → s.origStartRow + r = (a : Int) → s.origStartCol + q = (b : Int) →
        ∀ v : Int, raw.get? a b = some (v : ℚ) → ∃ v' : Int, c.get? r q = some (v' : ℚ) ∧ Holds ty v' ∧ (2 ^ ty.bits : Int) ∣ v - v' ∧ (Holds ty v → v' = v)) ∧
      ∀ r q : Nat, (r : Int) < o.boxSize → (q : Int) < o.boxSize → OffImage raw (s.origStartRow + r) (s.origStartCol + q) → c.get? r q = some 0 := by
  obtain ⟨c, fill, h1, h2, h3⟩ := stored_pixel hi hw ho he hbox ht (by decide) (by decide) hj him hp
  refine ⟨c, h1, ?_, ?_⟩
  · intro r q a b hr hq ha hb' v hv
    refine ⟨ty.wrap v, ?_, ty.wrap_holds hb v, ?_, fun h => IntType.wrap_of_holds h⟩
    · rw [h3 r q hr hq]
      unfold cutoutPixel pixelAt
      rw [ha, hb', if_pos ⟨by omega, by omega⟩]
      simp only [Int.toNat_natCast]
      rw [hv, hty, ← IntType.cast_int]
    · obtain ⟨p, hp'⟩ := ty.wrap_congr v
      exact ⟨p, by linarith⟩
  · intro r q hr hq hoff
    rw [h3 r q hr hq]
    unfold cutoutPixel
    rw [pixelAt_off hoff]
    have e : fill = ((0 : Int) : ℚ) := by
      unfold documentedFill at h2
      injection h2 with h2
      rw [← h2]; norm_num
    have h0 : ty.wrap 0 = 0 := by
      unfold IntType.wrap
      cases ty.signed <;> simp
    rw [hty, e, IntType.cast_int, h0]
    norm_num

/-! ### Concrete cases -/

/-- A configuration with masks and seg maps of a given type. -/
def Ex.maskCfg (ty : IntType) (flags : Int) : MakerCfg :=
  { Meds.Ex.cfg with unusableBmask := some flags, cast := fun t => if t = "bmask" ∨ t = "seg" then ty.cast else id }

/-- The first example with other masks. -/
def Ex.maskImages (mask : Nat → Nat → ℚ) : List SrcImage :=
  [{ Ex.src 5 0 100 1 with plane := fun t => if t = "bmask" then some (some (Img.ofFn 5 5 mask)) else (Ex.src 5 0 100 1).plane t }, Ex.src 4 (1/2) 200 2, Ex.src 3 2 300 1]

/-- **C110** (counterexample) Masks of 64 bits whose bit 40 is unusable, stored as `i4`: the weights are zero, the stored mask is zero as for good pixels. -/
theorem C110_counterexample : Ex.check (Ex.maskCfg .i4 (2 ^ 40)) Meds.Ex.objs (Ex.maskImages (fun i j => if i = j then 2 ^ 40 else 0)) (some Ex.psfs) (fun m =>
    decide (m.getCutout 0 0 "weight" = .ok ⟨4, 4, [0, 4, 4, 4, 4, 0, 4, 4, 4, 4, 0, 4, 4, 4, 4, 0]⟩) &&
    decide (m.getCutout 0 0 "bmask" = .ok ⟨4, 4, [0, 0, 0, 0, 0, 0, 0, 0, 0, 0, 0, 0, 0, 0, 0, 0]⟩)) = true := by decide +kernel

-- the same with bit 31, which i4 has (as a sign)
example : Ex.check (Ex.maskCfg .i4 (2 ^ 31)) Meds.Ex.objs (Ex.maskImages (fun i j => if i = j then 2 ^ 31 else 0)) (some Ex.psfs) (fun m =>
    decide (m.getCutout 0 0 "weight" = .ok ⟨4, 4, [0, 4, 4, 4, 4, 0, 4, 4, 4, 4, 0, 4, 4, 4, 4, 0]⟩) &&
    decide (m.getCutout 0 0 "bmask" = .ok ⟨4, 4, [-2 ^ 31, 0, 0, 0, 0, -2 ^ 31, 0, 0, 0, 0, -2 ^ 31, 0, 0, 0, 0, -2 ^ 31]⟩)) = true := by decide +kernel

-- an epoch that is partly off its image: with i4 the edge bit is stored, with i2 it is lost
example : Ex.check (Ex.maskCfg .i4 2) Meds.Ex.objs Meds.Ex.images (some Ex.psfs) (fun m => decide (m.getCutout 1 1 "bmask" = .ok ⟨2, 2, [4, 2 ^ 30, 5, 2 ^ 30]⟩)) = true ∧
    Ex.check (Ex.maskCfg ⟨16, true⟩ 2) Meds.Ex.objs Meds.Ex.images (some Ex.psfs) (fun m => decide (m.getCutout 1 1 "bmask" = .ok ⟨2, 2, [4, 0, 5, 0]⟩)) = true ∧
    Holds .i4 (2 ^ 30) ∧ ¬ Holds ⟨16, true⟩ (2 ^ 30) := by decide +kernel

-- the condition on the flags
example : ∀ n, Int.testBit (2 ^ 31) n = true → n < IntType.i4.bits := by
  intro n h
  change Nat.testBit (2 ^ 31) n = true at h
  rw [Nat.testBit_two_pow, decide_eq_true_eq] at h
  subst h
  decide

end Meds
