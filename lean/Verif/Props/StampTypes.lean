import Verif.Lemmas.StampTypes
import Verif.Props.StoredMasks
import Verif.Props.Completion

/-!
# The configured types of the stamps (C116)
-/

namespace Meds

/-- The value for pixels off the image can be put into an array of this type: any float type, for seg maps and masks also types of integers; NumPy 2 wants the edge bit `2^30` of masks to be
a number of the type. -/
def Spec.DefaultFits (np2 : Bool) (ty : StampType) (t : String) : Prop :=
  ty = .float ∨ ∃ k, ty = .int k ∧ t ≠ "image" ∧ t ≠ "weight" ∧ (np2 = true → t = "bmask" → Spec.Holds k (2 ^ 30))

/-- The flags can be compared with masks of this type: masks of integers; in NumPy 2 the flags are a number of that type, in NumPy 1 one of 64 bits, and not negative for masks of `u8`. -/
def Spec.FlagsFit (np2 : Bool) (ty : StampType) (flags : Int) : Prop :=
  ∃ k, ty = .int k ∧ (np2 = true → Spec.Holds k flags) ∧ (np2 = false → Spec.Holds ⟨64, true⟩ flags ∧ (k = ⟨64, false⟩ → 0 ≤ flags))

/-- The types serve for a catalogue: the default value fits for every plane of which a stamp is cut out, and the flags fit all masks if weights are requested. -/
structure Spec.TypesServe (env : StampEnv) (cfg : MakerCfg) (images : List SrcImage) (rows : List ObjRow) : Prop where
  stamps : ∀ t, t = "image" ∨ t ∈ cfg.cutoutTypes → ∀ i k o s, Epoch rows i k o s → ∀ (j : Nat) im x, s.fileId = (j : Int) → images[j]? = some im →
    im.plane t = some (some x) → DefaultFits env.numpy2 (env.out t) t
  flags : "weight" ∈ cfg.cutoutTypes → ∀ flags, cfg.unusableBmask = some flags → ∀ (j : Nat) im b, images[j]? = some im → im.plane "bmask" = some (some b) →
    FlagsFit env.numpy2 (env.mask j) flags

open Spec Maker

theorem has_iff (ty : IntType) (k : Int) : ty.has k = true ↔ Holds ty k := by
  unfold IntType.has Holds
  split <;> simp

theorem addDefault_iff {np2 : Bool} {ty : StampType} {t : String} : addDefault np2 ty t = .ok () ↔ DefaultFits np2 ty t := by
  unfold addDefault DefaultFits
  cases ty with
  | float => simp
  | int k =>
    simp only [reduceCtorEq, StampType.int.injEq, false_or, exists_eq_left']
    rw [← has_iff]
    by_cases h1 : t = "image"
    · simp [h1]
    · by_cases h2 : t = "weight"
      · simp [h2]
      · by_cases h3 : t = "bmask"
        · subst h3
          cases np2 <;> cases hk : k.has (2 ^ 30) <;> simp
        · simp [h1, h2, h3]

theorem maskAnd_iff {np2 : Bool} {ty : StampType} {flags : Int} : maskAnd np2 ty flags = .ok () ↔ FlagsFit np2 ty flags := by
  unfold maskAnd FlagsFit
  cases ty with
  | float => simp
  | int k =>
    simp only [StampType.int.injEq, exists_eq_left']
    rw [← has_iff, ← has_iff]
    cases np2
    · simp only [Bool.false_eq_true, if_false, false_imp_iff, true_and, forall_const]
      cases hh : IntType.has ⟨64, true⟩ flags
      · simp
      · simp only [Bool.not_true, Bool.false_eq_true, if_false, true_and]
        by_cases hk : k = ⟨64, false⟩
        · by_cases hf : flags < 0
          · simp [hk, hf]
          · simp [hk, hf, Int.not_lt.mp hf]
        · simp [hk]
    · simp only [if_true, forall_const, Bool.true_eq_false, false_imp_iff, and_true]
      split <;> simp_all

variable {cfg : MakerCfg} {hn : Bool} {objs : List InputObj} {images : List SrcImage} {psf : Option (List PsfModel)} {psfInfo : Option String} {md : String} {mk mk' : Maker}
  {f : Fits} {env : StampEnv}

/-- **C116** Exactly when a write completes with given types, and what it writes: it has to complete with unlimited types, and the types have to serve for the catalogue of the file; then the
file is the same. -/
theorem C116_write_iff (hi : Maker.init cfg hn objs images psf psfInfo md = .ok mk) :
    mk.writeT env = .ok (mk', f) ↔ mk.write = .ok (mk', f) ∧ ∃ m, MEDS.openFile f = .ok m ∧ TypesServe env cfg images m.cat.rows := by
  rw [writeT_iff]
  refine and_congr_right fun hw => ?_
  obtain ⟨m, hm, _⟩ := C01_written_file_opens hi hw
  obtain ⟨in0, w, W, em, _⟩ := opened_eq hi hw hm
  have hrows : m.cat.rows = mk'.objs := by rw [em]; rfl
  have hread : ∀ t ∈ mk'.types, ∀ j im, images[j]? = some im → ∃ r, readImage cfg im t = .ok r := fun t ht j im hj => W.read ht (List.mem_of_getElem? hj)
  constructor
  · intro hg
    refine ⟨m, hm, ⟨?_, ?_⟩⟩
    · intro t ht i k o s he j im x hj him hx
      have htm : t ∈ mk'.types := (mem_types W.types_ok t).mpr ht
      obtain ⟨r, hr⟩ := hread t htm j im him
      have h2 := (hg t htm (j, im) (mem_numbered.mpr (by rw [W.images_eq]; exact him))).2
      rw [W.cfg_eq] at h2
      cases r with
      | none => exact absurd rfl ((readable_of_readImage hr).2.mpr ⟨x, hx⟩)
      | some src =>
        obtain ⟨e1, e2, e3⟩ := he
        rw [hrows] at e1
        exact addDefault_iff.mp (h2 src hr o (List.mem_of_getElem? e1) ⟨k, by omega, s, e3, hj⟩)
    · intro ht flags hf j im b him hb
      have htm : "weight" ∈ mk'.types := (mem_types W.types_ok _).mpr (.inr ht)
      have h1 := (hg _ htm (j, im) (mem_numbered.mpr (by rw [W.images_eq]; exact him))).1
      rw [W.cfg_eq] at h1
      exact maskAnd_iff.mp (h1 rfl flags hf b hb)
  · rintro ⟨m', hm', hs⟩
    rw [hm] at hm'
    injection hm' with hm'
    subst hm'
    rintro t htm ⟨j, im⟩ hfi
    have him : images[j]? = some im := by rw [← W.images_eq]; exact mem_numbered.mp hfi
    rw [W.cfg_eq]
    refine ⟨?_, ?_⟩
    · rintro rfl flags hf b hb
      exact maskAnd_iff.mpr (hs.flags (((mem_types W.types_ok _).mp htm).resolve_left (by decide)) flags hf j im b him hb)
    · rintro src hr o ho ⟨k, hk, s, h3, hj⟩
      obtain ⟨i, hio⟩ := List.mem_iff_getElem?.mp ho
      obtain ⟨x, hx⟩ := (readable_of_readImage hr).2.mp (by simp)
      exact addDefault_iff.mpr (hs.stamps t ((mem_types W.types_ok t).mp htm) i k o s ⟨by rw [hrows]; exact hio, by omega, h3⟩ j im x hj him hx)

/-- The image of an epoch. -/
theorem epoch_image (hi : Maker.init cfg hn objs images psf psfInfo md = .ok mk) (hw : mk.write = .ok (mk', f)) {m : MEDS} (hm : MEDS.openFile f = .ok m) {i k : Nat} {o : ObjRow} {s : Slot}
    (he : Epoch m.cat.rows i k o s) : ∃ (j : Nat) (im : SrcImage) (x : Img ℚ), s.fileId = (j : Int) ∧ images[j]? = some im ∧ im.plane "image" = some (some x) := by
  obtain ⟨in0, w, W, em, _⟩ := opened_eq hi hw hm
  subst em
  have h := laidOut_fileIds W.laid o s (epoch_mem_cells he)
  obtain ⟨h1, h2⟩ := h
  obtain ⟨j, hj⟩ := Int.eq_ofNat_of_zero_le h1
  have hlt : j < images.length := by omega
  obtain ⟨r, hr⟩ := W.read (t := "image") ((mem_types W.types_ok _).mpr (.inl rfl)) (List.getElem_mem hlt)
  have hR := (readable_of_readImage hr).1
  unfold Readable at hR
  rw [if_pos rfl] at hR
  obtain ⟨raw, _, hraw, _⟩ := hR
  exact ⟨j, _, raw, hj, List.getElem?_eq_getElem hlt, hraw⟩

/-- **C116** With the usual types nothing changes: floats for images and weights, for masks a type that has the number `2^30` (as the default `i4` does) and for seg maps any type; flags that fit
the masks of the images. -/
theorem C116_usual_types_partial (hi : Maker.init cfg hn objs images psf psfInfo md = .ok mk) (hf : env.out "image" = .float ∧ env.out "weight" = .float)
    (hb : ∀ k, env.out "bmask" = .int k → Holds k (2 ^ 30))
    (hfl : ∀ flags, cfg.unusableBmask = some flags → ∀ (j : Nat) im b, images[j]? = some im → im.plane "bmask" = some (some b) → FlagsFit env.numpy2 (env.mask j) flags) :
    mk.writeT env = .ok (mk', f) ↔ mk.write = .ok (mk', f) := by
  rw [C116_write_iff hi]
  refine ⟨fun h => h.1, fun hw => ⟨hw, ?_⟩⟩
  obtain ⟨m, hm, _⟩ := C01_written_file_opens hi hw
  refine ⟨m, hm, ⟨?_, fun _ => hfl⟩⟩
  intro t _ i k o s _ j im x _ _ _
  unfold DefaultFits
  by_cases h1 : t = "image"
  · subst h1; exact .inl hf.1
  · by_cases h2 : t = "weight"
    · subst h2; exact .inl hf.2
    · cases hk : env.out t with
      | float => exact .inl rfl
      | int k => exact .inr ⟨k, rfl, h1, h2, fun _ h3 => hb k (by rw [← h3]; exact hk)⟩

/-- **C116** (what happens) Stamps of integers cannot be written for images, whatever the version of NumPy: a write with an integer `image_dtype` completes only if there is no cutout at all. -/
theorem C116_integer_images (hi : Maker.init cfg hn objs images psf psfInfo md = .ok mk) {ty : IntType} (ht : env.out "image" = .int ty) (hw : mk.writeT env = .ok (mk', f)) {m : MEDS}
    (hm : MEDS.openFile f = .ok m) (i k : Nat) (o : ObjRow) (s : Slot) : ¬ Epoch m.cat.rows i k o s := by
  intro he
  obtain ⟨hw, m', hm', hs⟩ := (C116_write_iff hi).mp hw
  rw [hm] at hm'
  injection hm' with hm'
  subst hm'
  obtain ⟨j, im, x, h1, h2, h3⟩ := epoch_image hi hw hm he
  rcases hs.stamps "image" (.inl rfl) i k o s he j im x h1 h2 h3 with h | ⟨_, _, h, _⟩
  · rw [ht] at h; cases h
  · exact h rfl

/-- **C116** (what happens) The same for weights. -/
theorem C116_integer_weights (hi : Maker.init cfg hn objs images psf psfInfo md = .ok mk) (hwt : "weight" ∈ cfg.cutoutTypes) {ty : IntType} (ht : env.out "weight" = .int ty)
    (hw : mk.writeT env = .ok (mk', f)) {m : MEDS} (hm : MEDS.openFile f = .ok m) (i k : Nat) (o : ObjRow) (s : Slot) : ¬ Epoch m.cat.rows i k o s := by
  intro he
  obtain ⟨hw, m', hm', hs⟩ := (C116_write_iff hi).mp hw
  rw [hm] at hm'
  injection hm' with hm'
  subst hm'
  obtain ⟨j, im, _, h1, h2, _⟩ := epoch_image hi hw hm he
  obtain ⟨in0, w, W, _, _⟩ := opened_eq hi hw hm
  obtain ⟨r, hr⟩ := W.read (t := "weight") ((mem_types W.types_ok _).mpr (.inr hwt)) (List.mem_of_getElem? h2)
  obtain ⟨x, hx⟩ : ∃ x, im.plane "weight" = some (some x) := by
    apply (readable_of_readImage hr).2.mp
    rintro rfl
    obtain ⟨hR, hne⟩ := readable_of_readImage hr
    unfold Readable at hR
    rw [if_neg (by decide), if_pos rfl] at hR
    obtain ⟨_, raw, hraw, _⟩ := hR
    exact hne.mpr ⟨raw, hraw⟩ rfl
  rcases hs.stamps "weight" (.inr hwt) i k o s he j im x h1 h2 hx with h | ⟨_, _, _, h, _⟩
  · rw [ht] at h; cases h
  · exact h rfl

/-- **C116** (what happens) NumPy 2 and masks stored in a type without the number `2^30` (`i1`, `u1`, `i2`, `u2`): a write that completes has no cutout from an image that has a mask. -/
theorem C116_small_masks (hi : Maker.init cfg hn objs images psf psfInfo md = .ok mk) (hbm : "bmask" ∈ cfg.cutoutTypes) (h2 : env.numpy2 = true) {ty : IntType}
    (ht : env.out "bmask" = .int ty) (hty : ¬ Holds ty (2 ^ 30)) (hw : mk.writeT env = .ok (mk', f)) {m : MEDS} (hm : MEDS.openFile f = .ok m) {i k : Nat} {o : ObjRow} {s : Slot}
    (he : Epoch m.cat.rows i k o s) {j : Nat} {im : SrcImage} (hj : s.fileId = (j : Int)) (him : images[j]? = some im) (x : Img ℚ) : im.plane "bmask" ≠ some (some x) := by
  intro hx
  obtain ⟨hw, m', hm', hs⟩ := (C116_write_iff hi).mp hw
  rw [hm] at hm'
  injection hm' with hm'
  subst hm'
  rcases hs.stamps "bmask" (.inr hbm) i k o s he j im x hj him hx with h | ⟨k', h, _, _, h'⟩
  · rw [ht] at h; cases h
  · rw [ht] at h
    injection h with h
    subst h
    exact hty (h' h2 rfl)

/-- **C116** What completes with NumPy 2 completes with NumPy 1, with the same file, if the flags have 64 bits. -/
theorem C116_versions (hi : Maker.init cfg hn objs images psf psfInfo md = .ok mk) (hfl : ∀ flags, cfg.unusableBmask = some flags → Holds ⟨64, true⟩ flags)
    (hw : mk.writeT { env with numpy2 := true } = .ok (mk', f)) : mk.writeT { env with numpy2 := false } = .ok (mk', f) := by
  obtain ⟨hw, m, hm, hs⟩ := (C116_write_iff hi).mp hw
  refine (C116_write_iff hi).mpr ⟨hw, m, hm, ⟨?_, ?_⟩⟩
  · intro t ht i k o s he j im x h1 h2 h3
    rcases hs.stamps t ht i k o s he j im x h1 h2 h3 with h | ⟨k', h, h4, h5, _⟩
    · exact .inl h
    · exact .inr ⟨k', h, h4, h5, fun h => by cases h⟩
  · intro ht flags hf j im b h1 h2
    obtain ⟨k', h, h4, _⟩ := hs.flags ht flags hf j im b h1 h2
    refine ⟨k', h, fun h => (by cases h), fun _ => ⟨hfl flags hf, ?_⟩⟩
    rintro rfl
    exact (h4 rfl).1

/-! ### Concrete cases -/

/-- Build and write with types. -/
def Ex.completes (env : StampEnv) (cfg : MakerCfg) : Bool :=
  match Maker.init cfg true Meds.Ex.objs Meds.Ex.images (some Meds.Ex.psfs) (some "pi") "meta" with
  | .ok mk => (match mk.writeT env with | .ok _ => true | .error _ => false)
  | .error _ => false

/-- Types that differ in one place from the defaults. -/
def Ex.types (np2 : Bool) (t : String) (ty : StampType) (mask : StampType) : StampEnv :=
  ⟨np2, fun u => if u = t then ty else if u = "bmask" ∨ u = "seg" then .int .i4 else .float, fun _ => mask⟩

/-- **C116** (false in general) The small example, which is written with the default types, is not written with 16-bit integers for images or weights; with NumPy 2 not with 16-bit masks, which
NumPy 1 writes; and with NumPy 2 not if one of the flags does not fit the masks of the images. -/
theorem C116_counterexample :
    Ex.completes (Ex.types true "seg" (.int .i4) (.int .i4)) Meds.Ex.cfg = true ∧ Ex.completes (Ex.types false "image" (.int ⟨16, true⟩) (.int .i4)) Meds.Ex.cfg = false ∧
    Ex.completes (Ex.types false "weight" (.int ⟨16, true⟩) (.int .i4)) Meds.Ex.cfg = false ∧ Ex.completes (Ex.types true "bmask" (.int ⟨16, true⟩) (.int .i4)) Meds.Ex.cfg = false ∧
    Ex.completes (Ex.types false "bmask" (.int ⟨16, true⟩) (.int .i4)) Meds.Ex.cfg = true ∧
    Ex.completes (Ex.types true "seg" (.int .i4) (.int ⟨16, true⟩)) { Meds.Ex.cfg with unusableBmask := some (2 ^ 15) } = false ∧
    Ex.completes (Ex.types false "seg" (.int .i4) (.int ⟨16, true⟩)) { Meds.Ex.cfg with unusableBmask := some (2 ^ 15) } = true := by decide +kernel

-- the default types serve
example : ((Ex.types true "seg" (.int .i4) (.int .i4)).out "image" = .float ∧ (Ex.types true "seg" (.int .i4) (.int .i4)).out "weight" = .float) ∧
    Holds .i4 (2 ^ 30) ∧ FlagsFit true (.int .i4) 2 ∧ ¬ Holds ⟨16, true⟩ (2 ^ 30) ∧ ¬ Holds ⟨16, false⟩ (2 ^ 30) := by
  refine ⟨⟨rfl, rfl⟩, by decide +kernel, ⟨_, rfl, fun _ => by decide +kernel, fun h => absurd h (by decide)⟩, by decide +kernel, by decide +kernel⟩

end Meds
