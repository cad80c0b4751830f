import Verif.Lemmas.Layout
import Verif.Spec.Cutout

/-! Helper lemmas: what the cutout and PSF writers leave in the reserved extensions. -/

namespace Meds

theorem Img.ofFn_congr {α : Type} {nr nc : Nat} {f g : Nat → Nat → α} (h : ∀ i j, i < nr → j < nc → f i j = g i j) :
    Img.ofFn nr nc f = Img.ofFn nr nc g := by
  refine Img.ext_get (Img.ofFn_WF nr nc f) (Img.ofFn_WF nr nc g) rfl rfl ?_
  intro i j hi hj
  simp only [Img.ofFn_nr, Img.ofFn_nc] at hi hj
  rw [Img.ofFn_get? _ hi hj, Img.ofFn_get? _ hi hj, h i j hi hj]

namespace Maker
open Spec

theorem defaultValue_documented {t : String} {v : ℚ} (h : defaultValue t = .ok v) : documentedFill t = some v := by
  unfold defaultValue at h
  split at h
  · rename_i ht; subst ht; injection h with h; rw [← h]; rfl
  split at h
  · rename_i ht; subst ht; injection h with h; rw [← h]; rfl
  split at h
  · rename_i ht; subst ht; injection h with h; rw [← h]; rfl
  split at h
  · rename_i ht; subst ht; injection h with h; rw [← h]; norm_num [documentedFill]
  · cases h

theorem clippedBoxes_spec (dim start b : Int) :
    (clippedBoxes dim start b).1.1 = max 0 start ∧ (clippedBoxes dim start b).1.2 = min dim (start + b) ∧
    (clippedBoxes dim start b).2.1 = max 0 (-start) ∧ (clippedBoxes dim start b).2.2 = min b (dim - start) := by
  unfold clippedBoxes
  dsimp only
  split <;> split <;> dsimp only <;> omega

theorem get?_toNat_none {α : Type} {src : Img α} {i j : Int} (h : ¬ (0 ≤ i ∧ i < src.nr ∧ 0 ≤ j ∧ j < src.nc)) :
    pixelAt src i j = none := by
  unfold pixelAt
  split
  · apply Img.get?_none; omega
  · rfl

theorem subImage_ok {cfg : MakerCfg} {t : String} {src : Img ℚ} {o : ObjRow} {s : Slot} {im : Img ℚ}
    (h : subImage cfg t src o s = .ok im) :
    0 ≤ o.boxSize ∧ ∃ fill, defaultValue t = .ok fill ∧
      im = Img.ofFn o.boxSize.toNat o.boxSize.toNat (cutoutPixel (cfg.cast t) fill src s.origStartRow s.origStartCol) := by
  unfold subImage at h
  dsimp only at h
  obtain ⟨r1, r2, r3, r4⟩ := clippedBoxes_spec src.nr s.origStartRow o.boxSize
  obtain ⟨c1, c2, c3, c4⟩ := clippedBoxes_spec src.nc s.origStartCol o.boxSize
  generalize clippedBoxes src.nr s.origStartRow o.boxSize = rb at *
  generalize clippedBoxes src.nc s.origStartCol o.boxSize = cb at *
  split at h
  · cases h
  · rename_i hb
    refine ⟨by omega, ?_⟩
    obtain ⟨fill, hf, h⟩ := Res.bind_eq_ok.mp h
    refine ⟨fill, hf, ?_⟩
    split at h
    · unfold pasteBox at h
      split at h
      · split at h
        · injection h with h
          subst h
          apply Img.ofFn_congr
          intro i j hi hj
          unfold cutoutPixel
          split
          · rename_i hin
            have hpix : pixelAt src (s.origStartRow + i) (s.origStartCol + j)
                = src.get? (rb.1.1 + (i - rb.2.1)).toNat (cb.1.1 + (j - cb.2.1)).toNat := by
              unfold pixelAt
              rw [if_pos (by omega)]
              congr 2 <;> omega
            rw [hpix]
            cases src.get? (rb.1.1 + (i - rb.2.1)).toNat (cb.1.1 + (j - cb.2.1)).toNat <;> rfl
          · rename_i hout
            rw [get?_toNat_none (by omega)]
        · cases h
      · cases h
    · rename_i hnot
      injection h with h
      subst h
      apply Img.ofFn_congr
      intro i j hi hj
      unfold cutoutPixel
      rw [get?_toNat_none (by omega)]

/-- `_write_cutout` never slices outside the arrays: with a non-negative box and a documented fill value it succeeds. -/
theorem subImage_isOk {cfg : MakerCfg} {t : String} {src : Img ℚ} {o : ObjRow} {s : Slot} {fill : ℚ}
    (hb : 0 ≤ o.boxSize) (hf : defaultValue t = .ok fill) : ∃ im, subImage cfg t src o s = .ok im := by
  unfold subImage
  dsimp only
  obtain ⟨r1, r2, r3, r4⟩ := clippedBoxes_spec src.nr s.origStartRow o.boxSize
  obtain ⟨c1, c2, c3, c4⟩ := clippedBoxes_spec src.nc s.origStartCol o.boxSize
  generalize clippedBoxes src.nr s.origStartRow o.boxSize = rb at *
  generalize clippedBoxes src.nc s.origStartCol o.boxSize = cb at *
  rw [if_neg (by omega), hf]
  simp only [Res.ok_bind]
  split
  · unfold pasteBox
    rw [if_pos (by omega), if_pos (by omega)]
    exact ⟨_, rfl⟩
  · exact ⟨_, rfl⟩

theorem subImage_flat_length {cfg : MakerCfg} {t : String} {src : Img ℚ} {o : ObjRow} {s : Slot} {im : Img ℚ}
    (h : subImage cfg t src o s = .ok im) : (im.flat.length : Int) = o.boxSize * o.boxSize := by
  obtain ⟨hb, fill, _, rfl⟩ := subImage_ok h
  rw [Img.ofFn_flat_length]
  push_cast
  rw [Int.toNat_of_nonneg hb]

/-! ### progress of a sequence of writes toward a target -/

/-- A step only moves the buffer toward the target `T`. -/
def Toward (T buf buf' : List ℚ) : Prop :=
  (Partial 0 T buf → Partial 0 T buf') ∧ ∀ p : Nat, buf[p]? = T[p]? → buf'[p]? = T[p]?

theorem Toward.refl (T buf : List ℚ) : Toward T buf buf := ⟨id, fun _ h => h⟩

theorem Toward.trans {T a b c : List ℚ} (h₁ : Toward T a b) (h₂ : Toward T b c) : Toward T a c :=
  ⟨fun h => h₂.1 (h₁.1 h), fun p h => h₂.2 p (h₁.2 p h)⟩

theorem Toward.write {T buf buf' xs : List ℚ} {s : Int} (ha : AgreesWith T s xs) (h : overwrite buf s xs = .ok buf') :
    Toward T buf buf' :=
  ⟨fun hp => hp.overwrite ha h, fun _ hp => final_mono ha h hp⟩

/-- A piece has its final content. -/
def DoneAt (T : List ℚ) (s : Int) (n : Int) (buf : List ℚ) : Prop :=
  ∀ p : Nat, s.toNat ≤ p → (p : Int) < s.toNat + n → buf[p]? = T[p]?

theorem DoneAt.mono {T buf buf' : List ℚ} {s n : Int} (h : DoneAt T s n buf) (ht : Toward T buf buf') : DoneAt T s n buf' :=
  fun p h1 h2 => ht.2 p (h p h1 h2)

theorem fold_toward {α : Type} {T : List ℚ} {f : List ℚ → α → Res (List ℚ)} {l : List α} {buf buf' : List ℚ}
    (hstep : ∀ b b' x, x ∈ l → f b x = .ok b' → Toward T b b')
    (h : foldRes f buf l = .ok buf') : Toward T buf buf' := by
  induction l generalizing buf with
  | nil => simp only [foldRes] at h; injection h with h; subst h; exact Toward.refl _ _
  | cons x xs ih =>
    obtain ⟨t, ht, h⟩ := foldRes_cons_ok.mp h
    exact (hstep _ _ x (by simp) ht).trans (ih (fun b b' y hy => hstep b b' y (by simp [hy])) h)

theorem fold_done {α : Type} {T : List ℚ} {f : List ℚ → α → Res (List ℚ)} {l : List α} {buf buf' : List ℚ}
    (hstep : ∀ b b' x, x ∈ l → f b x = .ok b' → Toward T b b')
    (h : foldRes f buf l = .ok buf') {x : α} (hx : x ∈ l) {s n : Int}
    (hd : ∀ b b', f b x = .ok b' → DoneAt T s n b') : DoneAt T s n buf' := by
  induction l generalizing buf with
  | nil => cases hx
  | cons y ys ih =>
    obtain ⟨t, ht, h2⟩ := foldRes_cons_ok.mp h
    rcases List.mem_cons.mp hx with rfl | hx
    · exact (hd _ _ ht).mono (fold_toward (fun b b' z hz => hstep b b' z (List.mem_cons_of_mem _ hz)) h2)
    · exact ih (fun b b' z hz => hstep b b' z (List.mem_cons_of_mem _ hz)) h2 hx

/-! ### cutouts -/

theorem writeObjCutouts_toward {cfg : MakerCfg} {t : String} {fileId : Nat} {src : Img ℚ} {o : ObjRow} {T : List ℚ}
    {n : Nat} {ss : List Slot} {buf buf' : List ℚ}
    (hag : ∀ s ∈ ss.take n, s.fileId = (fileId : Int) → ∀ sub, subImage cfg t src o s = .ok sub → AgreesWith T s.startRow sub.flat)
    (h : writeObjCutouts cfg t fileId src o n ss buf = .ok buf') :
    Toward T buf buf' ∧ ∀ s ∈ ss.take n, s.fileId = (fileId : Int) →
      (∃ sub, subImage cfg t src o s = .ok sub) ∧ DoneAt T s.startRow (o.boxSize * o.boxSize) buf' := by
  induction n generalizing ss buf with
  | zero =>
    simp only [writeObjCutouts] at h
    injection h with h; subst h
    exact ⟨Toward.refl _ _, by simp⟩
  | succ n ih =>
    cases ss with
    | nil => cases h
    | cons s ss =>
      simp only [writeObjCutouts] at h
      obtain ⟨mid, hm, h⟩ := Res.bind_eq_ok.mp h
      obtain ⟨i1, i2⟩ := ih (fun s' hs' => hag s' (by simp [hs'])) h
      split at hm
      · rename_i hf
        obtain ⟨sub, hsub, hm⟩ := Res.bind_eq_ok.mp hm
        have ag := hag s (by simp) hf sub hsub
        refine ⟨(Toward.write ag hm).trans i1, ?_⟩
        intro s' hs' hf'
        simp only [List.take_succ_cons, List.mem_cons] at hs'
        rcases hs' with rfl | hs'
        · refine ⟨⟨sub, hsub⟩, DoneAt.mono ?_ i1⟩
          intro p hp hp'
          refine final_new ag hm hp ?_
          have := subImage_flat_length hsub
          omega
        · exact i2 s' hs' hf'
      · rename_i hf
        injection hm with hm
        subst hm
        refine ⟨i1, ?_⟩
        intro s' hs' hf'
        simp only [List.take_succ_cons, List.mem_cons] at hs'
        rcases hs' with rfl | hs'
        · exact absurd hf' hf
        · exact i2 s' hs' hf'

/-- The block that a stored epoch must end up with; zeros (the reserved value) when the image has no such plane. -/
def content (cfg : MakerCfg) (images : List SrcImage) (t : String) (o : ObjRow) (s : Slot) : List ℚ :=
  match images[s.fileId.toNat]? with
  | some im =>
    match readImage cfg im t with
    | .ok (some src) =>
      match subImage cfg t src o s with
      | .ok sub => sub.flat
      | .error _ => List.replicate (o.boxSize * o.boxSize).toNat 0
    | _ => List.replicate (o.boxSize * o.boxSize).toNat 0
  | none => List.replicate (o.boxSize * o.boxSize).toNat 0

theorem content_length (cfg : MakerCfg) (images : List SrcImage) (t : String) (o : ObjRow) (s : Slot) :
    ((content cfg images t o s).length : Int) = o.boxSize * o.boxSize := by
  have hz : ((List.replicate (o.boxSize * o.boxSize).toNat (0 : ℚ)).length : Int) = o.boxSize * o.boxSize := by
    rw [List.length_replicate, Int.toNat_of_nonneg (mul_self_nonneg _)]
  unfold content
  split
  · split
    · split
      · rename_i hs; exact subImage_flat_length hs
      · exact hz
    · exact hz
  · exact hz

/-- All stored (object, epoch) pairs in row-major order. -/
def cells (objs : List ObjRow) : List (ObjRow × Slot) :=
  objs.flatMap (fun o => (o.slots.take o.ncutout.toNat).map (fun s => (o, s)))

theorem mem_cells {objs : List ObjRow} {o : ObjRow} {s : Slot} :
    (o, s) ∈ cells objs ↔ o ∈ objs ∧ s ∈ o.slots.take o.ncutout.toNat := by
  simp only [cells, List.mem_flatMap, List.mem_map, Prod.mk.injEq]
  constructor
  · rintro ⟨o', ho', s', hs', rfl, rfl⟩; exact ⟨ho', hs'⟩
  · rintro ⟨ho, hs⟩; exact ⟨o, ho, s, hs, rfl, rfl⟩

theorem regions_eq_cells (objs : List ObjRow) :
    regions objs = (cells objs).map (fun c => (c.2.startRow, c.1.boxSize * c.1.boxSize)) := by
  simp only [regions, cells, List.map_flatMap, List.map_map]
  rfl

theorem psfRegions_eq_cells (objs : List ObjRow) :
    psfRegions objs = (cells objs).map (fun c => (c.2.psfStartRow, c.2.psfRowSize * c.2.psfColSize)) := by
  simp only [psfRegions, cells, List.map_flatMap, List.map_map]
  rfl

/-- The final content of the extension of type `t`. -/
def target (cfg : MakerCfg) (images : List SrcImage) (t : String) (objs : List ObjRow) : List ℚ :=
  ((cells objs).map (fun c => content cfg images t c.1 c.2)).flatten

theorem forall₂_map_map {α β γ : Type} {R : β → γ → Prop} {f : α → β} {g : α → γ} {l : List α}
    (h : ∀ a ∈ l, R (f a) (g a)) : List.Forall₂ R (l.map f) (l.map g) := by
  induction l with
  | nil => exact .nil
  | cons x xs ih => exact .cons (h x (by simp)) (ih (fun a ha => h a (by simp [ha])))

theorem target_at {cfg : MakerCfg} {images : List SrcImage} {t : String} {objs : List ObjRow} {e : Int}
    (hc : Consec 0 (regions objs) e) {o : ObjRow} {s : Slot} (hm : (o, s) ∈ cells objs) :
    AgreesWith (target cfg images t objs) s.startRow (content cfg images t o s) := by
  intro j hj
  rw [regions_eq_cells] at hc
  obtain ⟨i, hi, hio⟩ := List.mem_iff_getElem.mp hm
  have hio' : (cells objs)[i]? = some (o, s) := by rw [List.getElem?_eq_getElem hi, hio]
  have := flatten_getElem? (α := ℚ) (bs := (cells objs).map (fun c => content cfg images t c.1 c.2)) hc
    (forall₂_map_map (fun a _ => content_length cfg images t a.1 a.2))
    (i := i) (r := (s.startRow, o.boxSize * o.boxSize)) (b := content cfg images t o s)
    (by rw [List.getElem?_map, hio']; rfl) (by rw [List.getElem?_map, hio']; rfl) hj
  simpa [target] using this

theorem target_length {cfg : MakerCfg} {images : List SrcImage} {t : String} {objs : List ObjRow} {e : Int}
    (hc : Consec 0 (regions objs) e) : ((target cfg images t objs).length : Int) = e := by
  rw [regions_eq_cells] at hc
  have := flatten_length (α := ℚ) (bs := (cells objs).map (fun c => content cfg images t c.1 c.2)) hc
    (forall₂_map_map (fun a _ => content_length cfg images t a.1 a.2))
  simpa [target] using this

theorem mem_numbered {α : Type} {l : List α} {i : Nat} {x : α} : (i, x) ∈ numbered l ↔ l[i]? = some x := by
  simp only [numbered]
  rw [List.mem_iff_getElem?]
  constructor
  · rintro ⟨k, hk⟩
    rw [List.getElem?_zip_eq_some] at hk
    obtain ⟨h1, h2⟩ := hk
    obtain ⟨h3, h4⟩ := List.getElem?_eq_some_iff.mp h1
    simp only [List.getElem_range] at h4
    subst h4; exact h2
  · intro h
    obtain ⟨h3, h4⟩ := List.getElem?_eq_some_iff.mp h
    refine ⟨i, ?_⟩
    rw [List.getElem?_zip_eq_some]
    exact ⟨by simp [h3], h⟩

/-- All epochs in use refer to existing images. -/
def FileIdsOk (images : List SrcImage) (objs : List ObjRow) : Prop :=
  ∀ o s, (o, s) ∈ cells objs → 0 ≤ s.fileId ∧ s.fileId < images.length

theorem content_eq {cfg : MakerCfg} {images : List SrcImage} {t : String} {o : ObjRow} {s : Slot} {i : Nat} {im : SrcImage}
    {src sub : Img ℚ} (hi : s.fileId = (i : Int)) (him : images[i]? = some im) (hr : readImage cfg im t = .ok (some src))
    (hsub : subImage cfg t src o s = .ok sub) : content cfg images t o s = sub.flat := by
  unfold content
  rw [hi, Int.toNat_natCast, him]
  simp only [hr, hsub]

theorem writeFileCutouts_toward {mk : Maker} {t : String} {e : Int} (hc : Consec 0 (regions mk.objs) e)
    {fi : Nat × SrcImage} (hfi : fi ∈ numbered mk.images) {buf buf' : List ℚ}
    (h : writeFileCutouts mk.cfg t mk.objs buf fi = .ok buf') :
    Toward (target mk.cfg mk.images t mk.objs) buf buf' ∧
    ∀ src, readImage mk.cfg fi.2 t = .ok (some src) → ∀ o s, (o, s) ∈ cells mk.objs → s.fileId = (fi.1 : Int) →
      (∃ sub, subImage mk.cfg t src o s = .ok sub) ∧
      DoneAt (target mk.cfg mk.images t mk.objs) s.startRow (o.boxSize * o.boxSize) buf' := by
  have him := mem_numbered.mp hfi
  unfold writeFileCutouts at h
  obtain ⟨r, hr, h⟩ := Res.bind_eq_ok.mp h
  cases r with
  | none =>
    injection h with h; subst h
    refine ⟨Toward.refl _ _, ?_⟩
    intro src hsrc
    rw [hr] at hsrc; cases hsrc
  | some src =>
    have step : ∀ b b' o, o ∈ mk.objs → writeObjCutouts mk.cfg t fi.1 src o o.ncutout.toNat o.slots b = .ok b' →
        Toward (target mk.cfg mk.images t mk.objs) b b' ∧ ∀ s ∈ o.slots.take o.ncutout.toNat, s.fileId = (fi.1 : Int) →
          (∃ sub, subImage mk.cfg t src o s = .ok sub) ∧
          DoneAt (target mk.cfg mk.images t mk.objs) s.startRow (o.boxSize * o.boxSize) b' := by
      intro b b' o ho hb
      apply writeObjCutouts_toward _ hb
      intro s hs hf sub hsub
      rw [← content_eq (images := mk.images) hf him hr hsub]
      exact target_at hc (mem_cells.mpr ⟨ho, hs⟩)
    refine ⟨fold_toward (fun b b' o ho hb => (step b b' o ho hb).1) h, ?_⟩
    intro src' hsrc o s hos hf
    rw [hr] at hsrc
    injection hsrc with hsrc
    injection hsrc with hsrc
    subst hsrc
    obtain ⟨ho, hs⟩ := mem_cells.mp hos
    constructor
    · -- the step at `o` was executed
      clear hc
      have : ∀ (l : List ObjRow) (b : List ℚ), o ∈ l → (∀ x ∈ l, x ∈ mk.objs) →
          foldRes (fun b o => writeObjCutouts mk.cfg t fi.1 src o o.ncutout.toNat o.slots b) b l = .ok buf' →
          ∃ sub, subImage mk.cfg t src o s = .ok sub := by
        intro l
        induction l with
        | nil => intro b hl; cases hl
        | cons x xs ih =>
          intro b hl hsub h
          obtain ⟨t', ht', h⟩ := foldRes_cons_ok.mp h
          rcases List.mem_cons.mp hl with rfl | hl
          · exact ((step _ _ _ (hsub _ (by simp)) ht').2 s hs hf).1
          · exact ih t' hl (fun y hy => hsub y (by simp [hy])) h
      exact this mk.objs buf ho (fun x hx => hx) h
    · exact fold_done (fun b b' o ho hb => (step b b' o ho hb).1) h ho (fun b b' hb => ((step b b' o ho hb).2 s hs hf).2)

theorem writeCutouts_toward {mk : Maker} {t : String} {e : Int} (hc : Consec 0 (regions mk.objs) e)
    {buf buf' : List ℚ} (h : mk.writeCutouts t buf = .ok buf') :
    Toward (target mk.cfg mk.images t mk.objs) buf buf' ∧
    ∀ (i : Nat) im src, mk.images[i]? = some im → readImage mk.cfg im t = .ok (some src) →
      ∀ o s, (o, s) ∈ cells mk.objs → s.fileId = (i : Int) →
      (∃ sub, subImage mk.cfg t src o s = .ok sub) ∧
      DoneAt (target mk.cfg mk.images t mk.objs) s.startRow (o.boxSize * o.boxSize) buf' := by
  unfold writeCutouts at h
  refine ⟨fold_toward (fun b b' fi hfi hb => (writeFileCutouts_toward hc hfi hb).1) h, ?_⟩
  intro i im src him hr o s hos hf
  constructor
  · have : ∀ (l : List (Nat × SrcImage)) (b : List ℚ), (i, im) ∈ l → (∀ x ∈ l, x ∈ numbered mk.images) →
        foldRes (writeFileCutouts mk.cfg t mk.objs) b l = .ok buf' → ∃ sub, subImage mk.cfg t src o s = .ok sub := by
      intro l
      induction l with
      | nil => intro b hl; cases hl
      | cons x xs ih =>
        intro b hl hsub h
        obtain ⟨t', ht', h⟩ := foldRes_cons_ok.mp h
        rcases List.mem_cons.mp hl with rfl | hl
        · exact ((writeFileCutouts_toward hc (hsub _ (by simp)) ht').2 src hr o s hos hf).1
        · exact ih t' hl (fun y hy => hsub y (by simp [hy])) h
    exact this _ buf (mem_numbered.mpr him) (fun x hx => hx) h
  · exact fold_done (fun b b' fi hfi hb => (writeFileCutouts_toward hc hfi hb).1) h (mem_numbered.mpr him)
      (fun b b' hb => ((writeFileCutouts_toward hc (mem_numbered.mpr him) hb).2 src hr o s hos hf).2)

/-- The whole extension: starting from the reserved zeros (or any partial state) the writer produces exactly the target. -/
theorem writeCutouts_eq {mk : Maker} {t : String} {e : Int} (hc : Consec 0 (regions mk.objs) e)
    (hid : FileIdsOk mk.images mk.objs)
    {buf buf' : List ℚ} (hp : Partial 0 (target mk.cfg mk.images t mk.objs) buf)
    (h : mk.writeCutouts t buf = .ok buf') : buf' = target mk.cfg mk.images t mk.objs := by
  obtain ⟨h1, h2⟩ := writeCutouts_toward hc h
  have hp' := h1.1 hp
  apply List.ext_getElem?
  intro p
  by_cases hlt : p < (target mk.cfg mk.images t mk.objs).length
  · have hlen := target_length (cfg := mk.cfg) (images := mk.images) (t := t) hc
    have hc' := hc
    rw [regions_eq_cells] at hc'
    obtain ⟨r, hr, hr1, hr2⟩ := Consec.cover hc' (p := (p : Int)) (by omega) (by omega)
    obtain ⟨⟨o, s⟩, hos, rfl⟩ := List.mem_map.mp hr
    dsimp only at hr1 hr2
    obtain ⟨hf0, hf1⟩ := hid o s hos
    have hb := (Consec.bounds hc' hr)
    dsimp only at hb
    obtain ⟨im, him⟩ : ∃ im, mk.images[s.fileId.toNat]? = some im :=
      ⟨mk.images[s.fileId.toNat]'(by omega), List.getElem?_eq_getElem _⟩
    have hag := target_at (cfg := mk.cfg) (images := mk.images) (t := t) hc hos
    have hcl := content_length mk.cfg mk.images t o s
    cases hri : readImage mk.cfg im t with
    | ok x =>
      cases x with
      | some src =>
        exact (h2 _ im src him hri o s hos (by omega)).2 p (by omega) (by omega)
      | none =>
        have hzero : content mk.cfg mk.images t o s = List.replicate (o.boxSize * o.boxSize).toNat 0 := by
          unfold content; rw [him]; simp only [hri]
        rcases hp'.2 p hlt with h | h
        · have := hag (p - s.startRow.toNat) (by omega)
          rw [hzero, List.getElem?_replicate, if_pos (by omega)] at this
          rw [h, ← this]
          congr 1; omega
        · exact h
    | error er =>
      have hzero : content mk.cfg mk.images t o s = List.replicate (o.boxSize * o.boxSize).toNat 0 := by
        unfold content; rw [him]; simp only [hri]
      rcases hp'.2 p hlt with h | h
      · have := hag (p - s.startRow.toNat) (by omega)
        rw [hzero, List.getElem?_replicate, if_pos (by omega)] at this
        rw [h, ← this]
        congr 1; omega
      · exact h
  · rw [List.getElem?_eq_none (by rw [hp'.1]; omega), List.getElem?_eq_none (by omega)]

/-! ### PSF images -/

/-- The PSF image drawn for a stored epoch has the shape recorded in the catalogue. -/
def PsfDrawn (psf : List PsfModel) (sky : SkyPos) (s : Slot) (p : PsfModel) : Prop :=
  pyGet psf s.fileId = .ok p ∧ ((p.getRec sky s.origRow s.origCol).nr : Int) = s.psfRowSize ∧
    ((p.getRec sky s.origRow s.origCol).nc : Int) = s.psfColSize

/-- numpy arrays are well formed. -/
def PsfWF (psf : List PsfModel) : Prop := ∀ p ∈ psf, ∀ sky r c, (p.getRec sky r c).WF

theorem writeObjPsf_drawn {cfg : MakerCfg} {psf : List PsfModel} {sky : SkyPos} {n : Nat} {ss : List Slot}
    {buf buf' : List ℚ} (h : writeObjPsf cfg psf sky n ss buf = .ok buf') :
    ∀ s ∈ ss.take n, ∃ p, PsfDrawn psf sky s p := by
  induction n generalizing ss buf with
  | zero => simp
  | succ n ih =>
    cases ss with
    | nil => cases h
    | cons s ss =>
      simp only [writeObjPsf] at h
      obtain ⟨p, hp, h⟩ := Res.bind_eq_ok.mp h
      obtain ⟨mid, hm, h⟩ := Res.bind_eq_ok.mp h
      intro s' hs'
      simp only [List.take_succ_cons, List.mem_cons] at hs'
      rcases hs' with rfl | hs'
      · unfold writePsfImage at hm
        split at hm
        · cases hm
        · rename_i hh
          exact ⟨p, hp, by omega, by omega⟩
      · exact ih h s' hs'

theorem fold_each {α : Type} {f : List ℚ → α → Res (List ℚ)} {l : List α} {buf buf' : List ℚ} {P : α → Prop}
    (hP : ∀ b b' x, x ∈ l → f b x = .ok b' → P x) (h : foldRes f buf l = .ok buf') : ∀ x ∈ l, P x := by
  induction l generalizing buf with
  | nil => simp
  | cons x xs ih =>
    obtain ⟨t, ht, h⟩ := foldRes_cons_ok.mp h
    intro y hy
    rcases List.mem_cons.mp hy with rfl | hy
    · exact hP _ _ _ (by simp) ht
    · exact ih (fun b b' z hz => hP b b' z (by simp [hz])) h y hy

/-- The PSF block of a stored epoch. -/
def psfContent (cfg : MakerCfg) (psf : List PsfModel) (o : ObjRow) (s : Slot) : List ℚ :=
  match pyGet psf s.fileId with
  | .ok p => (p.getRec o.sky s.origRow s.origCol).flat.map (cfg.cast "psf")
  | .error _ => []

/-- The final PSF extension. -/
def psfTarget (cfg : MakerCfg) (psf : List PsfModel) (objs : List ObjRow) : List ℚ :=
  ((cells objs).map (fun c => psfContent cfg psf c.1 c.2)).flatten

theorem psfContent_length {cfg : MakerCfg} {psf : List PsfModel} (hwf : PsfWF psf) {o : ObjRow} {s : Slot} {p : PsfModel}
    (h : PsfDrawn psf o.sky s p) : ((psfContent cfg psf o s).length : Int) = s.psfRowSize * s.psfColSize := by
  unfold psfContent
  obtain ⟨h1, h2, h3⟩ := h
  rw [h1]
  simp only [List.length_map]
  rw [hwf p (pyGet_ok h1)]
  push_cast
  rw [h2, h3]

/-- Every epoch in use has a drawn PSF of the recorded shape. -/
def AllDrawn (psf : List PsfModel) (objs : List ObjRow) : Prop :=
  ∀ o s, (o, s) ∈ cells objs → ∃ p, PsfDrawn psf o.sky s p

theorem psfTarget_at {cfg : MakerCfg} {psf : List PsfModel} {objs : List ObjRow} {e : Int} (hwf : PsfWF psf)
    (hd : AllDrawn psf objs)
    (hc : Consec 0 (psfRegions objs) e) {o : ObjRow} {s : Slot} (hm : (o, s) ∈ cells objs) :
    AgreesWith (psfTarget cfg psf objs) s.psfStartRow (psfContent cfg psf o s) := by
  intro j hj
  rw [psfRegions_eq_cells] at hc
  obtain ⟨i, hi, hio⟩ := List.mem_iff_getElem.mp hm
  have hio' : (cells objs)[i]? = some (o, s) := by rw [List.getElem?_eq_getElem hi, hio]
  have := flatten_getElem? (α := ℚ) (bs := (cells objs).map (fun c => psfContent cfg psf c.1 c.2)) hc
    (forall₂_map_map (fun a ha => by
      obtain ⟨p, hp⟩ := hd a.1 a.2 ha
      exact psfContent_length hwf hp))
    (i := i) (r := (s.psfStartRow, s.psfRowSize * s.psfColSize)) (b := psfContent cfg psf o s)
    (by rw [List.getElem?_map, hio']; rfl) (by rw [List.getElem?_map, hio']; rfl) hj
  simpa [psfTarget] using this

theorem psfTarget_length {cfg : MakerCfg} {psf : List PsfModel} {objs : List ObjRow} {e : Int} (hwf : PsfWF psf)
    (hd : AllDrawn psf objs) (hc : Consec 0 (psfRegions objs) e) : ((psfTarget cfg psf objs).length : Int) = e := by
  rw [psfRegions_eq_cells] at hc
  have := flatten_length (α := ℚ) (bs := (cells objs).map (fun c => psfContent cfg psf c.1 c.2)) hc
    (forall₂_map_map (fun a ha => by
      obtain ⟨p, hp⟩ := hd a.1 a.2 ha
      exact psfContent_length hwf hp))
  simpa [psfTarget] using this

theorem writePsfSerial_drawn {mk : Maker} {psf : List PsfModel} {buf buf' : List ℚ}
    (h : mk.writePsfSerial psf buf = .ok buf') : AllDrawn psf mk.objs := by
  intro o s hos
  obtain ⟨ho, hs⟩ := mem_cells.mp hos
  exact fold_each (P := fun o => ∀ s ∈ o.slots.take o.ncutout.toNat, ∃ p, PsfDrawn psf o.sky s p)
    (fun b b' o _ hb => writeObjPsf_drawn hb) h o ho s hs

theorem writeObjPsf_toward {cfg : MakerCfg} {psf : List PsfModel} {o : ObjRow} {T : List ℚ} {n : Nat} {ss : List Slot}
    {buf buf' : List ℚ}
    (hag : ∀ s ∈ ss.take n, AgreesWith T s.psfStartRow (psfContent cfg psf o s))
    (h : writeObjPsf cfg psf o.sky n ss buf = .ok buf') :
    Toward T buf buf' ∧ ∀ s ∈ ss.take n, DoneAt T s.psfStartRow (psfContent cfg psf o s).length buf' := by
  induction n generalizing ss buf with
  | zero =>
    simp only [writeObjPsf] at h
    injection h with h; subst h
    exact ⟨Toward.refl _ _, by simp⟩
  | succ n ih =>
    cases ss with
    | nil => cases h
    | cons s ss =>
      simp only [writeObjPsf] at h
      obtain ⟨p, hp, h⟩ := Res.bind_eq_ok.mp h
      obtain ⟨mid, hm, h⟩ := Res.bind_eq_ok.mp h
      obtain ⟨i1, i2⟩ := ih (fun s' hs' => hag s' (by simp [hs'])) h
      unfold writePsfImage at hm
      split at hm
      · cases hm
      · have hcont : psfContent cfg psf o s = (p.getRec o.sky s.origRow s.origCol).flat.map (cfg.cast "psf") := by
          unfold psfContent; rw [hp]
        rw [← hcont] at hm
        have ag := hag s (by simp)
        refine ⟨(Toward.write ag hm).trans i1, ?_⟩
        intro s' hs'
        simp only [List.take_succ_cons, List.mem_cons] at hs'
        rcases hs' with rfl | hs'
        · refine DoneAt.mono ?_ i1
          intro q hq hq'
          exact final_new ag hm hq (by omega)
        · exact i2 s' hs'

theorem writePsfSerial_toward {mk : Maker} {psf : List PsfModel} {e : Int} (hwf : PsfWF psf)
    (hc : Consec 0 (psfRegions mk.objs) e) {buf buf' : List ℚ} (h : mk.writePsfSerial psf buf = .ok buf') :
    Toward (psfTarget mk.cfg psf mk.objs) buf buf' ∧
    ∀ o s, (o, s) ∈ cells mk.objs →
      DoneAt (psfTarget mk.cfg psf mk.objs) s.psfStartRow (psfContent mk.cfg psf o s).length buf' := by
  have hd := writePsfSerial_drawn h
  have step : ∀ b b' o, o ∈ mk.objs → writeObjPsf mk.cfg psf o.sky o.ncutout.toNat o.slots b = .ok b' →
      Toward (psfTarget mk.cfg psf mk.objs) b b' ∧ ∀ s ∈ o.slots.take o.ncutout.toNat,
        DoneAt (psfTarget mk.cfg psf mk.objs) s.psfStartRow (psfContent mk.cfg psf o s).length b' := by
    intro b b' o ho hb
    exact writeObjPsf_toward (fun s hs => psfTarget_at hwf hd hc (mem_cells.mpr ⟨ho, hs⟩)) hb
  refine ⟨fold_toward (fun b b' o ho hb => (step b b' o ho hb).1) h, ?_⟩
  intro o s hos
  obtain ⟨ho, hs⟩ := mem_cells.mp hos
  exact fold_done (fun b b' o ho hb => (step b b' o ho hb).1) h ho (fun b b' hb => (step b b' o ho hb).2 s hs)

theorem writePsfSerial_eq {mk : Maker} {psf : List PsfModel} {e : Int} (hwf : PsfWF psf)
    (hc : Consec 0 (psfRegions mk.objs) e) {buf buf' : List ℚ} (hlen : (buf.length : Int) = e)
    (h : mk.writePsfSerial psf buf = .ok buf') : buf' = psfTarget mk.cfg psf mk.objs := by
  obtain ⟨_, h2⟩ := writePsfSerial_toward hwf hc h
  have hd := writePsfSerial_drawn h
  have hl := psfTarget_length (cfg := mk.cfg) hwf hd hc
  have hl' : buf'.length = buf.length := by
    refine foldRes_inv (P := fun b : List ℚ => b.length = buf.length) rfl ?_ h
    intro b b' o _ hb hstep
    have : ∀ (n : Nat) (ss : List Slot) (b : List ℚ), writeObjPsf mk.cfg psf o.sky n ss b = .ok b' → b'.length = b.length := by
      intro n
      induction n with
      | zero => intro ss b h; simp only [writeObjPsf] at h; injection h with h; rw [h]
      | succ n ih =>
        intro ss b h
        cases ss with
        | nil => cases h
        | cons s ss =>
          simp only [writeObjPsf] at h
          obtain ⟨p, hp, h⟩ := Res.bind_eq_ok.mp h
          obtain ⟨mid, hm, h⟩ := Res.bind_eq_ok.mp h
          rw [ih ss mid h]
          unfold writePsfImage at hm
          split at hm
          · cases hm
          · exact (overwrite_ok hm).2.2.1
    rw [this _ _ _ hstep, hb]
  apply List.ext_getElem?
  intro p
  by_cases hlt : p < (psfTarget mk.cfg psf mk.objs).length
  · have hc' := hc
    rw [psfRegions_eq_cells] at hc'
    obtain ⟨r, hr, hr1, hr2⟩ := Consec.cover hc' (p := (p : Int)) (by omega) (by omega)
    obtain ⟨⟨o, s⟩, hos, rfl⟩ := List.mem_map.mp hr
    dsimp only at hr1 hr2
    have hb := (Consec.bounds hc' hr)
    dsimp only at hb
    obtain ⟨q, hq⟩ := hd o s hos
    have := psfContent_length (cfg := mk.cfg) hwf hq
    exact h2 o s hos p (by omega) (by omega)
  · rw [List.getElem?_eq_none (by omega), List.getElem?_eq_none (by omega)]

end Maker
end Meds
