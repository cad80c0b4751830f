import Verif.Model.PixelNaN
import Verif.Lemmas.Written
import Verif.Lemmas.Reader

/-! Helper lemmas: the writing of cutouts with pixels of any type. -/

namespace Meds
namespace Maker
open Spec Compare

section Generic
variable {α : Type} {z : α}

/-- A step only moves the buffer toward the target `T`. -/
def TowardG (z : α) (T buf buf' : List α) : Prop :=
  (Partial z T buf → Partial z T buf') ∧ ∀ p : Nat, buf[p]? = T[p]? → buf'[p]? = T[p]?

theorem TowardG.refl (T buf : List α) : TowardG z T buf buf := ⟨id, fun _ h => h⟩

theorem TowardG.trans {T a b c : List α} (h₁ : TowardG z T a b) (h₂ : TowardG z T b c) : TowardG z T a c :=
  ⟨fun h => h₂.1 (h₁.1 h), fun p h => h₂.2 p (h₁.2 p h)⟩

theorem TowardG.write {T buf buf' xs : List α} {s : Int} (ha : AgreesWith T s xs) (h : overwrite buf s xs = .ok buf') :
    TowardG z T buf buf' :=
  ⟨fun hp => hp.overwrite ha h, fun _ hp => final_mono ha h hp⟩

/-- A piece has its final content. -/
def DoneAtG (T : List α) (s : Int) (n : Int) (buf : List α) : Prop :=
  ∀ p : Nat, s.toNat ≤ p → (p : Int) < s.toNat + n → buf[p]? = T[p]?

theorem DoneAtG.mono {T buf buf' : List α} {s n : Int} (h : DoneAtG T s n buf) (ht : TowardG z T buf buf') : DoneAtG T s n buf' :=
  fun p h1 h2 => ht.2 p (h p h1 h2)

theorem fold_towardG {β : Type} {T : List α} {f : List α → β → Res (List α)} {l : List β} {buf buf' : List α}
    (hstep : ∀ b b' x, x ∈ l → f b x = .ok b' → TowardG z T b b')
    (h : foldRes f buf l = .ok buf') : TowardG z T buf buf' := by
  induction l generalizing buf with
  | nil => simp only [foldRes] at h; injection h with h; subst h; exact TowardG.refl _ _
  | cons x xs ih =>
    obtain ⟨t, ht, h⟩ := foldRes_cons_ok.mp h
    exact (hstep _ _ x (by simp) ht).trans (ih (fun b b' y hy => hstep b b' y (by simp [hy])) h)

theorem fold_doneG {β : Type} {T : List α} {f : List α → β → Res (List α)} {l : List β} {buf buf' : List α}
    (hstep : ∀ b b' x, x ∈ l → f b x = .ok b' → TowardG z T b b')
    (h : foldRes f buf l = .ok buf') {x : β} (hx : x ∈ l) {s n : Int}
    (hd : ∀ b b', f b x = .ok b' → DoneAtG T s n b') : DoneAtG T s n buf' := by
  induction l generalizing buf with
  | nil => cases hx
  | cons y ys ih =>
    obtain ⟨t, ht, h2⟩ := foldRes_cons_ok.mp h
    rcases List.mem_cons.mp hx with rfl | hx
    · exact (hd _ _ ht).mono (fold_towardG (fun b b' z hz => hstep b b' z (List.mem_cons_of_mem _ hz)) h2)
    · exact ih (fun b b' z hz => hstep b b' z (List.mem_cons_of_mem _ hz)) h2 hx


variable {read : Nat → SrcImage → Res (Option (Img α))} {sub : Img α → ObjRow → Slot → Res (Img α)} {images : List SrcImage} {objs : List ObjRow}

/-- What `sub` cuts out has the size of the box. -/
def Fills (sub : Img α → ObjRow → Slot → Res (Img α)) : Prop :=
  ∀ src o s im, sub src o s = .ok im → (im.flat.length : Int) = o.boxSize * o.boxSize

theorem writeObjCutoutsG_toward (hF : Fills sub) {fileId : Nat} {src : Img α} {o : ObjRow} {T : List α}
    {n : Nat} {ss : List Slot} {buf buf' : List α}
    (hag : ∀ s ∈ ss.take n, s.fileId = (fileId : Int) → ∀ im, sub src o s = .ok im → AgreesWith T s.startRow im.flat)
    (h : writeObjCutoutsG sub fileId src o n ss buf = .ok buf') :
    TowardG z T buf buf' ∧ ∀ s ∈ ss.take n, s.fileId = (fileId : Int) →
      (∃ im, sub src o s = .ok im) ∧ DoneAtG T s.startRow (o.boxSize * o.boxSize) buf' := by
  induction n generalizing ss buf with
  | zero =>
    simp only [writeObjCutoutsG] at h
    injection h with h; subst h
    exact ⟨TowardG.refl _ _, by simp⟩
  | succ n ih =>
    cases ss with
    | nil => cases h
    | cons s ss =>
      simp only [writeObjCutoutsG] at h
      obtain ⟨mid, hm, h⟩ := Res.bind_eq_ok.mp h
      obtain ⟨i1, i2⟩ := ih (fun s' hs' => hag s' (by simp [hs'])) h
      split at hm
      · rename_i hf
        obtain ⟨im, hsub, hm⟩ := Res.bind_eq_ok.mp hm
        have ag := hag s (by simp) hf im hsub
        refine ⟨(TowardG.write ag hm).trans i1, ?_⟩
        intro s' hs' hf'
        simp only [List.take_succ_cons, List.mem_cons] at hs'
        rcases hs' with rfl | hs'
        · refine ⟨⟨im, hsub⟩, DoneAtG.mono ?_ i1⟩
          intro p hp hp'
          refine final_new ag hm hp ?_
          have := hF _ _ _ _ hsub
          omega
        · exact i2 s' hs' hf'
      · rename_i hf
        injection hm with hm
        subst hm
        refine ⟨i1, ?_⟩
        intro s' hs' hf'
        simp only [List.take_succ_cons, List.mem_cons] at hs'
        rcases hs' with rfl | hs'
        · exact absurd hf' hf
        · exact i2 s' hs' hf'

/-- The block that a stored epoch must end up with; the reserved value when the image has no such plane. -/
def contentG (z : α) (read : Nat → SrcImage → Res (Option (Img α))) (sub : Img α → ObjRow → Slot → Res (Img α)) (images : List SrcImage) (o : ObjRow) (s : Slot) : List α :=
  match images[s.fileId.toNat]? with
  | some im =>
    match read s.fileId.toNat im with
    | .ok (some src) =>
      match sub src o s with
      | .ok im => im.flat
      | .error _ => List.replicate (o.boxSize * o.boxSize).toNat z
    | _ => List.replicate (o.boxSize * o.boxSize).toNat z
  | none => List.replicate (o.boxSize * o.boxSize).toNat z

theorem contentG_length (hF : Fills sub) (o : ObjRow) (s : Slot) :
    ((contentG z read sub images o s).length : Int) = o.boxSize * o.boxSize := by
  have hz : ((List.replicate (o.boxSize * o.boxSize).toNat z).length : Int) = o.boxSize * o.boxSize := by
    rw [List.length_replicate, Int.toNat_of_nonneg (mul_self_nonneg _)]
  unfold contentG
  split
  · split
    · split
      · rename_i hs; exact hF _ _ _ _ hs
      · exact hz
    · exact hz
  · exact hz

/-- The final content of the extension. -/
def targetG (z : α) (read : Nat → SrcImage → Res (Option (Img α))) (sub : Img α → ObjRow → Slot → Res (Img α)) (images : List SrcImage) (objs : List ObjRow) : List α :=
  ((cells objs).map (fun c => contentG z read sub images c.1 c.2)).flatten

theorem targetG_at (hF : Fills sub) {e : Int}
    (hc : Consec 0 (regions objs) e) {o : ObjRow} {s : Slot} (hm : (o, s) ∈ cells objs) :
    AgreesWith (targetG z read sub images objs) s.startRow (contentG z read sub images o s) := by
  intro j hj
  rw [regions_eq_cells] at hc
  obtain ⟨i, hi, hio⟩ := List.mem_iff_getElem.mp hm
  have hio' : (cells objs)[i]? = some (o, s) := by rw [List.getElem?_eq_getElem hi, hio]
  have := flatten_getElem? (α := α) (bs := (cells objs).map (fun c => contentG z read sub images c.1 c.2)) hc
    (forall₂_map_map (fun a _ => contentG_length hF a.1 a.2))
    (i := i) (r := (s.startRow, o.boxSize * o.boxSize)) (b := contentG z read sub images o s)
    (by rw [List.getElem?_map, hio']; rfl) (by rw [List.getElem?_map, hio']; rfl) hj
  simpa [targetG] using this

theorem targetG_length (hF : Fills sub) {e : Int}
    (hc : Consec 0 (regions objs) e) : ((targetG z read sub images objs).length : Int) = e := by
  rw [regions_eq_cells] at hc
  have := flatten_length (α := α) (bs := (cells objs).map (fun c => contentG z read sub images c.1 c.2)) hc
    (forall₂_map_map (fun a _ => contentG_length hF a.1 a.2))
  simpa [targetG] using this

theorem contentG_eq {o : ObjRow} {s : Slot} {i : Nat} {im : SrcImage}
    {src sub' : Img α} (hi : s.fileId = (i : Int)) (him : images[i]? = some im) (hr : read i im = .ok (some src))
    (hsub : sub src o s = .ok sub') : contentG z read sub images o s = sub'.flat := by
  unfold contentG
  rw [hi, Int.toNat_natCast, him]
  simp only [hr, hsub]

theorem writeFileCutoutsG_toward (hF : Fills sub) {e : Int} (hc : Consec 0 (regions objs) e)
    {fi : Nat × SrcImage} (hfi : fi ∈ numbered images) {buf buf' : List α}
    (h : writeFileCutoutsG read sub objs buf fi = .ok buf') :
    TowardG z (targetG z read sub images objs) buf buf' ∧ (∃ r, read fi.1 fi.2 = .ok r) ∧
    ∀ src, read fi.1 fi.2 = .ok (some src) → ∀ o s, (o, s) ∈ cells objs → s.fileId = (fi.1 : Int) →
      (∃ im, sub src o s = .ok im) ∧
      DoneAtG (targetG z read sub images objs) s.startRow (o.boxSize * o.boxSize) buf' := by
  have him := mem_numbered.mp hfi
  unfold writeFileCutoutsG at h
  obtain ⟨r, hr, h⟩ := Res.bind_eq_ok.mp h
  cases r with
  | none =>
    injection h with h; subst h
    refine ⟨TowardG.refl _ _, ⟨_, hr⟩, ?_⟩
    intro src hsrc
    rw [hr] at hsrc; cases hsrc
  | some src =>
    have step : ∀ b b' o, o ∈ objs → writeObjCutoutsG sub fi.1 src o o.ncutout.toNat o.slots b = .ok b' →
        TowardG z (targetG z read sub images objs) b b' ∧ ∀ s ∈ o.slots.take o.ncutout.toNat, s.fileId = (fi.1 : Int) →
          (∃ im, sub src o s = .ok im) ∧
          DoneAtG (targetG z read sub images objs) s.startRow (o.boxSize * o.boxSize) b' := by
      intro b b' o ho hb
      apply writeObjCutoutsG_toward hF _ hb
      intro s hs hf im hsub
      rw [← contentG_eq (images := images) hf him hr hsub]
      exact targetG_at hF hc (mem_cells.mpr ⟨ho, hs⟩)
    refine ⟨fold_towardG (fun b b' o ho hb => (step b b' o ho hb).1) h, ⟨_, hr⟩, ?_⟩
    intro src' hsrc o s hos hf
    rw [hr] at hsrc
    injection hsrc with hsrc
    injection hsrc with hsrc
    subst hsrc
    obtain ⟨ho, hs⟩ := mem_cells.mp hos
    constructor
    · have := foldRes_each (P := fun o => ∀ s ∈ o.slots.take o.ncutout.toNat, s.fileId = (fi.1 : Int) → ∃ im, sub src o s = .ok im)
        (fun b b' o ho hb s hs hf => ((step b b' o ho hb).2 s hs hf).1) h
      exact this o ho s hs hf
    · exact fold_doneG (fun b b' o ho hb => (step b b' o ho hb).1) h ho (fun b b' hb => ((step b b' o ho hb).2 s hs hf).2)

theorem writeCutoutsG_toward (hF : Fills sub) {e : Int} (hc : Consec 0 (regions objs) e)
    {buf buf' : List α} (h : writeCutoutsG read sub images objs buf = .ok buf') :
    TowardG z (targetG z read sub images objs) buf buf' ∧
    ∀ (i : Nat) im, images[i]? = some im → (∃ r, read i im = .ok r) ∧ ∀ src, read i im = .ok (some src) →
      ∀ o s, (o, s) ∈ cells objs → s.fileId = (i : Int) →
      (∃ im, sub src o s = .ok im) ∧
      DoneAtG (targetG z read sub images objs) s.startRow (o.boxSize * o.boxSize) buf' := by
  unfold writeCutoutsG at h
  refine ⟨fold_towardG (fun b b' fi hfi hb => (writeFileCutoutsG_toward hF hc hfi hb).1) h, ?_⟩
  intro i im him
  have each := foldRes_each (P := fun fi : Nat × SrcImage => (∃ r, read fi.1 fi.2 = .ok r) ∧ ∀ src, read fi.1 fi.2 = .ok (some src) →
      ∀ o s, (o, s) ∈ cells objs → s.fileId = (fi.1 : Int) → ∃ im, sub src o s = .ok im)
    (fun b b' fi hfi hb => ⟨(writeFileCutoutsG_toward (z := z) hF hc hfi hb).2.1, fun src hr o s hos hf => ((writeFileCutoutsG_toward (z := z) hF hc hfi hb).2.2 src hr o s hos hf).1⟩) h
    (i, im) (mem_numbered.mpr him)
  refine ⟨each.1, fun src hr o s hos hf => ⟨each.2 src hr o s hos hf, ?_⟩⟩
  exact fold_doneG (fun b b' fi hfi hb => (writeFileCutoutsG_toward hF hc hfi hb).1) h (mem_numbered.mpr him)
      (fun b b' hb => ((writeFileCutoutsG_toward hF hc (mem_numbered.mpr him) hb).2.2 src hr o s hos hf).2)

/-- The whole extension: starting from the reserved value the writer produces exactly the target. -/
theorem writeCutoutsG_eq (hF : Fills sub) {e : Int} (hc : Consec 0 (regions objs) e)
    (hid : FileIdsOk images objs)
    {buf buf' : List α} (hp : Partial z (targetG z read sub images objs) buf)
    (h : writeCutoutsG read sub images objs buf = .ok buf') : buf' = targetG z read sub images objs := by
  obtain ⟨h1, h2⟩ := writeCutoutsG_toward (z := z) hF hc h
  have hp' := h1.1 hp
  apply List.ext_getElem?
  intro p
  by_cases hlt : p < (targetG z read sub images objs).length
  · have hlen := targetG_length (z := z) (read := read) (images := images) hF hc
    have hc' := hc
    rw [regions_eq_cells] at hc'
    obtain ⟨r, hr, hr1, hr2⟩ := Consec.cover hc' (p := (p : Int)) (by omega) (by omega)
    obtain ⟨⟨o, s⟩, hos, rfl⟩ := List.mem_map.mp hr
    dsimp only at hr1 hr2
    obtain ⟨hf0, hf1⟩ := hid o s hos
    have hb := (Consec.bounds hc' hr)
    dsimp only at hb
    obtain ⟨im, him⟩ : ∃ im, images[s.fileId.toNat]? = some im :=
      ⟨images[s.fileId.toNat]'(by omega), List.getElem?_eq_getElem _⟩
    have hag := targetG_at (z := z) (read := read) (images := images) hF hc hos
    have hcl := contentG_length (z := z) (read := read) (images := images) hF o s
    obtain ⟨x, hri⟩ := (h2 _ im him).1
    cases x with
    | some src => exact ((h2 _ im him).2 src hri o s hos (by omega)).2 p (by omega) (by omega)
    | none =>
      have hzero : contentG z read sub images o s = List.replicate (o.boxSize * o.boxSize).toNat z := by
        unfold contentG; rw [him]; simp only [hri]
      rcases hp'.2 p hlt with h | h
      · have := hag (p - s.startRow.toNat) (by omega)
        rw [hzero, List.getElem?_replicate, if_pos (by omega)] at this
        rw [h, ← this]
        congr 1; omega
      · exact h
  · rw [List.getElem?_eq_none (by rw [hp'.1]; omega), List.getElem?_eq_none (by omega)]

/-- What a cutout must contain at `(r, c)`. -/
def showsG (cast : α → α) (fill : α) (src : Img α) (r0 c0 : Int) (r c : Nat) : α :=
  match pixelAt src (r0 + r) (c0 + c) with
  | some v => cast v
  | none => cast fill

theorem subImageG_ok {cast : α → α} {fl : Res α} {src : Img α} {o : ObjRow} {s : Slot} {im : Img α}
    (h : subImageG cast fl src o s = .ok im) :
    0 ≤ o.boxSize ∧ ∃ fill, fl = .ok fill ∧
      im = Img.ofFn o.boxSize.toNat o.boxSize.toNat (showsG cast fill src s.origStartRow s.origStartCol) := by
  unfold subImageG at h
  dsimp only at h
  obtain ⟨r1, r2, r3, r4⟩ := clippedBoxes_spec src.nr s.origStartRow o.boxSize
  obtain ⟨c1, c2, c3, c4⟩ := clippedBoxes_spec src.nc s.origStartCol o.boxSize
  generalize clippedBoxes src.nr s.origStartRow o.boxSize = rb at *
  generalize clippedBoxes src.nc s.origStartCol o.boxSize = cb at *
  split at h
  · cases h
  · rename_i hb
    refine ⟨by omega, ?_⟩
    obtain ⟨fill, hf, h⟩ := Res.bind_eq_ok.mp h
    refine ⟨fill, hf, ?_⟩
    split at h
    · unfold pasteBoxG at h
      split at h
      · split at h
        · injection h with h
          subst h
          apply Img.ofFn_congr
          intro i j hi hj
          unfold showsG
          split
          · rename_i hin
            have hpix : pixelAt src (s.origStartRow + i) (s.origStartCol + j)
                = src.get? (rb.1.1 + (i - rb.2.1)).toNat (cb.1.1 + (j - cb.2.1)).toNat := by
              unfold pixelAt
              rw [if_pos (by omega)]
              congr 2 <;> omega
            rw [hpix]
            cases src.get? (rb.1.1 + (i - rb.2.1)).toNat (cb.1.1 + (j - cb.2.1)).toNat <;> rfl
          · rename_i hout
            rw [get?_toNat_none (by omega)]
        · cases h
      · cases h
    · rename_i hnot
      injection h with h
      subst h
      apply Img.ofFn_congr
      intro i j hi hj
      unfold showsG
      rw [get?_toNat_none (by omega)]

theorem subImageG_fills (cast : α → α) (fl : Res α) : Fills (subImageG cast fl) := by
  intro src o s im h
  obtain ⟨hb, fill, _, rfl⟩ := subImageG_ok h
  rw [Img.ofFn_flat_length]
  push_cast
  rw [Int.toNat_of_nonneg hb]

/-! ### the same with other pixels -/

variable {β : Type}

theorem img_map_get? (φ : α → β) (im : Img α) (r c : Nat) : (im.map φ).get? r c = (im.get? r c).map φ := by
  unfold Img.get? Img.map
  dsimp only
  split
  · rw [List.getElem?_map]
  · rfl

theorem img_ofFn_map (φ : α → β) (nr nc : Nat) (g : Nat → Nat → α) : (Img.ofFn nr nc g).map φ = Img.ofFn nr nc (fun r c => φ (g r c)) := by
  simp [Img.ofFn, Img.map, List.map_map, Function.comp_def]

theorem subImageG_map (φ : α → β) {cast : α → α} {cast' : β → β} (hc : ∀ v, cast' (φ v) = φ (cast v)) (fill : Res α) (src : Img α) (o : ObjRow) (s : Slot) :
    subImageG cast' (fill.map φ) (src.map φ) o s = (subImageG cast fill src o s).map (Img.map φ) := by
  unfold subImageG
  dsimp only
  have e1 : (src.map φ).nr = src.nr := rfl
  have e2 : (src.map φ).nc = src.nc := rfl
  rw [e1, e2]
  split
  · rfl
  · cases fill with
    | error e => rfl
    | ok fill =>
      simp only [Except.map, Res.ok_bind]
      split
      · unfold pasteBoxG
        rw [e1, e2]
        split
        · split
          · dsimp only
            rw [img_ofFn_map]
            congr 2
            funext r c
            split
            · rw [img_map_get?]
              cases src.get? _ _ with
              | none => exact hc _
              | some v => exact hc _
            · exact hc _
          · rfl
        · rfl
      · dsimp only
        rw [img_ofFn_map]
        simp only [hc]

theorem overwrite_map (φ : α → β) (buf : List α) (s : Int) (xs : List α) : overwrite (buf.map φ) s (xs.map φ) = (overwrite buf s xs).map (List.map φ) := by
  unfold overwrite
  simp only [List.length_map]
  split
  · simp [Except.map, List.map_take, List.map_drop]
  · rfl

theorem foldRes_mapG {γ : Type} (φ : α → β) {f : List α → γ → Res (List α)} {g : List β → γ → Res (List β)} {l : List γ}
    (h : ∀ b, ∀ x ∈ l, g (b.map φ) x = (f b x).map (List.map φ)) (b : List α) : foldRes g (b.map φ) l = (foldRes f b l).map (List.map φ) := by
  induction l generalizing b with
  | nil => rfl
  | cons x l ih =>
    unfold foldRes
    rw [h b x (by simp)]
    cases f b x with
    | error e => rfl
    | ok b' => exact ih (fun b y hy => h b y (by simp [hy])) b'

theorem writeObjCutoutsG_map (φ : α → β) {sub' : Img β → ObjRow → Slot → Res (Img β)} (hsub : ∀ src o s, sub' (src.map φ) o s = (sub src o s).map (Img.map φ)) (fileId : Nat) (src : Img α)
    (o : ObjRow) (n : Nat) (ss : List Slot) (buf : List α) :
    writeObjCutoutsG sub' fileId (src.map φ) o n ss (buf.map φ) = (writeObjCutoutsG sub fileId src o n ss buf).map (List.map φ) := by
  induction n generalizing ss buf with
  | zero => rfl
  | succ n ih =>
    cases ss with
    | nil => rfl
    | cons s ss =>
      unfold writeObjCutoutsG
      split
      · rw [hsub]
        cases sub src o s with
        | error e => rfl
        | ok im =>
          simp only [Except.map, Res.ok_bind]
          have := overwrite_map φ buf s.startRow im.flat
          show (overwrite (buf.map φ) s.startRow (im.flat.map φ) >>= fun buf' => _) = _
          rw [this]
          cases overwrite buf s.startRow im.flat with
          | error e => rfl
          | ok b => exact ih ss b
      · exact ih ss buf

theorem writeCutoutsG_map (φ : α → β) {read' : Nat → SrcImage → Res (Option (Img β))} {sub' : Img β → ObjRow → Slot → Res (Img β)}
    (hread : ∀ i im, images[i]? = some im → read' i im = (read i im).map (Option.map (Img.map φ))) (hsub : ∀ src o s, sub' (src.map φ) o s = (sub src o s).map (Img.map φ)) (buf : List α) :
    writeCutoutsG read' sub' images objs (buf.map φ) = (writeCutoutsG read sub images objs buf).map (List.map φ) := by
  unfold writeCutoutsG
  refine foldRes_mapG φ ?_ buf
  rintro b ⟨i, im⟩ hfi
  have him := mem_numbered.mp hfi
  unfold writeFileCutoutsG
  dsimp only
  rw [hread i im him]
  cases read i im with
  | error e => rfl
  | ok r =>
    simp only [Except.map, Res.ok_bind]
    cases r with
    | none => rfl
    | some src =>
      exact foldRes_mapG φ (fun b o _ => writeObjCutoutsG_map φ hsub _ _ _ _ _ _) b

end Generic

/-! ### the file -/

section File
variable {cfg : MakerCfg} {hn : Bool} {objs : List InputObj} {images : List SrcImage} {psf : Option (List PsfModel)} {psfInfo : Option String} {md : String} {mk mk' : Maker}
  {fl fl' : Nat → FltPlanes} {g g' : FltFile}

/-- What the layout says about the maker. -/
structure Layouted (cfg : MakerCfg) (images : List SrcImage) (mk' : Maker) : Prop where
  cfg_eq : mk'.cfg = cfg
  images_eq : mk'.images = images
  types_ok : setCutoutTypes cfg.cutoutTypes = .ok mk'.types
  tiled : Consec 0 (regions mk'.objs) mk'.totalPixels
  ids : FileIdsOk images mk'.objs

theorem layouted (hi : init cfg hn objs images psf psfInfo md = .ok mk) (hb : mk.buildLayout = .ok mk') : Layouted cfg images mk' := by
  obtain ⟨e1, e2, e3, e4, e5, e6, e7, e8, e9⟩ := init_ok hi
  obtain ⟨in0, w, h1, h2, h3, h4, h5, h6, h7, h8⟩ := buildLayout_ok (nmax := initialNmax cfg images.length) hb (by
    intro o ho
    rw [e8] at ho
    obtain ⟨o1, ho1, rfl⟩ := List.mem_map.mp ho
    obtain ⟨o2, ho2, rfl⟩ := List.mem_map.mp ho1
    obtain ⟨a, b, _⟩ := forceEven_fresh (fullRow (initialNmax cfg images.length) o2)
    rw [a, b]
    exact ⟨rfl, rfl⟩)
  rw [e1, e2] at h4
  exact ⟨by rw [h7]; exact e1, by rw [h7]; exact e2, by rw [h7]; exact e6, h6, laidOut_fileIds h4⟩

theorem writeN_ok (hw : mk.writeN fl = .ok (mk', g)) :
    mk.buildLayout = .ok mk' ∧ g.cat = { dtype := mk'.dtype, rows := mk'.objs } ∧ ∀ t ∈ mk'.types, ∃ pix, mk'.writePlaneN fl t = .ok pix ∧ g.images.lookup (t ++ "_cutouts") = some pix := by
  unfold writeN at hw
  obtain ⟨m, h1, h⟩ := Res.bind_eq_ok.mp hw
  obtain ⟨exts, h2, h⟩ := Res.bind_eq_ok.mp h
  injection h with h
  injection h with ha hb
  subst ha hb
  refine ⟨h1, rfl, ?_⟩
  have hf := mapRes_ok_iff.mp h2
  clear h1 h2 hw h
  intro t ht
  dsimp only
  generalize m.types = types at hf ht
  induction hf with
  | nil => cases ht
  | @cons x y xs ys hxy _ ih =>
    obtain ⟨pix, hp, he⟩ := Res.bind_eq_ok.mp hxy
    injection he with he
    subst he
    by_cases hx : t = x
    · subst hx
      exact ⟨pix, hp, by simp⟩
    · have := ih ((List.mem_cons.mp ht).resolve_left hx)
      obtain ⟨p, h3, h4⟩ := this
      refine ⟨p, h3, ?_⟩
      rw [List.lookup_cons]
      have hne : (t ++ "_cutouts" == x ++ "_cutouts") = false := by
        rw [beq_eq_false_iff_ne]
        intro h
        exact hx (by simpa using h)
      rw [hne]
      exact h4

/-- The pixels of an extension. -/
theorem writePlaneN_eq (L : Layouted cfg images mk') {t : String} {pix : List Flt} (h : mk'.writePlaneN fl t = .ok pix) :
    pix = targetG (.num 0) (fun j im => readImageN cfg (fl j) im t) (subImageG (Flt.convert (cfg.cast t)) (defaultValueN t)) images mk'.objs := by
  unfold writePlaneN at h
  rw [L.cfg_eq, L.images_eq] at h
  have hF := subImageG_fills (Flt.convert (cfg.cast t)) (defaultValueN t)
  refine writeCutoutsG_eq hF L.tiled L.ids (Partial.replicate _ _ _ ?_) h
  have := targetG_length (z := Flt.num 0) (read := fun j im => readImageN cfg (fl j) im t) (images := images) hF L.tiled
  omega

/-- A cutout. -/
theorem getCutoutN_eq (hi : init cfg hn objs images psf psfInfo md = .ok mk) (hw : mk.writeN fl = .ok (mk', g)) {i k : Nat} {o : ObjRow} {s : Slot}
    (he : Epoch g.cat.rows i k o s) (hbox : 0 < o.boxSize) {t : String} (ht : t = "image" ∨ t ∈ cfg.cutoutTypes) :
    ∃ (j : Nat) (im : SrcImage) (r : Option (Img Flt)), s.fileId = (j : Int) ∧ images[j]? = some im ∧ readImageN cfg (fl j) im t = .ok r ∧
      ∃ c, g.getCutout i k t = .ok c ∧ (c.nr : Int) = o.boxSize ∧ (c.nc : Int) = o.boxSize ∧ c.WF ∧
        (∀ src, r = some src → ∃ fill, defaultValueN t = .ok fill ∧ c = Img.ofFn o.boxSize.toNat o.boxSize.toNat (showsG (Flt.convert (cfg.cast t)) fill src s.origStartRow s.origStartCol)) ∧
        (r = none → c = Img.ofFn o.boxSize.toNat o.boxSize.toNat (fun _ _ => .num 0)) := by
  obtain ⟨h1, h2, h3⟩ := writeN_ok hw
  have L := layouted hi h1
  obtain ⟨pix, hp, hl⟩ := h3 t ((mem_types L.types_ok t).mpr ht)
  have hpix := writePlaneN_eq L hp
  have he' := he
  rw [h2] at he'
  have hos := epoch_mem_cells he'
  have hF := subImageG_fills (Flt.convert (cfg.cast t)) (defaultValueN t)
  obtain ⟨hf0, hf1⟩ := L.ids o s hos
  obtain ⟨j, hj⟩ := Int.eq_ofNat_of_zero_le hf0
  obtain ⟨im, him⟩ : ∃ im, images[j]? = some im := ⟨images[j]'(by omega), List.getElem?_eq_getElem _⟩
  have hp' := hp
  unfold writePlaneN at hp'
  rw [L.cfg_eq, L.images_eq] at hp'
  obtain ⟨⟨r, hr⟩, hcut⟩ := (writeCutoutsG_toward (z := Flt.num 0) hF L.tiled hp').2 j im him
  refine ⟨j, im, r, hj, him, hr, ?_⟩
  have hag := targetG_at (z := Flt.num 0) (read := fun j im => readImageN cfg (fl j) im t) (images := images) hF L.tiled hos
  have hlen := contentG_length (z := Flt.num 0) (read := fun j im => readImageN cfg (fl j) im t) (images := images) hF o s
  have htl := targetG_length (z := Flt.num 0) (read := fun j im => readImageN cfg (fl j) im t) (images := images) hF L.tiled
  have hc := L.tiled
  rw [regions_eq_cells] at hc
  have hb := Consec.bounds hc (List.mem_map_of_mem (f := fun c : ObjRow × Slot => (c.2.startRow, c.1.boxSize * c.1.boxSize)) hos)
  dsimp only at hb
  rw [← hpix] at hag htl
  generalize hC : contentG (.num 0) (fun j im => readImageN cfg (fl j) im t) (subImageG (Flt.convert (cfg.cast t)) (defaultValueN t)) images o s = C at hag hlen
  have hpos : 0 < o.boxSize * o.boxSize := Int.mul_pos hbox hbox
  have hget : g.getCutout i k t = .ok ⟨o.boxSize.toNat, o.boxSize.toNat, C⟩ := by
    unfold FltFile.getCutout
    have her : Epoch g.reader.cat.rows i k o s := he
    rw [MEDS.checkIndices_some her.1 her.2.1]
    simp only [Res.ok_bind]
    rw [MEDS.Epoch.row her, MEDS.Epoch.slot her]
    simp only [Res.ok_bind]
    rw [hl]
    dsimp only
    have hsl : readSlice pix s.startRow (s.startRow + o.boxSize * o.boxSize) = .ok C := by
      obtain ⟨a, ha⟩ := Int.eq_ofNat_of_zero_le hb.1
      rw [ha] at hag hb ⊢
      rw [← hlen]
      exact readSlice_eq (by omega) (by omega) (fun q hq => by have := hag q hq; simpa using this)
    rw [hsl]
    simp only [Res.ok_bind]
    obtain ⟨c, hc⟩ := Int.eq_ofNat_of_zero_le hbox.le
    rw [hc] at hlen ⊢
    simp only [Int.toNat_natCast]
    exact reshape_nat (by exact_mod_cast hlen)
  refine ⟨_, hget, Int.toNat_of_nonneg hbox.le, Int.toNat_of_nonneg hbox.le, ?_, ?_, ?_⟩
  · show C.length = _
    have : ((o.boxSize.toNat : Nat) : Int) = o.boxSize := Int.toNat_of_nonneg hbox.le
    zify
    rw [hlen, this]
  · rintro src rfl
    obtain ⟨⟨im', hsub⟩, _⟩ := hcut src hr o s hos hj
    obtain ⟨_, fill, hfill, hsub'⟩ := subImageG_ok hsub
    refine ⟨fill, hfill, ?_⟩
    rw [← hC, contentG_eq hj him hr hsub, hsub']
    rfl
  · rintro rfl
    have : C = List.replicate (o.boxSize * o.boxSize).toNat (.num 0) := by
      rw [← hC]
      unfold contentG
      rw [hj, Int.toNat_natCast, him]
      simp only [hr]
    rw [this]
    unfold Img.ofFn
    congr 1
    rw [List.map_const', List.length_range]
    congr 1
    have : ((o.boxSize.toNat : Nat) : Int) = o.boxSize := Int.toNat_of_nonneg hbox.le
    zify
    rw [Int.toNat_of_nonneg hpos.le, this]

end File
end Maker
end Meds
