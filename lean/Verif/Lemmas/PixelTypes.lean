import Verif.Model.PixelTypes
import Verif.Lemmas.Machine
import Verif.Lemmas.MachineSim
import Verif.Lemmas.Written

/-!
# Rounded pixels
-/

namespace Meds
open Uberseg

theorem rndP_zero (p : Nat) : rndP p 0 = 0 := by
  unfold rndP
  rw [if_pos (le_refl _), rnd_zero]

theorem rndP_error (p : Nat) (q : ℚ) : |rndP p q - q| ≤ |q| / 2 ^ p := by
  unfold rndP
  rcases lt_trichotomy q 0 with hq | hq | hq
  · rw [if_neg (by linarith)]
    have := rnd_error p (q := -q) (by linarith)
    rw [abs_of_neg hq, show -rnd p (-q) - q = -(rnd p (-q) - -q) by ring, abs_neg]
    exact this
  · rw [hq, if_pos (le_refl _), rnd_zero]; simp
  · rw [if_pos hq.le, abs_of_pos hq]
    exact rnd_error p hq

/-- The rounded number is the number times a factor near 1. -/
theorem rndP_factor (p : Nat) (q : ℚ) : ∃ d : ℚ, |d| ≤ 1 / 2 ^ p ∧ rndP p q = q * (1 + d) := by
  by_cases hq : q = 0
  · exact ⟨0, by simp, by rw [hq, rndP_zero]; ring⟩
  · refine ⟨(rndP p q - q) / q, ?_, by field_simp; ring⟩
    rw [abs_div, div_le_iff₀ (abs_pos.mpr hq), one_div_mul_eq_div]
    exact rndP_error p q

namespace Maker

/-- The image whose exact treatment gives the pixels of the rounded treatment. -/
def roundImage (cfg : MakerCfg) (kind : PixEnv) (im : SrcImage) : SrcImage :=
  { im with plane := fun t =>
      if t = "image" then (match readImageF cfg kind im "image" with | .ok r => some (r.map (·.map (· / im.info.scale))) | .error _ => none)
      else if t = "weight" then (match readImageF cfg kind im "weight" with | .ok r => some (r.map (·.map (· * im.info.scale ^ 2))) | .error _ => none)
      else if t = "bkg" then some none
      else im.plane t }

theorem img_map_id {im : Img ℚ} {g : ℚ → ℚ} (h : ∀ v ∈ im.flat, g v = v) : im.map g = im := by
  unfold Img.map
  have : im.flat.map g = im.flat := by
    conv_rhs => rw [← List.map_id im.flat]
    exact List.map_congr_left h
  rw [this]

theorem img_map_map {α β γ : Type} (im : Img α) (g : α → β) (h : β → γ) : (im.map g).map h = im.map (fun v => h (g v)) := by
  unfold Img.map
  simp only [List.map_map]
  rfl

/-- Zeros that are there already. -/
theorem zeroWhereBad_fix {flags : Int} {x b y : Img ℚ} {g : ℚ → ℚ} (h : zeroWhereBad flags x b = .ok y) (h0 : g 0 = 0) :
    zeroWhereBad flags (y.map g) b = .ok (y.map g) := by
  unfold zeroWhereBad at h
  split at h
  · cases h
  · rename_i hb
    injection h with h
    have hnr : y.nr = x.nr := by rw [← h]; rfl
    have hnc : y.nc = x.nc := by rw [← h]; rfl
    have hwf : y.WF := by rw [← h]; exact Img.ofFn_WF ..
    have hget : ∀ i j, i < x.nr → j < x.nc → ∀ v, b.get? i j = some v → badBit flags v = true → y.get? i j = some 0 := by
      intro i j hi hj v hv hbad
      rw [← h, Img.ofFn_get? _ hi hj, hv]
      simp [hbad]
    clear h
    unfold zeroWhereBad
    rw [show (y.map g).nr = x.nr from hnr, show (y.map g).nc = x.nc from hnc, if_neg hb]
    congr 1
    apply Img.ext_get (Img.ofFn_WF ..) (Img.map_WF hwf g) hnr.symm hnc.symm
    intro i j hi hj
    simp only [Img.ofFn_nr, Img.ofFn_nc] at hi hj
    rw [Img.ofFn_get? _ hi hj]
    obtain ⟨u, hu⟩ := Img.get?_some_of_WF hwf (i := i) (j := j) (by rw [hnr]; exact hi) (by rw [hnc]; exact hj)
    rw [Img.map_get?, hu]
    simp only [Option.map_some, Option.getD_some, Option.some.injEq]
    cases hbb : b.get? i j with
    | none => rfl
    | some v =>
      dsimp only
      split
      · rename_i hv
        have := hget i j hi hj v hbb hv
        rw [hu] at this
        injection this with this
        rw [this, h0]
      · rfl

theorem scaleF_ok {k : PixType} {x : ℚ} {y : Img ℚ} {r : Option (Img ℚ)} (h : scaleF k x y = .ok r) :
    k.isInt = false ∧ r = some (y.map (fun v => rndP k.bits (v * x))) := by
  unfold scaleF at h
  split at h
  · cases h
  · rename_i hk
    injection h with h
    exact ⟨by simpa using hk, h.symm⟩

theorem weightFactor_zero (kind : PixEnv) : weightFactor kind 0 = 0 := by
  unfold weightFactor
  rw [zero_pow (by norm_num), rndP_zero, div_zero, rndP_zero, rndP_zero]

theorem image_back (y : Img ℚ) (p : Nat) (s : ℚ) : ((y.map (fun v => rndP p (v * s))).map (· / s)).map (fun v => v * s) = y.map (fun v => rndP p (v * s)) := by
  rw [img_map_map]
  apply img_map_id
  intro v hv
  by_cases hs : s = 0
  · obtain ⟨u, _, rfl⟩ := List.mem_map.mp hv
    simp [hs, rndP_zero]
  · field_simp

theorem weight_back (kind : PixEnv) (y : Img ℚ) (p : Nat) (s : ℚ) : ((y.map (fun v => rndP p (v * weightFactor kind s))).map (· * s ^ 2)).map (fun v => v * (1 / s ^ 2)) =
    y.map (fun v => rndP p (v * weightFactor kind s)) := by
  rw [img_map_map]
  apply img_map_id
  intro v hv
  by_cases hs : s = 0
  · obtain ⟨u, _, rfl⟩ := List.mem_map.mp hv
    simp [hs, weightFactor_zero, rndP_zero]
  · field_simp

/-- The exact treatment of `roundImage` gives the pixels of the rounded treatment. -/
theorem read_round {cfg : MakerCfg} {kind : PixEnv} {im : SrcImage} {t : String} {r : Option (Img ℚ)} (ht : t ≠ "bkg")
    (h : readImageF cfg kind im t = .ok r) : readImage cfg (roundImage cfg kind im) t = .ok r := by
  by_cases h1 : t = "image"
  · subst h1
    have hp : (roundImage cfg kind im).plane "image" = some (r.map (·.map (· / im.info.scale))) := by
      unfold roundImage
      dsimp only
      rw [if_pos rfl, h]
    have hb : (roundImage cfg kind im).plane "bkg" = some none := by
      unfold roundImage
      rfl
    unfold readImageF at h
    obtain ⟨raw, e1, h⟩ := Res.bind_eq_ok.mp h
    rw [if_pos rfl] at h
    obtain ⟨bkg, e2, h⟩ := Res.bind_eq_ok.mp h
    cases raw with
    | none => cases h
    | some x =>
      obtain ⟨y, e3, h⟩ := Res.bind_eq_ok.mp h
      obtain ⟨_, rfl⟩ := scaleF_ok h
      unfold readImage readOneImage
      rw [hp, hb]
      simp only [Res.ok_bind, if_true, Option.map_some]
      rw [show (roundImage cfg kind im).info.scale = im.info.scale from rfl, image_back]
  · by_cases h2 : t = "weight"
    · subst h2
      have hp : (roundImage cfg kind im).plane "weight" = some (r.map (·.map (· * im.info.scale ^ 2))) := by
        unfold roundImage
        dsimp only
        rw [if_neg (by decide), if_pos rfl, h]
      have hb : (roundImage cfg kind im).plane "bmask" = im.plane "bmask" := by
        unfold roundImage
        rfl
      have hs : (roundImage cfg kind im).info.scale = im.info.scale := rfl
      unfold readImageF at h
      obtain ⟨raw, e1, h⟩ := Res.bind_eq_ok.mp h
      rw [if_neg (by decide), if_pos rfl] at h
      unfold readImage
      rw [show readOneImage (roundImage cfg kind im) "weight" = .ok (r.map (·.map (· * im.info.scale ^ 2))) by unfold readOneImage; rw [hp]]
      rw [Res.ok_bind, if_neg (by decide), if_pos rfl]
      split at h
      · cases h
      · rename_i hm
        rw [if_neg hm]
        cases hu : cfg.unusableBmask with
        | none =>
          rw [hu] at h
          dsimp only at h ⊢
          cases raw with
          | none => cases h
          | some x =>
            obtain ⟨_, rfl⟩ := scaleF_ok h
            simp only [Option.map_some]
            rw [hs, weight_back]
        | some flags =>
          rw [hu] at h
          dsimp only at h ⊢
          obtain ⟨bm, e2, h⟩ := Res.bind_eq_ok.mp h
          rw [show readOneImage (roundImage cfg kind im) "bmask" = .ok bm by unfold readOneImage at e2 ⊢; rw [hb]; exact e2]
          simp only [Res.ok_bind]
          cases raw with
          | none => cases h
          | some x =>
            obtain ⟨y, e3, h⟩ := Res.bind_eq_ok.mp h
            obtain ⟨_, rfl⟩ := scaleF_ok h
            simp only [Option.map_some]
            rw [hs]
            cases bm with
            | none =>
              simp only [Res.ok_bind]
              rw [weight_back]
            | some b =>
              dsimp only
              have := zeroWhereBad_fix (g := fun v => rndP (kind.kind "weight").bits (v * weightFactor kind im.info.scale) * im.info.scale ^ 2) e3
                (by rw [zero_mul, rndP_zero, zero_mul])
              have e : y.map (fun v => rndP (kind.kind "weight").bits (v * weightFactor kind im.info.scale) * im.info.scale ^ 2) =
                  (y.map (fun v => rndP (kind.kind "weight").bits (v * weightFactor kind im.info.scale))).map (· * im.info.scale ^ 2) := by
                rw [img_map_map]
              rw [e] at this
              rw [this]
              simp only [Res.ok_bind]
              rw [weight_back]
    · unfold readImageF at h
      obtain ⟨raw, e1, h⟩ := Res.bind_eq_ok.mp h
      rw [if_neg h1, if_neg h2] at h
      unfold readImage
      have hp : (roundImage cfg kind im).plane t = im.plane t := by
        unfold roundImage
        dsimp only
        rw [if_neg h1, if_neg h2, if_neg ht]
      rw [show readOneImage (roundImage cfg kind im) t = .ok raw by unfold readOneImage at e1 ⊢; rw [hp]; exact e1]
      simp only [Res.ok_bind]
      rw [if_neg h1, if_neg h2]
      exact h

/-- All images. -/
def roundAll (cfg : MakerCfg) (kinds : Nat → PixEnv) (images : List SrcImage) : List SrcImage :=
  (numbered images).map (fun fi => roundImage cfg (kinds fi.1) fi.2)

theorem numbered_getElem? {α : Type} (l : List α) (k : Nat) : (numbered l)[k]? = (l[k]?).map (fun x => (k, x)) := by
  unfold numbered
  rw [List.zip, List.getElem?_zipWith]
  cases h : l[k]? with
  | none => cases (List.range l.length)[k]? <;> rfl
  | some x =>
    rw [List.getElem?_range (List.getElem?_eq_some_iff.mp h).1]
    rfl

theorem roundAll_getElem? {cfg : MakerCfg} {kinds : Nat → PixEnv} {images : List SrcImage} (k : Nat) :
    (roundAll cfg kinds images)[k]? = (images[k]?).map (fun im => roundImage cfg (kinds k) im) := by
  unfold roundAll
  rw [List.getElem?_map, numbered_getElem?, Option.map_map]
  rfl

theorem numbered_roundAll (cfg : MakerCfg) (kinds : Nat → PixEnv) (images : List SrcImage) :
    numbered (roundAll cfg kinds images) = (numbered images).map (fun fi => (fi.1, roundImage cfg (kinds fi.1) fi.2)) := by
  apply List.ext_getElem?
  intro k
  rw [numbered_getElem?, roundAll_getElem?, List.getElem?_map, numbered_getElem?, Option.map_map, Option.map_map]
  rfl

theorem roundAll_length (cfg : MakerCfg) (kinds : Nat → PixEnv) (images : List SrcImage) : (roundAll cfg kinds images).length = images.length := by
  unfold roundAll numbered
  simp

theorem layoutFile_round (cfg : MakerCfg) (kind : PixEnv) (objs : List ObjRow) (i : Nat) (im : SrcImage) :
    layoutFile cfg objs (i, roundImage cfg kind im) = layoutFile cfg objs (i, im) := rfl

theorem foldRes_congr_mem {σ α : Type} {f g : σ → α → Res σ} {l : List α} (h : ∀ s, ∀ x ∈ l, f s x = g s x) (b : σ) : foldRes f b l = foldRes g b l := by
  induction l generalizing b with
  | nil => rfl
  | cons x xs ih =>
    simp only [foldRes]
    rw [h b x List.mem_cons_self]
    cases g b x with
    | error e => rfl
    | ok s => exact ih (fun s y hy => h s y (List.mem_cons_of_mem _ hy)) s

theorem buildLayout_round {mk : Maker} (kinds : Nat → PixEnv) :
    ({ mk with images := roundAll mk.cfg kinds mk.images } : Maker).buildLayout =
      (mk.buildLayout >>= fun mk' => .ok { mk' with images := roundAll mk.cfg kinds mk.images }) := by
  have h1 : trim mk.cfg (roundAll mk.cfg kinds mk.images) mk.objs = trim mk.cfg mk.images mk.objs := by
    cases h : mk.images with
    | nil => rfl
    | cons im ims =>
      have : ∃ l, roundAll mk.cfg kinds (im :: ims) = roundImage mk.cfg (kinds 0) im :: l := by
        unfold roundAll numbered
        rw [List.length_cons, List.range_succ_eq_map]
        exact ⟨_, rfl⟩
      obtain ⟨l, hl⟩ := this
      rw [hl]
      rfl
  have h2 : ∀ b, foldRes (layoutFile mk.cfg) b (numbered (roundAll mk.cfg kinds mk.images)) = foldRes (layoutFile mk.cfg) b (numbered mk.images) := by
    intro b
    rw [numbered_roundAll, foldRes_map]
    exact foldRes_congr_mem (fun s x _ => layoutFile_round mk.cfg (kinds x.1) s x.1 x.2) b
  unfold buildLayout
  dsimp only
  rw [h1]
  cases trim mk.cfg mk.images mk.objs with
  | error e => rfl
  | ok o0 =>
    simp only [Res.ok_bind]
    rw [h2]
    cases foldRes (layoutFile mk.cfg) o0 (numbered mk.images) with
    | error e => rfl
    | ok o1 =>
      simp only [Res.ok_bind]
      cases resize o1 with
      | error e => rfl
      | ok o2 =>
        simp only [Res.ok_bind]
        cases setStartRows 0 o2 with
        | error e => rfl
        | ok r =>
          simp only [Res.ok_bind]
          split
          · rfl
          · cases mk.psf with
            | none => rfl
            | some psf =>
              dsimp only
              cases setPsfLayout psf 0 r.1 <;> rfl

/-- Is every image of the type readable? -/
def AllRead (cfg : MakerCfg) (kinds : Nat → PixEnv) (images : List SrcImage) (t : String) : Prop :=
  ∀ j im, images[j]? = some im → ∃ r, readImageF cfg (kinds j) im t = .ok r

theorem writeCutoutsF_reads {mk : Maker} {kinds : Nat → PixEnv} {t : String} {b b' : List ℚ} (h : mk.writeCutoutsF kinds t b = .ok b') :
    AllRead mk.cfg kinds mk.images t := by
  intro j im hj
  unfold writeCutoutsF at h
  refine foldRes_each (P := fun fi : Nat × SrcImage => ∃ r, readImageF mk.cfg (kinds fi.1) fi.2 t = .ok r) ?_ h (j, im) (mem_numbered.mpr hj)
  intro b b' x _ hx
  unfold writeFileCutoutsF at hx
  obtain ⟨r, hr, _⟩ := Res.bind_eq_ok.mp hx
  exact ⟨r, hr⟩

theorem writeCutoutsF_eq {mk : Maker} {kinds : Nat → PixEnv} {t : String} (ht : t ≠ "bkg") (h : AllRead mk.cfg kinds mk.images t) (b : List ℚ) :
    mk.writeCutoutsF kinds t b = ({ mk with images := roundAll mk.cfg kinds mk.images } : Maker).writeCutouts t b := by
  unfold writeCutoutsF writeCutouts
  dsimp only
  rw [numbered_roundAll, foldRes_map]
  apply foldRes_congr_mem
  rintro s ⟨j, im⟩ hx
  obtain ⟨r, hr⟩ := h j im (mem_numbered.mp hx)
  unfold writeFileCutoutsF writeFileCutouts
  dsimp only
  rw [hr, read_round ht hr]
  rfl

theorem tableHdus_round (mk : Maker) (kinds : Nat → PixEnv) :
    ({ mk with images := roundAll mk.cfg kinds mk.images } : Maker).tableHdus = mk.tableHdus := by
  unfold tableHdus
  dsimp only
  have : (roundAll mk.cfg kinds mk.images).map (·.info) = mk.images.map (·.info) := by
    apply List.ext_getElem?
    intro k
    rw [List.getElem?_map, roundAll_getElem?, List.getElem?_map, Option.map_map]
    rfl
  rw [this]

theorem modifyImage_congr {name : String} {g g' : List ℚ → Res (List ℚ)} (h : ∀ b, g b = g' b) (l : List (String × Hdu)) : modifyImage name g l = modifyImage name g' l := by
  rw [show g = g' from funext h]

theorem modifyImage_reads {name : String} {g : List ℚ → Res (List ℚ)} {l l' : List (String × Hdu)} (h : modifyImage name g l = .ok l') : ∃ b b', g b = .ok b' := by
  induction l generalizing l' with
  | nil => cases h
  | cons x xs ih =>
    obtain ⟨n, hd⟩ := x
    unfold modifyImage at h
    split at h
    · cases hd with
      | image pix =>
        obtain ⟨p, hp, _⟩ := Res.bind_eq_ok.mp h
        exact ⟨pix, p, hp⟩
      | _ => cases h
    · obtain ⟨t', ht, _⟩ := Res.bind_eq_ok.mp h
      exact ih ht

theorem writeDataF_reads {mk : Maker} {kinds : Nat → PixEnv} {f : Fits} (h : mk.writeDataF kinds = .ok f) :
    ∀ t ∈ mk.types, AllRead mk.cfg kinds mk.images t := by
  unfold writeDataF at h
  obtain ⟨h1, e1, _⟩ := Res.bind_eq_ok.mp h
  refine foldRes_each (P := fun t => AllRead mk.cfg kinds mk.images t) ?_ e1
  intro b b' t _ hx
  obtain ⟨p, p', hp⟩ := modifyImage_reads hx
  exact writeCutoutsF_reads hp

theorem writeDataF_eq {mk : Maker} {kinds : Nat → PixEnv} (hb : "bkg" ∉ mk.types) (h : ∀ t ∈ mk.types, AllRead mk.cfg kinds mk.images t) :
    mk.writeDataF kinds = ({ mk with images := roundAll mk.cfg kinds mk.images } : Maker).writeData := by
  unfold writeDataF writeData
  dsimp only
  rw [tableHdus_round]
  rw [show ({ mk with images := roundAll mk.cfg kinds mk.images } : Maker).reservedHdus = mk.reservedHdus from rfl]
  rw [foldRes_congr_mem (f := fun h t => modifyImage (t ++ "_cutouts") (mk.writeCutoutsF kinds t) h)
    (g := fun h t => modifyImage (t ++ "_cutouts") (({ mk with images := roundAll mk.cfg kinds mk.images } : Maker).writeCutouts t) h)
    (fun s t ht => modifyImage_congr (writeCutoutsF_eq (fun hh => hb (hh ▸ ht)) (h t ht)) s)]
  rfl

theorem buildLayout_keeps {mk mk' : Maker} (h : mk.buildLayout = .ok mk') : mk'.cfg = mk.cfg ∧ mk'.types = mk.types ∧ mk'.images = mk.images := by
  unfold buildLayout at h
  obtain ⟨_, _, h⟩ := Res.bind_eq_ok.mp h
  obtain ⟨_, _, h⟩ := Res.bind_eq_ok.mp h
  obtain ⟨_, _, h⟩ := Res.bind_eq_ok.mp h
  obtain ⟨r, _, h⟩ := Res.bind_eq_ok.mp h
  split at h
  · cases h
  · split at h
    · injection h with h; subst h; exact ⟨rfl, rfl, rfl⟩
    · obtain ⟨_, _, h⟩ := Res.bind_eq_ok.mp h
      injection h with h; subst h; exact ⟨rfl, rfl, rfl⟩

/-- The write with rounded pixels is the exact write of the rounded images. -/
theorem writeF_iff {mk mk' : Maker} {kinds : Nat → PixEnv} {f : Fits} (hb : "bkg" ∉ mk.types) :
    mk.writeF kinds = .ok (mk', f) ↔ mk'.images = mk.images ∧ (∀ t ∈ mk.types, AllRead mk.cfg kinds mk.images t) ∧
      ({ mk with images := roundAll mk.cfg kinds mk.images } : Maker).write = .ok ({ mk' with images := roundAll mk.cfg kinds mk.images }, f) := by
  unfold writeF write
  rw [buildLayout_round]
  cases hl : mk.buildLayout with
  | error e =>
    constructor
    · intro h; cases h
    · rintro ⟨_, _, h⟩; cases h
  | ok mk1 =>
    obtain ⟨k1, k2, k3⟩ := buildLayout_keeps hl
    simp only [Res.ok_bind]
    rw [← k1, ← k3]
    constructor
    · intro h
      obtain ⟨f', e1, h⟩ := Res.bind_eq_ok.mp h
      injection h with h
      injection h with h h'
      subst h h'
      have hr := writeDataF_reads e1
      rw [writeDataF_eq (by rw [k2]; exact hb) hr] at e1
      refine ⟨rfl, by rw [← k2]; exact hr, ?_⟩
      rw [e1]
      rfl
    · rintro ⟨i1, hr, h⟩
      obtain ⟨f', e1, h⟩ := Res.bind_eq_ok.mp h
      injection h with h
      injection h with hm h'
      subst h'
      clear h
      rw [writeDataF_eq (by rw [k2]; exact hb) (by rw [k2]; exact hr), e1]
      simp only [Res.ok_bind]
      have : mk1 = mk' := by
        cases mk1; cases mk'
        dsimp only at i1
        simp only [Maker.mk.injEq, true_and] at hm ⊢
        exact ⟨hm.1, hm.2.1, i1.symm, hm.2.2⟩
      rw [this]

end Maker
end Meds
