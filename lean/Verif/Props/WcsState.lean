import Verif.Lemmas.WcsState
import Verif.Examples.Maker
import Mathlib.Data.List.Induction

/-!
# C120: WCS objects that belong to PSF objects, and that images may share
-/

namespace Meds
namespace Maker
open Spec

variable {cfg : MakerCfg} {hn : Bool} {objs : List InputObj} {psf : Option (List PsfModel)} {psfInfo : Option String} {md : String}

/-- What becomes of an object through a list of images. -/
theorem foldl_touch (r : Nat) (srcs : List SrcImageS) (v : WcsObj) :
    SameMethods v (srcs.foldl (touch r) v) ∧
    (∀ src, lastUser srcs r = some src → (srcs.foldl (touch r) v).naxis = src.headerNaxis ∧ (srcs.foldl (touch r) v).offset = some src.info.positionOffset) ∧
    (lastUser srcs r = none → srcs.foldl (touch r) v = v) := by
  induction srcs using List.reverseRecOn with
  | nil => exact ⟨⟨rfl, rfl, rfl⟩, fun _ h => (nomatch h), fun _ => rfl⟩
  | append_singleton l a ih =>
    obtain ⟨⟨h1, h2, h3⟩, h4, h5⟩ := ih
    rw [List.foldl_append]
    simp only [List.foldl_cons, List.foldl_nil]
    obtain ⟨g1, g2, g3⟩ := touch_methods r (l.foldl (touch r) v) a
    refine ⟨⟨g1.trans h1, g2.trans h2, g3.trans h3⟩, ?_⟩
    unfold lastUser at *
    rw [List.filter_append]
    by_cases ha : a.psfWcs = some r
    · rw [show [a].filter (fun s => s.psfWcs == some r) = [a] by simp [ha]]
      rw [List.getLast?_append]
      simp only [List.getLast?_singleton, Option.some_or]
      unfold touch
      rw [if_pos ha]
      exact ⟨fun src h => by injection h with h; subst h; exact ⟨rfl, rfl⟩, fun h => (nomatch h)⟩
    · rw [show [a].filter (fun s => s.psfWcs == some r) = [] by simp [ha], List.append_nil]
      unfold touch
      rw [if_neg ha]
      exact ⟨h4, h5⟩

theorem writeData_withOwn {srcs : List SrcImageS} {images : List SrcImage} {store : List WcsObj}
    (h : List.Forall₂ (fun a b => ∃ w, wcsOf store a = some w ∧ b = withOwn a w) srcs images) (mk : Maker) :
    ({ mk with images := srcs.map planesOf } : Maker).writeData = ({ mk with images := images } : Maker).writeData := by
  have hf : ∀ t objs buf, foldRes (writeFileCutouts mk.cfg t objs) buf (numbered (srcs.map planesOf)) = foldRes (writeFileCutouts mk.cfg t objs) buf (numbered images) := by
    intro t objs buf
    have hn := forall₂_numbered h
    rw [numbered_map, foldRes_mapped]
    generalize numbered srcs = L at hn
    generalize numbered images = LI at hn
    induction hn generalizing buf with
    | nil => rfl
    | @cons a b L LI hab _ ih =>
      obtain ⟨i, src⟩ := a
      obtain ⟨j, im⟩ := b
      obtain ⟨hj, w, hw, him⟩ := hab
      simp only at hj hw him
      subst hj him
      simp only [foldRes]
      have e : writeFileCutouts mk.cfg t objs buf (j, planesOf src) = writeFileCutouts mk.cfg t objs buf (j, withOwn src w) := rfl
      rw [e]
      cases writeFileCutouts mk.cfg t objs buf (j, withOwn src w) with
      | error e => rfl
      | ok b => exact ih b
  have hc : ∀ t, ({ mk with images := srcs.map planesOf } : Maker).writeCutouts t = ({ mk with images := images } : Maker).writeCutouts t := by
    intro t
    funext buf
    exact hf t _ buf
  have hi : srcs.map (fun s => (planesOf s).info) = images.map (·.info) := by
    clear hf hc
    induction h with
    | nil => rfl
    | cons hab _ ih =>
      obtain ⟨w, _, rfl⟩ := hab
      simp only [List.map_cons, ih]
      rfl
  have ht : ({ mk with images := srcs.map planesOf } : Maker).tableHdus = ({ mk with images := images } : Maker).tableHdus := by
    unfold tableHdus
    dsimp only
    rw [List.map_map, ← hi]
    rfl
  unfold writeData
  simp only [hc, ht]
  rfl

/-- The file and the objects afterwards, in terms of the maker without state. -/
theorem makeS_eq {store : List WcsObj} {srcs : List SrcImageS} {images : List SrcImage}
    (h : List.Forall₂ (fun a b => ∃ w, wcsOf store a = some w ∧ b = withOwn a w) srcs images) :
    ∃ store', makeS cfg hn objs store srcs psf psfInfo md =
        (do
          let mk ← Maker.init cfg hn objs images psf psfInfo md
          let r ← mk.write
          .ok (store', r.2)) ∧
      (∀ r v, store[r]? = some v → store'[r]? = some (srcs.foldl (touch r) v)) := by
  unfold makeS
  rw [← init_images (images := srcs.map planesOf) (images' := images) (by rw [List.length_map, h.length_eq])]
  cases hi : Maker.init cfg hn objs (srcs.map planesOf) psf psfInfo md with
  | error e =>
    obtain ⟨store', _, h2⟩ := buildLayoutS_eq h (⟨cfg, [], [], none, "", none, ⟨hn, .absent, .absent⟩, [], 0, 0⟩ : Maker)
    exact ⟨store', rfl, h2⟩
  | ok mk =>
    obtain ⟨store', h1, h2⟩ := buildLayoutS_eq h mk
    refine ⟨store', ?_, h2⟩
    simp only [Res.ok_bind, Except.map]
    unfold write
    cases hb : buildLayoutS store srcs mk with
    | error e =>
      rw [hb] at h1
      cases hb' : ({ mk with images := images } : Maker).buildLayout with
      | error e' =>
        rw [hb'] at h1
        injection h1 with h1
        subst h1
        rfl
      | ok m => rw [hb'] at h1; cases h1
    | ok sm =>
      rw [hb] at h1
      cases hb' : ({ mk with images := images } : Maker).buildLayout with
      | error e' => rw [hb'] at h1; cases h1
      | ok m =>
        rw [hb'] at h1
        injection h1 with h1
        injection h1 with h1 h3
        subst h1 h3
        simp only [Res.ok_bind]
        have him : sm.2.images = srcs.map planesOf := by
          rw [← init_images_eq hi]
          unfold buildLayoutS at hb
          obtain ⟨_, _, hb⟩ := Res.bind_eq_ok.mp hb
          obtain ⟨_, _, hb⟩ := Res.bind_eq_ok.mp hb
          obtain ⟨_, _, hb⟩ := Res.bind_eq_ok.mp hb
          obtain ⟨r, _, hb⟩ := Res.bind_eq_ok.mp hb
          split at hb
          · cases hb
          · split at hb
            · injection hb with hb; rw [← hb]
            · obtain ⟨q, _, hb⟩ := Res.bind_eq_ok.mp hb
              injection hb with hb; rw [← hb]
        have e : sm.2 = { sm.2 with images := srcs.map planesOf } := by rw [← him]
        rw [show sm.2.writeData = ({ sm.2 with images := images } : Maker).writeData by
          rw [← writeData_withOwn h]; exact congrArg writeData e]
        cases ({ sm.2 with images := images } : Maker).writeData <;> rfl

/-- The images as they are meant. -/
theorem own_images {store : List WcsObj} {srcs : List SrcImageS} (h : ∀ src ∈ srcs, ∃ w, wcsOf store src = some w) :
    ∃ images, List.Forall₂ (fun a b => ∃ w, wcsOf store a = some w ∧ b = withOwn a w) srcs images := by
  induction srcs with
  | nil => exact ⟨[], .nil⟩
  | cons a l ih =>
    obtain ⟨w, hw⟩ := h a (List.mem_cons_self ..)
    obtain ⟨L, hL⟩ := ih (fun s hs => h s (List.mem_cons_of_mem _ hs))
    exact ⟨withOwn a w :: L, .cons ⟨w, hw, rfl⟩ hL⟩

/-- **C120** Every image is used with its own size and its own offset, whatever the WCS objects were used for before and whichever images share one: the file is
that of `MEDSMaker` with a WCS of its own for each image. -/
theorem C120_own_state (cfg : MakerCfg) (hn : Bool) (objs : List InputObj) (psf : Option (List PsfModel)) (psfInfo : Option String) (md : String)
    {store : List WcsObj} {srcs : List SrcImageS} {images : List SrcImage}
    (h : List.Forall₂ (fun a b => ∃ w, wcsOf store a = some w ∧ b = withOwn a w) srcs images) :
    (makeS cfg hn objs store srcs psf psfInfo md).map Prod.snd =
      (do
        let mk ← Maker.init cfg hn objs images psf psfInfo md
        let r ← mk.write
        .ok r.2) := by
  obtain ⟨store', h1, _⟩ := makeS_eq (cfg := cfg) (hn := hn) (objs := objs) (psf := psf) (psfInfo := psfInfo) (md := md) h
  rw [h1]
  cases Maker.init cfg hn objs images psf psfInfo md with
  | error e => rfl
  | ok mk =>
    simp only [Res.ok_bind]
    cases mk.write <;> rfl

/-- **C120** Sharing makes no difference: with other objects (shared or not, in whatever state) that have the same methods, the same file is written. -/
theorem C120_shared {store store' : List WcsObj} {srcs srcs' : List SrcImageS} (h : List.Forall₂ (fun a b => SameSource store a store' b) srcs srcs') :
    (makeS cfg hn objs store srcs psf psfInfo md).map Prod.snd = (makeS cfg hn objs store' srcs' psf psfInfo md).map Prod.snd := by
  have key : ∃ images, List.Forall₂ (fun a b => ∃ w, wcsOf store a = some w ∧ b = withOwn a w) srcs images ∧
      List.Forall₂ (fun a b => ∃ w, wcsOf store' a = some w ∧ b = withOwn a w) srcs' images := by
    induction h with
    | nil => exact ⟨[], .nil, .nil⟩
    | @cons a b _ _ hab _ ih =>
      obtain ⟨L, h1, h2⟩ := ih
      obtain ⟨e1, e2, e3, w, w', g1, g2, m1, m2, m3⟩ := hab
      refine ⟨withOwn a w :: L, .cons ⟨w, g1, rfl⟩ h1, .cons ⟨w', g2, ?_⟩ h2⟩
      unfold withOwn
      rw [e1, e2, e3, m1, m2, m3]
  obtain ⟨images, h1, h2⟩ := key
  rw [C120_own_state _ _ _ _ _ _ h1, C120_own_state _ _ _ _ _ _ h2]

/-- **C120** Afterwards each object of the caller has its methods, and the size and offset of the last image it served; an object that served none is unchanged. -/
theorem C120_afterwards {store store' : List WcsObj} {srcs : List SrcImageS} {f : Fits} (hs : ∀ src ∈ srcs, ∃ w, wcsOf store src = some w)
    (h : makeS cfg hn objs store srcs psf psfInfo md = .ok (store', f)) {r : Nat} {w : WcsObj} (hr : store[r]? = some w) :
    ∃ w', store'[r]? = some w' ∧ SameMethods w w' ∧
      (∀ src, lastUser srcs r = some src → w'.naxis = src.headerNaxis ∧ w'.offset = some src.info.positionOffset) ∧
      (lastUser srcs r = none → w' = w) := by
  obtain ⟨images, him⟩ := own_images hs
  obtain ⟨s2, h1, h2⟩ := makeS_eq (cfg := cfg) (hn := hn) (objs := objs) (psf := psf) (psfInfo := psfInfo) (md := md) him
  rw [h1] at h
  obtain ⟨mk, _, h⟩ := Res.bind_eq_ok.mp h
  obtain ⟨x, _, h⟩ := Res.bind_eq_ok.mp h
  injection h with h
  injection h with h _
  subst h
  exact ⟨_, h2 r w hr, foldl_touch r srcs w⟩

namespace ExS

/-- A WCS object in some state: the sky coordinates are the pixel coordinates. -/
def wcsObj (n : Nat) (off : Option ℚ) : WcsObj :=
  { naxis := (n, n), offset := off, sky2image := fun _ s => (s.ra, s.dec), jacobian := fun _ _ _ _ => (1, 0, 0, 1), rough := fun _ _ _ => true }

/-- An image of the example input with another offset, and the object `r` for its WCS. -/
def srcS (n : Nat) (base off : ℚ) (r : Option Nat) : SrcImageS :=
  { info := { imagePath := "im", imageFlags := 0, scale := 1, positionOffset := off, rest := "" }, plane := (Ex.src n 0 base 1).plane,
    headerNaxis := (n, n), psfWcs := r, fresh := wcsObj n none }

/-- The images 0 and 1, of different sizes and offsets, share the object 0, which was used before; image 2 has the WCS of its header. -/
def shared : List SrcImageS := [srcS 5 100 1 (some 0), srcS 3 200 (1/2) (some 0), srcS 4 300 1 none]

/-- The same images with an object of its own for each. -/
def separate : List SrcImageS := [srcS 5 100 1 (some 1), srcS 3 200 (1/2) (some 0), srcS 4 300 1 (some 2)]

/-- A test on the catalogue and the objects after the write. -/
def check (store : List WcsObj) (srcs : List SrcImageS) (test : MEDS → List (Nat × Nat) → List (Option ℚ) → Bool) : Bool :=
  match makeS Ex.cfg true Ex.objs store srcs (some Ex.psfs) (some "pi") "meta" with
  | .ok r =>
    match MEDS.openFile r.2 with
    | .ok m => test m (r.1.map (·.naxis)) (r.1.map (·.offset))
    | .error _ => false
  | .error _ => false

-- the second object (column 9/2) is off the small image; the shared object ends up with size and offset of image 1, and a new object was made for image 2
example : check [wcsObj 77 (some 9)] shared (fun m naxis offs =>
    m.cat.rows.map (fun o => o.slots.map (·.fileId)) = [[0, 1, 2], [0, -9999, -9999]] &&
    m.cat.rows.map (fun o => o.slots.map (·.origCol)) = [[3/2, 2, 3/2], [7/2, -9999, -9999]] &&
    naxis = [(3, 3), (4, 4)] && offs = [some (1/2), some 1]) = true := by decide +kernel
example : check [wcsObj 1 none, wcsObj 77 (some 9), wcsObj 2 (some 3)] separate (fun m naxis offs =>
    m.cat.rows.map (fun o => o.slots.map (·.fileId)) = [[0, 1, 2], [0, -9999, -9999]] &&
    m.cat.rows.map (fun o => o.slots.map (·.origCol)) = [[3/2, 2, 3/2], [7/2, -9999, -9999]] &&
    naxis = [(3, 3), (5, 5), (4, 4)] && offs = [some (1/2), some 1, some 1]) = true := by decide +kernel

-- the hypothesis of `C120_shared`
example : List.Forall₂ (fun a b => SameSource [wcsObj 77 (some 9)] a [wcsObj 1 none, wcsObj 77 (some 9), wcsObj 2 (some 3)] b) shared separate :=
  .cons ⟨rfl, rfl, rfl, _, _, rfl, rfl, rfl, rfl, rfl⟩ (.cons ⟨rfl, rfl, rfl, _, _, rfl, rfl, rfl, rfl, rfl⟩
    (.cons ⟨rfl, rfl, rfl, _, _, rfl, rfl, rfl, rfl, rfl⟩ .nil))

end ExS

end Maker
end Meds
