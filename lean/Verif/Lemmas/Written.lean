import Verif.Lemmas.File
import Verif.Spec.Layout

/-! Helper lemmas: everything known about the file produced by `MEDSMaker(...).write(f)`. -/

namespace Meds
namespace Maker
open Spec

theorem setCutoutTypes_ok {req types : List String} (h : setCutoutTypes req = .ok types) :
    types = "image" :: (if "image" ∈ req then req.erase "image" else req) ∧ ∀ t ∈ types, t ∈ supportedTypes := by
  unfold setCutoutTypes at h
  dsimp only at h
  generalize (if "image" ∈ req then req.erase "image" else req) = rest at *
  split at h
  · cases h
  · rename_i hb
    injection h with h
    refine ⟨h.symm, ?_⟩
    rw [← h]
    intro t ht
    simp only [ne_eq, not_not, List.length_eq_zero_iff, List.filter_eq_nil_iff] at hb
    simpa using hb t ht

theorem mem_types {req types : List String} (h : setCutoutTypes req = .ok types) (t : String) :
    t ∈ types ↔ t = "image" ∨ t ∈ req := by
  rw [(setCutoutTypes_ok h).1, List.mem_cons]
  split
  · by_cases e : t = "image"
    · simp [e]
    · rw [List.mem_erase_of_ne e]
  · rfl

theorem init_ok {cfg : MakerCfg} {hn : Bool} {objs : List InputObj} {images : List SrcImage} {psf : Option (List PsfModel)}
    {psfInfo : Option String} {md : String} {mk : Maker} (h : init cfg hn objs images psf psfInfo md = .ok mk) :
    mk.cfg = cfg ∧ mk.images = images ∧ mk.psf = psf ∧ mk.metaData = md ∧ mk.psfInfo = psfInfo ∧
    setCutoutTypes cfg.cutoutTypes = .ok mk.types ∧
    mk.dtype = { hasNumber := hn, psfBox := .absent, psfRowCol := psfKind psf } ∧
    mk.objs = (objs.map (fullRow (initialNmax cfg images.length))).map forceEven ∧
    (∀ p, psf = some p → p.length = images.length) := by
  unfold init at h
  obtain ⟨types, ht, h⟩ := Res.bind_eq_ok.mp h
  split at h
  · cases h
  · rename_i hp
    injection h with h
    subst h
    refine ⟨rfl, rfl, rfl, rfl, rfl, ht, rfl, rfl, ?_⟩
    intro p hpp
    subst hpp
    simpa [psfLengthBad] using hp

theorem forceEven_fresh (o : ObjRow) : (forceEven o).ncutout = o.ncutout ∧ (forceEven o).slots = o.slots ∧ (forceEven o).sky = o.sky
    ∧ (forceEven o).id = o.id ∧ (forceEven o).number = o.number ∧ (forceEven o).extra = o.extra := by
  unfold forceEven; split <;> simp

theorem accepted_iff (cfg : MakerCfg) (i : Nat) (im : SrcImage) (o : ObjRow) :
    accepted cfg i im o = true ↔ Covers cfg i im o.sky := by
  unfold accepted Covers Bounds.containsPoint fileBounds imageBounds objPos makeWcsPosition rowIn colIn border
  by_cases h : i = 0 ∧ cfg.firstImageIsCoadd = true
  · simp only [h, and_self, if_true, Bool.false_eq_true, if_false, Bool.and_eq_true, decide_eq_true_eq]
    tauto
  · simp only [h, if_false, Bool.false_eq_true, Bool.and_eq_true, decide_eq_true_eq, sub_zero, add_zero]
    tauto

theorem acceptedIn_ids (cfg : MakerCfg) (images : List SrcImage) (o : ObjRow) :
    (acceptedIn cfg o (numbered images)).map Prod.fst = coveringImages cfg images o.sky := by
  unfold acceptedIn coveringImages
  have key : ∀ (l : List Nat), (∀ i ∈ l, i < images.length) →
      ((l.map (fun i => (i, images[i]?))).filter (fun p => match p.2 with | some im => accepted cfg p.1 im o | none => false)).map Prod.fst
        = l.filter (fun i => match images[i]? with | some im => decide (Covers cfg i im o.sky) | none => false) := by
    intro l
    induction l with
    | nil => intro _; rfl
    | cons x xs ih =>
      intro hl
      have hx := hl x (by simp)
      simp only [List.map_cons, List.getElem?_eq_getElem hx]
      have e : accepted cfg x images[x] o = decide (Covers cfg x images[x] o.sky) := by
        rw [Bool.eq_iff_iff, accepted_iff]; simp
      by_cases hc : accepted cfg x images[x] o = true
      · rw [List.filter_cons_of_pos (by simpa using hc),
          List.filter_cons_of_pos (by simpa [List.getElem?_eq_getElem hx, e] using hc)]
        simp only [List.map_cons]
        rw [ih (fun i hi => hl i (by simp [hi]))]
      · rw [List.filter_cons_of_neg (by simpa using hc),
          List.filter_cons_of_neg (by simpa [List.getElem?_eq_getElem hx, e] using hc)]
        exact ih (fun i hi => hl i (by simp [hi]))
  refine Eq.trans ?_ (key (List.range images.length) (fun i hi => List.mem_range.mp hi))
  have hn : (List.range images.length).map (fun i => (i, images[i]?)) = (numbered images).map (fun p => (p.1, some p.2)) := by
    apply List.ext_getElem
    · simp [numbered]
    · intro i h1 h2
      simp only [List.length_map, List.length_range] at h1
      simp [numbered, h1]
  rw [hn, List.filter_map, List.map_map]
  rfl

/-- All facts about a written file. -/
structure Written (cfg : MakerCfg) (images : List SrcImage) (psf : Option (List PsfModel)) (in0 : List ObjRow)
    (mk' : Maker) (f : Fits) (w : Nat) : Prop where
  cfg_eq : mk'.cfg = cfg
  images_eq : mk'.images = images
  psf_eq : mk'.psf = psf
  types_ok : setCutoutTypes cfg.cutoutTypes = .ok mk'.types
  w2 : 2 ≤ w
  wmax : w = 2 ∨ ∃ o ∈ mk'.objs, o.ncutout = w
  laid : List.Forall₂ (LaidOut cfg images w) in0 mk'.objs
  coadd : cfg.firstImageIsCoadd = true → cfg.checkInCoadd = true →
    ∀ im rest, images = im :: rest → ∀ o ∈ in0, Covers cfg 0 im o.sky
  ready : mk'.Ready
  psfOk : ∀ p, psf = some p → ∀ o ∈ mk'.objs, ∀ s ∈ o.slots.take o.ncutout.toNat, PsfSlotOk p o.sky s
  write_eq : mk'.writeData = .ok f

theorem laidOut_fileIds {cfg : MakerCfg} {images : List SrcImage} {w : Nat} {in0 objs : List ObjRow}
    (h : List.Forall₂ (LaidOut cfg images w) in0 objs) : FileIdsOk images objs := by
  intro o s hos
  obtain ⟨ho, hs⟩ := mem_cells.mp hos
  obtain ⟨i, hi, rfl⟩ := List.mem_iff_getElem.mp ho
  have hl := h.length_eq
  have := (List.forall₂_iff_get.mp h).2 i (by omega) hi
  simp only [List.get_eq_getElem] at this
  obtain ⟨S, h1, h2, h3⟩ := this
  have hn : (objs[i]).ncutout.toNat = S.length := by rw [h3]; simp
  have hss : (objs[i]).slots.take (objs[i]).ncutout.toNat = S := by
    rw [hn, h3]; simp
  rw [hss] at hs
  have : core s ∈ S.map core := List.mem_map_of_mem hs
  rw [h1] at this
  obtain ⟨fi, hfi, he⟩ := List.mem_map.mp this
  have hfile : s.fileId = (fi.1 : Int) := by
    rw [core_fileId he.symm]; rfl
  have := mem_numbered.mp (show (fi.1, fi.2) ∈ numbered images from (List.mem_filter.mp hfi).1)
  have := (List.getElem?_eq_some_iff.mp this).1
  omega

theorem write_ok {mk mk' : Maker} {f : Fits} (h : mk.write = .ok (mk', f)) :
    mk.buildLayout = .ok mk' ∧ mk'.writeData = .ok f := by
  unfold write at h
  obtain ⟨m, hm, h⟩ := Res.bind_eq_ok.mp h
  obtain ⟨g, hg, h⟩ := Res.bind_eq_ok.mp h
  injection h with h
  injection h with h1 h2
  subst h1 h2
  exact ⟨hm, hg⟩

/-- The catalogue that enters the layout loop: even boxes, optionally trimmed to the coadd. -/
theorem written {cfg : MakerCfg} {hn : Bool} {objs : List InputObj} {images : List SrcImage} {psf : Option (List PsfModel)}
    {psfInfo : Option String} {md : String} {mk mk' : Maker} {f : Fits}
    (hi : init cfg hn objs images psf psfInfo md = .ok mk) (hw : mk.write = .ok (mk', f)) :
    ∃ in0 w, Written cfg images psf in0 mk' f w ∧
      trim cfg images ((objs.map (fullRow (initialNmax cfg images.length))).map forceEven) = .ok in0 ∧
      mk'.dtype = mk.dtype ∧ mk'.metaData = md ∧ mk'.psfInfo = psfInfo := by
  obtain ⟨e1, e2, e3, e4, e5, e6, e7, e8, e9⟩ := init_ok hi
  obtain ⟨hb, hd⟩ := write_ok hw
  obtain ⟨in0, w, h1, h2, h3, h4, h5, h6, h7, h8⟩ := buildLayout_ok (nmax := initialNmax cfg images.length) hb (by
    intro o ho
    rw [e8] at ho
    obtain ⟨o1, ho1, rfl⟩ := List.mem_map.mp ho
    obtain ⟨o2, ho2, rfl⟩ := List.mem_map.mp ho1
    obtain ⟨a, b, _⟩ := forceEven_fresh (fullRow (initialNmax cfg images.length) o2)
    rw [a, b]
    exact ⟨rfl, rfl⟩)
  rw [e1, e2, e8] at h1
  rw [e1, e2] at h4
  rw [e1, e2] at h5
  have c1 : mk'.cfg = cfg := by rw [h7]; exact e1
  have c2 : mk'.images = images := by rw [h7]; exact e2
  have c3 : mk'.psf = psf := by rw [h7]; exact e3
  have c4 : mk'.types = mk.types := by rw [h7]
  refine ⟨in0, w, ⟨c1, c2, c3, by rw [c4]; exact e6, h2, h3, h4, ?_, ?_, ?_, hd⟩, h1, by rw [h7], by rw [h7]; exact e4, by rw [h7]; exact e5⟩
  · intro a b im rest him o ho
    exact (accepted_iff _ _ _ _).mp (h5 a b im rest him o ho)
  · refine ⟨?_, h6, ?_, ?_⟩
    · rw [c4]; exact (setCutoutTypes_ok e6).2
    · rw [c2]; exact laidOut_fileIds h4
    · intro p hp
      rw [c3] at hp
      rw [← e3] at hp
      exact (h8 p hp).1
  · intro p hp
    exact (h8 p (by rw [e3]; exact hp)).2

/-- The opened file. -/
def openedOf (mk' : Maker) (f : Fits) : MEDS :=
  { fits := f, cat := { dtype := mk'.dtype, rows := mk'.objs }, info := mk'.images.map (·.info), metaData := mk'.metaData }

theorem Written.open {cfg : MakerCfg} {images : List SrcImage} {psf : Option (List PsfModel)} {in0 : List ObjRow}
    {mk' : Maker} {f : Fits} {w : Nat} (h : Written cfg images psf in0 mk' f w) :
    MEDS.openFile f = .ok (openedOf mk' f) := by
  obtain ⟨h1, h2, h3, _⟩ := writeData_ok h.ready h.write_eq
  unfold MEDS.openFile
  rw [h1]
  dsimp only
  rw [h2]
  dsimp only
  rw [h3]
  rfl

/-- The slot of a stored epoch, in closed form. -/
theorem laidOut_epoch {cfg : MakerCfg} {images : List SrcImage} {w : Nat} {in0 rows : List ObjRow}
    (h : List.Forall₂ (LaidOut cfg images w) in0 rows) {i k : Nat} {o : ObjRow} {s : Slot} (he : Epoch rows i k o s) :
    ∃ o0 fi, in0[i]? = some o0 ∧ o = { o0 with ncutout := o.ncutout, slots := o.slots } ∧
      (acceptedIn cfg o0 (numbered images))[k]? = some fi ∧ core s = epochOf cfg o0 fi ∧
      fi ∈ numbered images ∧ Covers cfg fi.1 fi.2 o.sky := by
  obtain ⟨h1, h2, h3⟩ := he
  obtain ⟨hi, rfl⟩ := List.getElem?_eq_some_iff.mp h1
  have hl := h.length_eq
  have := (List.forall₂_iff_get.mp h).2 i (by omega) hi
  simp only [List.get_eq_getElem] at this
  obtain ⟨S, g1, g2, g3⟩ := this
  have hn : (rows[i]).ncutout = S.length := by rw [g3]
  have hk : k < S.length := by omega
  have hs : S[k]? = some s := by
    rw [g3] at h3
    simpa [List.getElem?_append_left hk] using h3
  have hm : (S.map core)[k]? = some (core s) := by rw [List.getElem?_map, hs]; rfl
  rw [g1, List.getElem?_map] at hm
  cases hfi : (acceptedIn cfg in0[i] (numbered images))[k]? with
  | none => rw [hfi] at hm; cases hm
  | some fi =>
    rw [hfi] at hm
    injection hm with hm
    have hmem := List.mem_of_getElem? hfi
    obtain ⟨m1, m2⟩ := List.mem_filter.mp hmem
    refine ⟨in0[i], fi, List.getElem?_eq_getElem (by omega), ?_, hfi, hm.symm, m1, ?_⟩
    · conv_lhs => rw [g3]
      conv_rhs => rw [g3]
    · rw [g3]
      exact (accepted_iff _ _ _ _).mp m2

theorem laidOut_slots {cfg : MakerCfg} {images : List SrcImage} {w : Nat} {in0 rows : List ObjRow}
    (h : List.Forall₂ (LaidOut cfg images w) in0 rows) {i : Nat} {o : ObjRow} (ho : rows[i]? = some o) :
    0 ≤ o.ncutout ∧ o.ncutout ≤ w ∧ o.slots.length = w ∧ (∀ k : Nat, o.ncutout ≤ k → k < w → o.slots[k]? = some Slot.dflt) ∧
    (o.slots.take o.ncutout.toNat).map (·.fileId) = (coveringImages cfg images o.sky).map (fun j : Nat => (j : Int)) := by
  obtain ⟨hi, rfl⟩ := List.getElem?_eq_some_iff.mp ho
  have hl := h.length_eq
  have := (List.forall₂_iff_get.mp h).2 i (by omega) hi
  simp only [List.get_eq_getElem] at this
  obtain ⟨S, g1, g2, g3⟩ := this
  rw [g3]
  refine ⟨by simp, by simpa using g2, by simp; omega, ?_, ?_⟩
  · intro k hk hkw
    simp only at hk ⊢
    rw [List.getElem?_append_right (by omega), List.getElem?_replicate, if_pos (by omega)]
  · simp only [Int.toNat_natCast, List.take_left']
    have : S.map (·.fileId) = (S.map core).map (·.fileId) := by
      rw [List.map_map]; rfl
    rw [this, g1, ← acceptedIn_ids, List.map_map, List.map_map]
    rfl

theorem epoch_mem_cells {rows : List ObjRow} {i k : Nat} {o : ObjRow} {s : Slot} (h : Epoch rows i k o s) : (o, s) ∈ cells rows := by
  obtain ⟨h1, h2, h3⟩ := h
  refine mem_cells.mpr ⟨List.mem_of_getElem? h1, ?_⟩
  have : (o.slots.take o.ncutout.toNat)[k]? = some s := by
    rw [List.getElem?_take, if_pos (by omega)]; exact h3
  exact List.mem_of_getElem? this

theorem mem_cells_epoch {rows : List ObjRow} {o : ObjRow} {s : Slot} (h : (o, s) ∈ cells rows) : ∃ i k, Epoch rows i k o s := by
  obtain ⟨ho, hs⟩ := mem_cells.mp h
  obtain ⟨i, hi⟩ := List.mem_iff_getElem?.mp ho
  obtain ⟨k, hk⟩ := List.mem_iff_getElem?.mp hs
  rw [List.getElem?_take] at hk
  split at hk
  · exact ⟨i, k, hi, by omega, hk⟩
  · cases hk

theorem foldRes_each {σ α : Type} {f : σ → α → Res σ} {l : List α} {b b' : σ} {P : α → Prop}
    (hP : ∀ b b' x, x ∈ l → f b x = .ok b' → P x) (h : foldRes f b l = .ok b') : ∀ x ∈ l, P x := by
  induction l generalizing b with
  | nil => simp
  | cons x xs ih =>
    obtain ⟨t, ht, h⟩ := foldRes_cons_ok.mp h
    intro y hy
    rcases List.mem_cons.mp hy with rfl | hy
    · exact hP _ _ _ (by simp) ht
    · exact ih (fun b b' z hz => hP b b' z (by simp [hz])) h y hy

/-- Every type went through the writer. -/
theorem Written.wrote {cfg : MakerCfg} {images : List SrcImage} {psf : Option (List PsfModel)} {in0 : List ObjRow}
    {mk' : Maker} {f : Fits} {w : Nat} (h : Written cfg images psf in0 mk' f w) {t : String} (ht : t ∈ mk'.types) :
    ∃ buf buf', mk'.writeCutouts t buf = .ok buf' := by
  have hd := h.write_eq
  unfold writeData at hd
  obtain ⟨h1, hf1, _⟩ := Res.bind_eq_ok.mp hd
  refine foldRes_each (P := fun t => ∃ buf buf', mk'.writeCutouts t buf = .ok buf') ?_ hf1 t ht
  intro b b' t _ hb
  obtain ⟨⟨pix, pix', _, h2, _⟩, _⟩ := modifyImage_ok hb
  exact ⟨pix, pix', h2⟩

/-- Every epoch was cut from its image. -/
theorem Written.cut {cfg : MakerCfg} {images : List SrcImage} {psf : Option (List PsfModel)} {in0 : List ObjRow}
    {mk' : Maker} {f : Fits} {w : Nat} (h : Written cfg images psf in0 mk' f w) {t : String} (ht : t ∈ mk'.types)
    {o : ObjRow} {s : Slot} (hos : (o, s) ∈ cells mk'.objs) {j : Nat} {im : SrcImage} (hj : s.fileId = (j : Int))
    (him : images[j]? = some im) {src : Img ℚ} (hr : readImage cfg im t = .ok (some src)) :
    ∃ sub, subImage cfg t src o s = .ok sub := by
  obtain ⟨buf, buf', hb⟩ := h.wrote ht
  have := (writeCutouts_toward h.ready.tiled hb).2 j im src (by rw [h.images_eq]; exact him) (by rw [h.cfg_eq]; exact hr) o s hos hj
  rw [h.cfg_eq] at this
  exact this.1

/-- Every image was read without error. -/
theorem Written.read {cfg : MakerCfg} {images : List SrcImage} {psf : Option (List PsfModel)} {in0 : List ObjRow}
    {mk' : Maker} {f : Fits} {w : Nat} (h : Written cfg images psf in0 mk' f w) {t : String} (ht : t ∈ mk'.types)
    {im : SrcImage} (him : im ∈ images) : ∃ r, readImage cfg im t = .ok r := by
  obtain ⟨buf, buf', hb⟩ := h.wrote ht
  obtain ⟨j, hj⟩ := List.mem_iff_getElem?.mp him
  unfold writeCutouts at hb
  refine foldRes_each (P := fun fi : Nat × SrcImage => ∃ r, readImage cfg fi.2 t = .ok r) ?_ hb (j, im)
    (mem_numbered.mpr (by rw [h.images_eq]; exact hj))
  intro b b' fi _ hf
  unfold writeFileCutouts at hf
  obtain ⟨r, hr, _⟩ := Res.bind_eq_ok.mp hf
  rw [h.cfg_eq] at hr
  exact ⟨r, hr⟩

end Maker
end Meds
