import Verif.Props.CopyAll

/-!
# C83: the parts of a file

A file cut into consecutive parts with the range extractor: no object and no pixel is lost or stored twice.
-/

namespace Meds.Spec
open Extract

/-- The files `gs` were extracted from `f` with the ranges `a .. b-1`, `b .. c-1`, ..., up to `e - 1`, where `b, c, ..., e` are the cuts. -/
inductive SplitInto (f : Fits) (copyAll : Bool) : Int → List Int → List Fits → Int → Prop
  | nil (a : Int) : SplitInto f copyAll a [] [] a
  | cons {a b e : Int} {bs : List Int} {g : Fits} {gs : List Fits} : extractRange f a (b - 1) copyAll = .ok g →
      SplitInto f copyAll b bs gs e → SplitInto f copyAll a (b :: bs) (g :: gs) e

/-- The rows of the catalogue in a file. -/
def storedRows (g : Fits) : List ObjRow :=
  match g.find "object_data" with
  | some (.objects t) => t.rows
  | _ => []

/-- The pixels of an extension of a file.  A file none of whose objects has a cutout counts as having none (the extractor puts two dummy
values there). -/
def storedPixels (name : String) (g : Fits) : List ℚ :=
  if ∃ o ∈ storedRows g, 0 < o.ncutout then
    match g.find name with
    | some (.image pix) => pix
    | _ => []
  else []

end Meds.Spec

namespace Meds
open Spec

namespace Extract

/-- The pieces of the epochs, for any start and size. -/
def pieces (st np : ObjRow → Slot → Int) (rows : List ObjRow) : List (Int × Int) :=
  rows.flatMap (fun o => (o.slots.take o.ncutout.toNat).map (fun s => (st o s, np o s)))

theorem pieces_nil {st np : ObjRow → Slot → Int} {rows : List ObjRow} (h : withCutouts rows = []) : pieces st np rows = [] := by
  unfold pieces
  rw [List.flatMap_eq_nil_iff]
  intro o ho
  have := withCutouts_nil.mp h o ho
  rw [Int.toNat_of_nonpos this]
  rfl

theorem consec_last {s e : Int} {l : List (Int × Int)} (h : Consec s l e) {r : Int × Int} (hr : l.getLast? = some r) : r.1 + r.2 = e := by
  induction l generalizing s with
  | nil => cases hr
  | cons q t ih =>
    cases t with
    | nil =>
      simp only [List.getLast?_singleton, Option.some.injEq] at hr
      subst hr
      have h1 := h.1
      have h2 := h.2.2
      simp only [Consec] at h2
      omega
    | cons q' t' =>
      rw [List.getLast?_cons_cons] at hr
      exact ih h.2.2 hr

theorem pieces_first {st np : ObjRow → Slot → Int} {rows : List ObjRow} {s e : Int} (hc : Consec s (pieces st np rows) e)
    {first : ObjRow} {s0 : Slot} (hf : (withCutouts rows).head? = some first) (h0 : first.slots[0]? = some s0) : st first s0 = s := by
  induction rows with
  | nil => cases hf
  | cons x t ih =>
    by_cases hx : 0 < x.ncutout
    · simp [withCutouts, hx] at hf
      subst hf
      cases hs : x.slots with
      | nil => rw [hs] at h0; cases h0
      | cons y ys =>
        rw [hs] at h0
        simp only [List.getElem?_cons_zero, Option.some.injEq] at h0
        subst h0
        unfold pieces at hc
        obtain ⟨n, hn⟩ : ∃ n, x.ncutout.toNat = n + 1 := ⟨x.ncutout.toNat - 1, by omega⟩
        rw [List.flatMap_cons, hs, hn, List.take_succ_cons, List.map_cons, List.cons_append] at hc
        exact hc.1
    · have e1 : withCutouts (x :: t) = withCutouts t := by simp [withCutouts, hx]
      have e2 : pieces st np (x :: t) = pieces st np t := by
        unfold pieces
        rw [List.flatMap_cons, Int.toNat_of_nonpos (by omega)]
        rfl
      rw [e1] at hf
      rw [e2] at hc
      exact ih hc hf

theorem pieces_last {st np : ObjRow → Slot → Int} {rows : List ObjRow} (hfit : EpochsFit rows) {s e : Int} (hc : Consec s (pieces st np rows) e)
    {last : ObjRow} {s1 : Slot} (hl : (withCutouts rows).getLast? = some last) (h1 : last.slots[(last.ncutout - 1).toNat]? = some s1) :
    st last s1 + np last s1 = e := by
  induction rows generalizing s with
  | nil => cases hl
  | cons x t ih =>
    unfold pieces at hc
    rw [List.flatMap_cons] at hc
    obtain ⟨m, hc1, hc2⟩ := Consec.sub hc
    by_cases ht : withCutouts t = []
    · have hp := pieces_nil (st := st) (np := np) ht
      unfold pieces at hp
      rw [hp] at hc2
      simp only [Consec] at hc2
      subst hc2
      have hx : 0 < x.ncutout := by
        by_contra hx
        have : withCutouts (x :: t) = [] := by
          unfold withCutouts at ht ⊢
          simp [hx, ht]
        rw [this] at hl
        cases hl
      have : withCutouts (x :: t) = [x] := by
        unfold withCutouts at ht ⊢
        simp [hx, ht]
      rw [this] at hl
      simp only [List.getLast?_singleton, Option.some.injEq] at hl
      subst hl
      have hf := hfit x (by simp)
      refine consec_last (r := (st x s1, np x s1)) hc1 ?_
      rw [List.getLast?_eq_getElem?, List.getElem?_map, List.length_map, List.length_take, List.getElem?_take, if_pos (by omega)]
      rw [show min x.ncutout.toNat x.slots.length - 1 = (x.ncutout - 1).toNat by omega, h1]
      rfl
    · have h' : (withCutouts t).getLast? = some last := by
        by_cases hx : 0 < x.ncutout
        · have : withCutouts (x :: t) = x :: withCutouts t := by simp [withCutouts, hx]
          rw [this] at hl
          rw [← hl, List.getLast?_cons]
          cases hw : withCutouts t with
          | nil => exact absurd hw ht
          | cons y ys => rfl
        · have : withCutouts (x :: t) = withCutouts t := by simp [withCutouts, hx]
          rw [this] at hl
          exact hl
      exact ih (fun o ho => hfit o (by simp [ho])) hc2 h'

/-- The range of pixels of tiled rows is all of the tiled interval. -/
theorem rowRange_tiled {rows : List ObjRow} (hfit : EpochsFit rows) {s e : Int} (hc : Consec s (Maker.regions rows) e) {r : Int × Int}
    (h : rowRange rows = .ok r) (hne : withCutouts rows ≠ []) : r = (s, e) := by
  obtain ⟨first, last, s0, s1, h1, h2, ⟨_, e0⟩, ⟨_, e1⟩, g0, g1⟩ := withCutouts_ends hfit hne
  unfold rowRange at h
  rw [h1, h2] at h
  dsimp only at h
  rw [g0, g1] at h
  injection h with h
  have hc' : Consec s (pieces (fun _ s => s.startRow) (fun o _ => o.boxSize * o.boxSize) rows) e := hc
  have a1 := pieces_first hc' h1 e0.2.2
  have a2 := pieces_last hfit hc' h2 e1.2.2
  rw [← h, a1, sq, a2]

theorem psfRowRange_tiled {rows : List ObjRow} {d : CatDtype} (hd : d.psfBox = .absent) (hp : d.psfRowCol = .perEpoch) (hfit : EpochsFit rows)
    {s e : Int} (hc : Consec s (Maker.psfRegions rows) e) {r : Int × Int} (h : psfRowRange d rows = .ok r) (hne : withCutouts rows ≠ []) :
    r = (s, e) := by
  obtain ⟨first, last, s0, s1, h1, h2, ⟨_, e0⟩, ⟨_, e1⟩, g0, g1⟩ := withCutouts_ends hfit hne
  unfold psfRowRange at h
  rw [h1, h2] at h
  dsimp only at h
  unfold psfNpix at h
  rw [hd, hp] at h
  dsimp only at h
  rw [g0, g1] at h
  injection h with h
  have hc' : Consec s (pieces (fun _ s => s.psfStartRow) (fun _ s => s.psfRowSize * s.psfColSize) rows) e := hc
  have a1 := pieces_first hc' h1 e0.2.2
  have a2 := pieces_last hfit hc' h2 e1.2.2
  rw [← h, a1, a2]

namespace Ranged
variable {f g : Fits} {a b : Int} {copyAll : Bool} {t : ObjTable} {rows : List ObjRow} {r : Int × Int} {psf : Option (Int × Int)}
  {info : List InfoRow} {md : String} {cuts : List (String × Hdu)}

theorem storedRows_eq (h : Ranged f a b copyAll t rows r psf info md cuts g) : storedRows g = rows.map (shiftRow (eff r.1) (effPsf psf)) := by
  unfold storedRows
  rw [h.out]
  rfl

theorem has_cutouts (h : Ranged f a b copyAll t rows r psf info md cuts g) : (∃ o ∈ storedRows g, 0 < o.ncutout) ↔ withCutouts rows ≠ [] := by
  rw [h.storedRows_eq, ne_eq, withCutouts_nil]
  push Not
  constructor
  · rintro ⟨o, ho, hn⟩
    obtain ⟨o', ho', rfl⟩ := List.mem_map.mp ho
    exact ⟨o', ho', hn⟩
  · rintro ⟨o, ho, hn⟩
    exact ⟨_, List.mem_map.mpr ⟨o, ho, rfl⟩, hn⟩

end Ranged

theorem drop_split {α : Type} (l : List α) {a b : Nat} (h : a ≤ b) : l.drop a = (l.take b).drop a ++ l.drop b := by
  rw [List.drop_take, show l.drop b = (l.drop a).drop (b - a) by rw [List.drop_drop]; congr 1; omega, List.take_append_drop]

theorem readSlice_parts {α : Type} {pix sub : List α} {x y : Int} (h : readSlice pix x y = .ok sub) :
    sub ++ pix.drop y.toNat = pix.drop x.toNat := by
  unfold readSlice at h
  split at h
  · cases h
  split at h
  · cases h
  injection h with h
  subst h
  exact (drop_split pix (by omega)).symm

/-- The telescope, for any tiled extension. -/
theorem split_pixels {f : Fits} {copyAll : Bool} {t : ObjTable} {name : String} {pix : List ℚ} {reg : List ObjRow → List (Int × Int)}
    (ht : f.find "object_data" = some (.objects t))
    (hreg : ∃ st np, reg = pieces st np)
    (hpart : ∀ (a b : Int) (g : Fits) (s e : Int), extractRange f a b copyAll = .ok g → 
      Consec s (reg ((t.rows.take (b + 1).toNat).drop a.toNat)) e → 0 ≤ s → withCutouts ((t.rows.take (b + 1).toNat).drop a.toNat) ≠ [] →
      ∃ sub, readSlice pix s e = .ok sub ∧ g.find name = some (.image sub))
    {a e : Int} {bs : List Int} {gs : List Fits} (hs : SplitInto f copyAll a bs gs e) (he : e = t.rows.length) (ha : 0 ≤ a)
    {s : Int} (hs0 : 0 ≤ s) (hc : Consec s (reg (t.rows.drop a.toNat)) pix.length) :
    gs.flatMap (storedPixels name) = pix.drop s.toNat := by
  obtain ⟨st, np, rfl⟩ := hreg
  induction hs generalizing s with
  | nil a =>
    subst he
    rw [Int.toNat_natCast, List.drop_length] at hc
    unfold pieces at hc
    simp only [List.flatMap_nil, Consec] at hc
    rw [hc]
    simp
  | @cons a b e bs g gs hx hrest ih =>
    obtain ⟨t', rows, r, psf, info, md, cuts, h⟩ := ranged_iff.mp hx
    have htt : t' = t := by have := h.objects; rw [ht] at this; simpa using this.symm
    subst htt
    have hle := h.le
    have hsplit : t'.rows.drop a.toNat = (t'.rows.take b.toNat).drop a.toNat ++ t'.rows.drop b.toNat := drop_split _ (by omega)
    rw [hsplit] at hc
    unfold pieces at hc
    rw [List.flatMap_append] at hc
    obtain ⟨m, hc1, hc2⟩ := Consec.sub hc
    have hsm := Consec.le hc1
    have hIH := ih he (by omega) (by omega : (0 : Int) ≤ m) hc2
    rw [List.flatMap_cons, hIH]
    have hrows : rows = (t'.rows.take b.toNat).drop a.toNat := by rw [h.rows_eq, show b - 1 + 1 = b by omega]
    by_cases hne : withCutouts rows = []
    · have e1 : storedPixels name g = [] := by
        unfold storedPixels
        rw [if_neg (by rw [h.has_cutouts]; exact fun h' => h' hne)]
      have := pieces_nil (st := st) (np := np) hne
      unfold pieces at this
      rw [hrows] at this
      rw [this] at hc1
      simp only [Consec] at hc1
      rw [e1, hc1]
      rfl
    · obtain ⟨sub, h1, h2⟩ := hpart a (b - 1) g s m hx (by rw [show b - 1 + 1 = b by omega]; exact hc1) hs0
        (by rw [show b - 1 + 1 = b by omega, ← hrows]; exact hne)
      have e1 : storedPixels name g = sub := by
        unfold storedPixels
        rw [if_pos (by rw [h.has_cutouts]; exact hne), h2]
      rw [e1]
      exact readSlice_parts h1

end Extract

section
open Extract Maker
variable {cfg : MakerCfg} {hn : Bool} {objs : List InputObj} {images : List SrcImage} {psf : Option (List PsfModel)}
  {psfInfo : Option String} {md : String} {mk mk' : Maker} {f : Fits} {m : MEDS}

/-- **C83 (objects)** However a file is cut into consecutive parts, the catalogues of the parts, one after the other, are the catalogue of the file:
only the start columns differ. -/
theorem C83_objects {f : Fits} {m : MEDS} {copyAll : Bool} {bs : List Int} {gs : List Fits} (ho : MEDS.openFile f = .ok m)
    (hs : SplitInto f copyAll 0 bs gs m.size) : List.Forall₂ SameButStarts m.cat.rows (gs.flatMap storedRows) := by
  obtain ⟨p1, p2, p3, p4⟩ := opened_parts ho
  have key : ∀ (a e : Int) (bs : List Int) (gs : List Fits), SplitInto f copyAll a bs gs e → 0 ≤ a → e = m.cat.rows.length →
      List.Forall₂ SameButStarts (m.cat.rows.drop a.toNat) (gs.flatMap storedRows) := by
    intro a e bs gs hs
    induction hs with
    | nil a =>
      intro _ he
      subst he
      simp
    | @cons a b e bs g gs hx hrest ih =>
      intro ha he
      obtain ⟨t', rows, r, psf, info, md, cuts, h⟩ := ranged_iff.mp hx
      have htt : t' = m.cat := by have := h.objects; rw [p2] at this; simpa using this.symm
      subst htt
      have hle := h.le
      have hsplit : m.cat.rows.drop a.toNat = (m.cat.rows.take b.toNat).drop a.toNat ++ m.cat.rows.drop b.toNat := drop_split _ (by omega)
      rw [hsplit, List.flatMap_cons]
      refine List.rel_append ?_ (ih (by omega) he)
      rw [h.storedRows_eq, h.rows_eq, show b - 1 + 1 = b by omega]
      rw [List.forall₂_map_right_iff, List.forall₂_same]
      intro o _
      refine ⟨_, rfl, ?_⟩
      rw [List.forall₂_map_right_iff, List.forall₂_same]
      intro s _
      rfl
  simpa using key 0 _ bs gs hs le_rfl rfl

/-- **C83 (pixels)** The pixels of an extension of a written file are exactly those of the parts, one part after the other: none is lost, none is
stored twice. -/
theorem C83_pixels (hi : Maker.init cfg hn objs images psf psfInfo md = .ok mk) (hw : mk.write = .ok (mk', f)) (ho : MEDS.openFile f = .ok m)
    {copyAll : Bool} {bs : List Int} {gs : List Fits} (hs : SplitInto f copyAll 0 bs gs m.size)
    {t : String} (ht : t = "image" ∨ t ∈ cfg.cutoutTypes) (hk : t ∈ ["image", "weight", "seg", "bmask", "noise"]) :
    f.find (t ++ "_cutouts") = some (.image (gs.flatMap (storedPixels (t ++ "_cutouts")))) := by
  obtain ⟨p1, p2, p3, p4⟩ := opened_parts ho
  obtain ⟨w, _, hall, _, _⟩ := C09_slots hi hw ho
  have hfit : EpochsFit m.cat.rows := fun o hm => ⟨(hall o hm).2.1, by have := hall o hm; omega⟩
  obtain ⟨pix, hf, hc⟩ : ∃ pix, f.find (t ++ "_cutouts") = some (.image pix) ∧ Consec 0 (regions m.cat.rows) pix.length := by
    obtain ⟨in0, w, W, rfl, _⟩ := opened_eq hi hw ho
    obtain ⟨_, _, _, h4, _⟩ := writeData_ok W.ready W.write_eq
    refine ⟨_, h4 t ((mem_types W.types_ok t).mpr ht), ?_⟩
    · rw [target_length W.ready.tiled]
      exact W.ready.tiled
  have := split_pixels (f := f) (copyAll := copyAll) (t := m.cat) (name := t ++ "_cutouts") (pix := pix) (reg := regions) p2 ⟨_, _, rfl⟩ ?_
    hs rfl le_rfl (s := 0) le_rfl (by simpa using hc)
  · rw [this, hf]; rfl
  · intro a b g s e hx hcs hs0 hne
    obtain ⟨t', rows, r, psf, info, md, cuts, h⟩ := ranged_iff.mp hx
    have htt : t' = m.cat := by have := h.objects; rw [p2] at this; simpa using this.symm
    subst htt
    rw [← h.rows_eq] at hcs hne
    have hr := rowRange_tiled (fun o hm => hfit o (by rw [h.rows_eq] at hm; exact mem_slice hm)) hcs h.range hne
    obtain ⟨pix', sub, h1, h2, h3⟩ := h.ext_find (by rw [hr]; dsimp only; omega) hk (Ranged.mem_rangeExts (kept_names hk).2.2.2.2.2 (by unfold Fits.has; rw [hf]; rfl))
    rw [hf] at h1
    injection h1 with h1
    injection h1 with h1
    subst h1
    rw [hr] at h2
    exact ⟨sub, h2, h3⟩

/-- **C83 (PSFs)** ... and so are the pixels of the PSF images. -/
theorem C83_psf_pixels (hi : Maker.init cfg hn objs images psf psfInfo md = .ok mk) (hw : mk.write = .ok (mk', f)) (ho : MEDS.openFile f = .ok m)
    {ps : List PsfModel} (hps : psf = some ps) (hwf : ∀ p ∈ ps, ∀ sky r c, (p.getRec sky r c).WF)
    {copyAll : Bool} {bs : List Int} {gs : List Fits} (hs : SplitInto f copyAll 0 bs gs m.size) :
    f.find "psf" = some (.image (gs.flatMap (storedPixels "psf"))) := by
  obtain ⟨p1, p2, p3, p4⟩ := opened_parts ho
  obtain ⟨w, _, hall, _, _⟩ := C09_slots hi hw ho
  have hfit : EpochsFit m.cat.rows := fun o hm => ⟨(hall o hm).2.1, by have := hall o hm; omega⟩
  obtain ⟨hf, _, hc, hrc⟩ := written_psf hi hw ho hps hwf
  rw [p1] at hf
  have hbox : m.cat.dtype.psfBox = .absent := by
    obtain ⟨in0, w, W, _, hd, _⟩ := written hi hw
    have : m.cat.dtype = mk.dtype := by
      have := W.open
      rw [ho] at this
      injection this with this
      subst this
      exact hd
    rw [this, (init_ok hi).2.2.2.2.2.2.1]
  have := split_pixels (f := f) (copyAll := copyAll) (t := m.cat) (name := "psf") (reg := psfRegions) p2 ⟨_, _, rfl⟩ ?_
    hs rfl le_rfl (s := 0) le_rfl (by simpa using hc)
  · rw [this, hf]; rfl
  · intro a b g s e hx hcs hs0 hne
    obtain ⟨t', rows, r, psf, info, md, cuts, h⟩ := ranged_iff.mp hx
    have htt : t' = m.cat := by have := h.objects; rw [p2] at this; simpa using this.symm
    subst htt
    rw [← h.rows_eq] at hcs hne
    obtain ⟨s', e', hcr⟩ : ∃ s' e' : Int, 0 ≤ s' ∧ Consec s' (regions rows) e' := by
      obtain ⟨in0, w, W, hm, _⟩ := opened_eq hi hw ho
      have hc := W.ready.tiled
      have hmr : m.cat.rows = mk'.objs := by rw [hm]; rfl
      rw [← hmr, ← List.take_append_drop a.toNat m.cat.rows, ← List.take_append_drop (b + 1 - a).toNat (m.cat.rows.drop a.toNat)] at hc
      unfold regions at hc
      rw [List.flatMap_append, List.flatMap_append] at hc
      obtain ⟨m1, c1, hc⟩ := Consec.sub hc
      obtain ⟨m2, hc, _⟩ := Consec.sub hc
      refine ⟨m1, m2, Consec.le c1, ?_⟩
      have hin := h.inside
      rw [h.rows_eq, List.drop_take, show (b + 1).toNat - a.toNat = (b + 1 - a).toNat by omega]
      exact hc
    have hfit' : EpochsFit rows := fun o hm => hfit o (by rw [h.rows_eq] at hm; exact mem_slice hm)
    have hr := rowRange_tiled hfit' hcr.2 h.range hne
    obtain ⟨q, pix', sub, h0, h1, h2, h3⟩ := h.psf_find (by rw [hr]; dsimp only; omega) (by unfold Fits.has; rw [hf]; rfl)
    have hq := psfRowRange_tiled hbox hrc hfit' hcs h0 hne
    rw [hf] at h1
    injection h1 with h1
    injection h1 with h1
    subst h1
    rw [hq] at h2
    exact ⟨sub, h2, h3⟩

/-- **C83 (completion)** A written file with weight and segmentation cutouts can be cut at any increasing positions, if every stored epoch has at least
one pixel, and its PSF image, too. -/
theorem C83_split_completes (hi : Maker.init cfg hn objs images psf psfInfo md = .ok mk) (hw : mk.write = .ok (mk', f)) (ho : MEDS.openFile f = .ok m)
    (hty : "weight" ∈ cfg.cutoutTypes ∧ "seg" ∈ cfg.cutoutTypes) (hwf : ∀ ps, psf = some ps → ∀ p ∈ ps, ∀ sky r c, (p.getRec sky r c).WF)
    (hbox : ∀ i k o s, Epoch m.cat.rows i k o s → o.boxSize ≠ 0)
    (hpix : psf ≠ none → ∀ i k o s, Epoch m.cat.rows i k o s → s.psfRowSize * s.psfColSize ≠ 0) (copyAll : Bool) 
    {bs : List Int} (hbs : (0 :: bs).IsChain (· < ·)) (hlast : (0 :: bs).getLast? = some (m.size : Int)) :
    ∃ gs, SplitInto f copyAll 0 bs gs m.size := by
  obtain ⟨p1, p2, p3, p4⟩ := opened_parts ho
  have hord := C18_written_in_order hi hw ho
  have hpsf := C18_written_psf_in_order hi hw ho hwf
  have himg : ∀ t, t = "image" ∨ t ∈ cfg.cutoutTypes → ∃ pix, f.find (t ++ "_cutouts") = some (.image pix) := by
    intro t ht
    obtain ⟨pix, h1, _⟩ := C03_storage_tiles hi hw ho ht
    rw [p1] at h1
    exact ⟨pix, h1⟩
  have hps : f.has "psf" = true → psf ≠ none ∧ m.cat.dtype.psfRowCol = .perEpoch := by
    intro hf
    obtain ⟨in0, w, W, _, _⟩ := opened_eq hi hw ho
    obtain ⟨_, _, _, _, _, h6, _⟩ := writeData_ok W.ready W.write_eq
    cases hpe : psf with
    | none =>
      have := h6 (by rw [W.psf_eq, hpe])
      unfold Fits.has at hf
      rw [this] at hf
      cases hf
    | some ps => exact ⟨by simp, (written_psf hi hw ho hpe (hwf ps hpe)).2.2.2⟩
  have hopt : ∀ n ∈ ["bmask_cutouts", "noise_cutouts", "psf"], f.has n = true → ∃ pix, f.find n = some (.image pix) := by
    intro n hn hf
    obtain ⟨in0, w, W, _, _⟩ := opened_eq hi hw ho
    obtain ⟨_, _, _, h4, h5, h6, h7⟩ := writeData_ok W.ready W.write_eq
    by_cases hnp : n = "psf"
    · subst hnp
      obtain ⟨hne, _⟩ := hps hf
      obtain ⟨ps, hpe⟩ := Option.ne_none_iff_exists'.mp hne
      exact ⟨_, (h5 ps (by rw [W.psf_eq, hpe]) (hwf ps hpe)).2⟩
    · have hmem : n ∈ f.hdus.map Prod.fst := by
        by_contra hc
        have : Fits.lookup f.hdus n = none := lookup_none_of_not_mem (fun x hx e => hc (List.mem_map.mpr ⟨x, hx, e⟩))
        unfold Fits.has Fits.find at hf
        rw [this] at hf
        cases hf
      rw [h7] at hmem
      have : ∃ t ∈ mk'.types, n = t ++ "_cutouts" := by
        have a1 : n ≠ "psf_info" ∧ n ≠ "object_data" ∧ n ≠ "image_info" ∧ n ≠ "metadata" := by
          simp only [List.mem_cons, List.not_mem_nil, or_false] at hn
          rcases hn with rfl | rfl | rfl <;> decide
        rcases List.mem_append.mp hmem with hmem | hmem
        · rcases List.mem_append.mp hmem with hmem | hmem
          · rcases List.mem_append.mp hmem with hmem | hmem
            · simp [a1] at hmem
            · obtain ⟨t, ht, e⟩ := List.mem_map.mp hmem
              exact ⟨t, ht, e.symm⟩
          · cases hq : mk'.psf <;> rw [hq] at hmem <;> simp [hnp] at hmem
        · cases hq : mk'.psfInfo <;> rw [hq] at hmem <;> simp [a1] at hmem
      obtain ⟨t, ht, rfl⟩ := this
      exact ⟨_, h4 t ht⟩
  have hone : ∀ a b : Int, 0 ≤ a → a < b → b ≤ m.size → ∃ g, extractRange f a (b - 1) copyAll = .ok g := by
    intro a b ha hab hb
    refine C18_extraction_completes copyAll ho hord hpsf ha (by omega) (by omega) ?_ ?_ hbox ?_ ?_
    · intro n hn
      simp only [List.mem_cons, List.not_mem_nil, or_false] at hn
      rcases hn with rfl | rfl | rfl
      · exact himg "image" (.inl rfl)
      · exact himg "weight" (.inr hty.1)
      · exact himg "seg" (.inr hty.2)
    · exact hopt
    · intro hf i k o s he
      obtain ⟨hne, hrc⟩ := hps hf
      unfold psfPixels
      rw [hrc]
      exact hpix hne i k o s he
    · exact fun hf => .inr (hps hf).2
  have key : ∀ (bs : List Int) (a : Int), 0 ≤ a → (a :: bs).IsChain (· < ·) → (a :: bs).getLast? = some (m.size : Int) →
      a ≤ m.size ∧ ∃ gs, SplitInto f copyAll a bs gs m.size := by
    intro bs
    induction bs with
    | nil =>
      intro a ha _ hl
      simp only [List.getLast?_singleton, Option.some.injEq] at hl
      subst hl
      exact ⟨le_rfl, [], .nil _⟩
    | cons b bs ih =>
      intro a ha hc hl
      have hab := (List.isChain_cons_cons.mp hc).1
      rw [List.getLast?_cons_cons] at hl
      obtain ⟨hb, gs, hgs⟩ := ih b (by omega) (List.isChain_cons_cons.mp hc).2 hl
      obtain ⟨g, hg⟩ := hone a b ha hab hb
      exact ⟨by omega, g :: gs, .cons hg hgs⟩
  exact (key bs 0 le_rfl hbs hlast).2

end

namespace Ex
open Extract

/-- A catalogue of three objects, the second of which is on no image. -/
def threeObjs : List Maker.InputObj := [obj 10 3 (5/2) (7/3), obj 12 2 900 900, obj 11 2 (9/2) 2]

def threeFile : Fits :=
  match run { cfg with firstImageIsCoadd := false, checkInCoadd := false } threeObjs images (some psfs) with
  | .ok r => r.2
  | .error _ => ⟨[]⟩

/-- One part of it. -/
def part (a b : Int) : Fits :=
  match extractRange threeFile a b true with
  | .ok g => g
  | .error _ => ⟨[]⟩

end Ex

/-- Cut after the first and the second object: the second part has no cutouts, and two dummy values in their place. -/
example : SplitInto Ex.threeFile true 0 [1, 2, 3] [Ex.part 0 0, Ex.part 1 1, Ex.part 2 2] 3 :=
  .cons (by decide +kernel) (.cons (by decide +kernel) (.cons (by decide +kernel) (.nil _)))

example : (Ex.part 1 1).find "image_cutouts" = some (.image [-9999, -9999]) ∧ storedPixels "image_cutouts" (Ex.part 1 1) = [] ∧
    (storedPixels "image_cutouts" (Ex.part 0 0)).length = 32 ∧ storedPixels "image_cutouts" (Ex.part 2 2) = [112, 113, 122, 123, 424, 0, 444, 0, 310, 311, 320, 321] ∧
    Ex.threeFile.find "image_cutouts" = some (.image (storedPixels "image_cutouts" (Ex.part 0 0) ++ storedPixels "image_cutouts" (Ex.part 2 2))) ∧
    ([Ex.part 0 0, Ex.part 1 1, Ex.part 2 2].flatMap storedRows).map (·.id) = [10, 12, 11] := by decide +kernel

/-- The hypotheses of the completion theorem, for the file of the other examples. -/
example : (∀ o ∈ Ex.med.cat.rows, o.boxSize ≠ 0 ∧ ∀ s ∈ o.slots.take o.ncutout.toNat, s.psfRowSize * s.psfColSize ≠ 0) ∧
    ([0, 1, 2] : List Int).IsChain (· < ·) ∧ ([0, 1, 2] : List Int).getLast? = some (Ex.med.size : Int) := by decide +kernel

end Meds
