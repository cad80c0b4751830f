import Verif.Lemmas.Extract
import Verif.Lemmas.SameView
import Verif.Props.Mosaic
import Verif.Props.RoundTrip
import Verif.Examples.Maker

/-!
# Extraction of a range of objects (C18, C19, C20, C24, C55)
-/

namespace Meds
open Spec Extract

theorem opened_parts {f : Fits} {m : MEDS} (h : MEDS.openFile f = .ok m) :
    m.fits = f ∧ f.find "object_data" = some (.objects m.cat) ∧ f.find "image_info" = some (.info m.info) ∧
    f.find "metadata" = some (.metadata m.metaData) := by
  unfold MEDS.openFile at h
  split at h
  · split at h
    · split at h
      · injection h with h
        subst h
        exact ⟨rfl, by assumption, by assumption, by assumption⟩
      · cases h
    · cases h
  · cases h

theorem shiftRow_same (c pc : Int) (o : ObjRow) : SameButStarts o (shiftRow c pc o) := by
  refine ⟨_, rfl, ?_⟩
  rw [List.forall₂_map_right_iff]
  exact List.forall₂_same.mpr (fun s _ => rfl)

/-- Contiguous cutouts: the mosaic ends where the last cutout ends. -/
theorem mosaic_end {o : ObjRow} (hc : ObjContig o) {s0 s1 : Slot} (hn : 0 < o.ncutout) (h0 : o.slots[0]? = some s0)
    (h1 : o.slots[(o.ncutout - 1).toNat]? = some s1) :
    s0.startRow + o.boxSize * o.boxSize * o.ncutout = s1.startRow + o.boxSize ^ 2 := by
  have := hc _ s1 s0 (by omega) h1 h0
  rw [this, Int.toNat_of_nonneg (by omega)]
  ring

namespace Extract

theorem twin_range {f g : Fits} {m : MEDS} {a b : Int} {copyAll : Bool} {t : ObjTable} {rows : List ObjRow} {r : Int × Int}
    {psf : Option (Int × Int)} {info : List InfoRow} {md : String} {cuts : List (String × Hdu)}
    (h : Ranged f a b copyAll t rows r psf info md cuts g) (ho : MEDS.openFile f = .ok m)
    (hord : CutoutsInOrder m.cat.rows) (hpsf : f.has "psf" = true → PsfInOrder m.cat)
    {i : Nat} {o : ObjRow} (hi : rows[i]? = some o) :
    Twin keptTypes m (a.toNat + i) o
      { fits := g, cat := { t with rows := rows.map (shiftRow (eff r.1) (effPsf psf)) }, info := info, metaData := md } i
      (shiftRow (eff r.1) (effPsf psf) o) := by
  obtain ⟨p1, p2, p3, p4⟩ := opened_parts ho
  have htc : t = m.cat := by have := h.objects; rw [p2] at this; simpa using this.symm
  subst htc
  have hrow : m.cat.rows[a.toNat + i]? = some o ∧ a.toNat + i < (b + 1).toNat := by
    rw [h.rows_eq, List.getElem?_drop, List.getElem?_take] at hi
    split at hi
    · exact ⟨hi, by assumption⟩
    · cases hi
  have hs : CutoutsInOrder rows := by rw [h.rows_eq]; exact CutoutsInOrder.slice hord _ _
  have hmem : o ∈ rows := List.mem_of_getElem? hi
  have hne : 0 < o.ncutout → withCutouts rows ≠ [] := fun hn hw => by
    have := withCutouts_nil.mp hw o hmem
    omega
  have hslot : ∀ (k : Nat) (s' : Slot), (shiftRow (eff r.1) (effPsf psf) o).slots[k]? = some s' → ∀ s, o.slots[k]? = some s →
      s' = { s with startRow := s.startRow - eff r.1, psfStartRow := s.psfStartRow - effPsf psf } := by
    intro k s' h' s hs
    simp only [shiftRow, List.getElem?_map, hs, Option.map_some, Option.some.injEq] at h'
    exact h'.symm
  -- the range when there are cutouts
  have key : 0 < o.ncutout → ∃ first last s0 s1, (withCutouts rows).head? = some first ∧ (withCutouts rows).getLast? = some last ∧
      first.slots[0]? = some s0 ∧ last.slots[(last.ncutout - 1).toNat]? = some s1 ∧
      r = (s0.startRow, s1.startRow + last.boxSize ^ 2) ∧ r.1 ≠ -1 ∧ eff r.1 = r.1 := by
    intro hn
    rcases rowRange_ok h.range with ⟨hw, _⟩ | ⟨first, last, s0, s1, h1, h2, h3, h4, h5⟩
    · exact absurd hw (hne hn)
    · obtain ⟨j, hj, hjn, _⟩ := head_withCutouts h1
      have := hs.pieces.start_nonneg j 0 first s0 ⟨hj, by push_cast; omega, h3⟩
      have hr1 : r.1 ≠ -1 := by rw [h5]; dsimp only at this ⊢; omega
      exact ⟨first, last, s0, s1, h1, h2, h3, h4, h5, hr1, by unfold eff; rw [if_pos hr1]⟩
  refine
    { row := hrow.1, row' := by simp [hi], same := shiftRow_same _ _ _, dtype := rfl,
      info := by have := h.info_eq; rw [p3] at this; simpa using this.symm,
      ext := ?_, psf := ?_, nonneg := (hs.fit o hmem).1 }
  · intro ty hty
    refine ⟨(kept_names hty).2.2.2.2.1, fun hn => ?_⟩
    obtain ⟨first, last, s0, s1, h1, h2, h3, h4, h5, hr1, heff⟩ := key hn
    obtain ⟨e1, e2⟩ := h.ext hr1 hty
    rw [p1]
    refine ⟨e1, ?_, ?_⟩
    · intro k s s' hk hks hks'
      rw [hslot k s' hks' s hks]
      obtain ⟨b1, b2⟩ := pieces_bounds hs.pieces h1 h2 h3 h4 ⟨hi, hk, hks⟩
      dsimp only at b1 b2 ⊢
      rw [heff, show s.startRow - r.1 + o.boxSize * o.boxSize = s.startRow + o.boxSize * o.boxSize - r.1 by ring]
      apply e2
      · rw [h5]; exact b1
      · rw [h5]; rw [← sq]; exact b2
    · intro s s' hks hks'
      rw [hslot 0 s' hks' s hks]
      have hlast : (o.ncutout - 1).toNat < o.slots.length := by have := hs.fit o hmem; omega
      have hsl := List.getElem?_eq_getElem hlast
      obtain ⟨b1, _⟩ := pieces_bounds hs.pieces h1 h2 h3 h4 (k := 0) ⟨hi, by push_cast; omega, hks⟩
      obtain ⟨_, b2⟩ := pieces_bounds hs.pieces h1 h2 h3 h4 (k := (o.ncutout - 1).toNat) ⟨hi, by omega, hsl⟩
      dsimp only at b1 b2 ⊢
      rw [heff, show s.startRow - r.1 + o.boxSize * o.boxSize * o.ncutout = s.startRow + o.boxSize * o.boxSize * o.ncutout - r.1 by ring]
      apply e2
      · rw [h5]; exact b1
      · rw [mosaic_end (hs.contig o hmem) hn hks hsl, h5]; exact b2
  · intro hn
    obtain ⟨first, last, s0, s1, h1, h2, h3, h4, h5, hr1, heff⟩ := key hn
    obtain ⟨e1, e2⟩ := h.psfExt hr1
    rw [p1]
    refine ⟨e1, ?_⟩
    intro hp k s s' hk hks hks'
    have hord' := hpsf hp
    have hps := PiecesInOrder.slice hord'.pieces a.toNat (b + 1).toNat
    rw [← h.rows_eq] at hps
    have hq := h.psf_eq
    unfold psfRange at hq
    rw [if_pos hp] at hq
    obtain ⟨q, hq, hqe⟩ := Res.bind_eq_ok.mp hq
    injection hqe with hqe
    rcases psfRowRange_ok hq hord'.oneWay with ⟨hw, _⟩ | ⟨first', last', s0', s1', i1, i2, i3, i4, i5⟩
    · exact absurd hw (hne hn)
    · obtain ⟨j, hj, hjn, _⟩ := head_withCutouts i1
      have hnn := hps.start_nonneg j 0 first' s0' ⟨hj, by push_cast; omega, i3⟩
      have hq1 : q.1 ≠ -1 := by rw [i5]; dsimp only at hnn ⊢; omega
      have hep : effPsf psf = q.1 := by rw [← hqe]; simp only [effPsf, eff]; rw [if_pos hq1]
      rw [hslot k s' hks' s hks, hep]
      obtain ⟨b1, b2⟩ := pieces_bounds hps i1 i2 i3 i4 ⟨hi, hk, hks⟩
      dsimp only at b1 b2 ⊢
      rw [show s.psfStartRow - q.1 + psfPixels m.cat.dtype o s = s.psfStartRow + psfPixels m.cat.dtype o s - q.1 by ring]
      apply e2 q hqe.symm
      · rw [i5]; exact b1
      · rw [i5]; exact b2

/-- **C18** Extracting the objects `a..b` of a file stored in catalogue order: the new file opens, has the same tables and columns, holds exactly
those objects (rows past the end of the catalogue are ignored), and each of them is the same object for every reader call, for the types
image, weight, seg, bmask and noise and for the PSF.  All other catalogue columns are unchanged. -/
theorem C18_range_preserves_objects {f g : Fits} {m : MEDS} {a b : Int} {copyAll : Bool} (ho : MEDS.openFile f = .ok m)
    (hord : CutoutsInOrder m.cat.rows) (hpsf : f.has "psf" = true → PsfInOrder m.cat)
    (hx : extractRange f a b copyAll = .ok g) :
    ∃ mg, MEDS.openFile g = .ok mg ∧ mg.cat.dtype = m.cat.dtype ∧ mg.info = m.info ∧ mg.metaData = m.metaData ∧
      (mg.size : Int) = min (b + 1) m.size - a ∧ 0 ≤ a ∧ a ≤ b ∧
      ∀ i : Nat, i < mg.size → SameView ["image", "weight", "seg", "bmask", "noise"] mg i m (a.toNat + i) ∧
        ∃ o o', m.cat.rows[a.toNat + i]? = some o ∧ mg.cat.rows[i]? = some o' ∧ SameButStarts o o' := by
  obtain ⟨t, rows, r, psf, info, md, cuts, h⟩ := ranged_iff.mp hx
  obtain ⟨p1, p2, p3, p4⟩ := opened_parts ho
  have htc : t = m.cat := by have := h.objects; rw [p2] at this; simpa using this.symm
  have hin := h.inside
  have hle := h.le
  refine ⟨_, h.opens, ?_, ?_, ?_, ?_, by omega, h.le, ?_⟩
  · simp [htc]
  · have := h.info_eq; rw [p3] at this; simpa using this.symm
  · have := h.md_eq; rw [p4] at this; simpa using this.symm
  · unfold MEDS.size
    simp only [List.length_map]
    rw [h.rows_eq, htc, List.length_drop, List.length_take]
    rw [htc] at hin
    omega
  · intro i hi
    unfold MEDS.size at hi
    simp only [List.length_map] at hi
    have hri : rows[i]? = some rows[i] := List.getElem?_eq_getElem hi
    have tw := twin_range h ho hord hpsf hri
    exact ⟨tw.sameView.symm, rows[i], _, tw.row, tw.row', tw.same⟩

end Extract
end Meds

/-! ### Files made by the maker are stored in catalogue order -/

namespace Meds
open Spec Extract Maker

section
variable {cfg : MakerCfg} {hn : Bool} {objs : List InputObj} {images : List SrcImage} {psf : Option (List PsfModel)}
  {psfInfo : Option String} {md : String} {mk mk' : Maker} {f : Fits} {m : MEDS}

/-- **C18 (hypotheses)** Every file written by the maker stores its cutouts in catalogue order. -/
theorem C18_written_in_order (hi : Maker.init cfg hn objs images psf psfInfo md = .ok mk) (hw : mk.write = .ok (mk', f))
    (ho : MEDS.openFile f = .ok m) : CutoutsInOrder m.cat.rows := by
  obtain ⟨w, _, hall, _, _⟩ := C09_slots hi hw ho
  obtain ⟨pix, _, h1, h2, _⟩ := C03_storage_tiles hi hw ho (t := "image") (.inl rfl)
  refine ⟨fun o hm => ⟨(hall o hm).2.1, by have := hall o hm; omega⟩, ⟨?_, ?_, ?_⟩, ?_⟩
  · exact fun i k o s he => (h1 i k o s he).1
  · exact fun i k o s he => sq_nonneg _
  · exact fun i k o s i' k' o' s' he he' hlt => h2 i k o s i' k' o' s' he he' hlt
  · intro o hm
    obtain ⟨i, hil, rfl⟩ := List.mem_iff_getElem.mp hm
    exact written_contig hi hw ho (List.getElem?_eq_getElem hil)

/-- **C18 (hypotheses)** ... and so are its PSFs. -/
theorem C18_written_psf_in_order (hi : Maker.init cfg hn objs images psf psfInfo md = .ok mk) (hw : mk.write = .ok (mk', f))
    (ho : MEDS.openFile f = .ok m) (hwf : ∀ ps, psf = some ps → ∀ p ∈ ps, ∀ sky r c, (p.getRec sky r c).WF) :
    f.has "psf" = true → PsfInOrder m.cat := by
  intro hp
  obtain ⟨p1, _⟩ := opened_parts ho
  obtain ⟨in0, w, W, _, hd, _⟩ := written hi hw
  have hdt : m.cat.dtype = mk.dtype := by
    have := W.open
    rw [ho] at this
    injection this with this
    subst this
    exact hd
  have hbox : m.cat.dtype.psfBox = .absent := by rw [hdt, (init_ok hi).2.2.2.2.2.2.1]
  obtain ⟨_, _, _, _, _, h6, _⟩ := writeData_ok W.ready W.write_eq
  cases hps : psf with
  | none =>
    have := h6 (by rw [W.psf_eq, hps])
    unfold Fits.has at hp
    rw [this] at hp
    cases hp
  | some ps =>
    obtain ⟨_, g2, g3, g4⟩ := written_psf hi hw ho hps (hwf ps hps)
    obtain ⟨pix, _, h1, h2, _⟩ := C11_psf_storage_tiles hi hw ho hps (hwf ps hps)
    have e : psfPixels m.cat.dtype = fun _ s => s.psfRowSize * s.psfColSize := by
      funext o s; unfold psfPixels; rw [g4]
    refine ⟨⟨fun i k o s he => (h1 i k o s he).1, ?_, ?_⟩, .inl hbox⟩
    · intro i k o s he
      rw [e]
      rw [psfRegions_eq_cells] at g3
      have hb := Consec.bounds g3 (List.mem_map_of_mem (f := fun c : ObjRow × Slot => (c.2.psfStartRow, c.2.psfRowSize * c.2.psfColSize)) (epoch_mem_cells he))
      exact hb.2.1
    · intro i k o s i' k' o' s' he he' hlt
      rw [e]
      exact h2 i k o s i' k' o' s' he he' hlt

end

namespace Extract

theorem psfPixels_shift (d : CatDtype) (o : ObjRow) (s : Slot) (c pc x y : Int) :
    psfPixels d (shiftRow c pc o) { s with startRow := x, psfStartRow := y } = psfPixels d o s := by
  unfold psfPixels shiftRow
  cases d.psfRowCol <;> cases d.psfBox <;> rfl

theorem epoch_shift {rows : List ObjRow} {c pc : Int} {i k : Nat} {o' : ObjRow} {s' : Slot}
    (h : Epoch (rows.map (shiftRow c pc)) i k o' s') :
    ∃ o s, Epoch rows i k o s ∧ o' = shiftRow c pc o ∧ s' = { s with startRow := s.startRow - c, psfStartRow := s.psfStartRow - pc } := by
  obtain ⟨h1, h2, h3⟩ := h
  rw [List.getElem?_map] at h1
  cases hr : rows[i]? with
  | none => rw [hr] at h1; cases h1
  | some o =>
    rw [hr] at h1
    simp only [Option.map_some, Option.some.injEq] at h1
    subst h1
    simp only [shiftRow, List.getElem?_map] at h3
    cases hs : o.slots[k]? with
    | none => rw [hs] at h3; cases h3
    | some s =>
      rw [hs] at h3
      simp only [Option.map_some, Option.some.injEq] at h3
      exact ⟨o, s, ⟨hr, h2, hs⟩, rfl, h3.symm⟩

/-- The shift of a range that has epochs is the start of its first piece. -/
theorem eff_le {rows : List ObjRow} {r : Int × Int} (hs : PiecesInOrder (fun _ s => s.startRow) (fun o _ => o.boxSize ^ 2) rows)
    (hr : rowRange rows = .ok r) (hne : withCutouts rows ≠ []) :
    r.1 ≠ -1 ∧ eff r.1 = r.1 ∧ 0 ≤ r.1 ∧ ∀ i k o s, Epoch rows i k o s → r.1 ≤ s.startRow ∧ s.startRow + o.boxSize ^ 2 ≤ r.2 := by
  rcases rowRange_ok hr with ⟨hw, _⟩ | ⟨first, last, s0, s1, h1, h2, h3, h4, h5⟩
  · exact absurd hw hne
  · obtain ⟨j, hj, hjn, _⟩ := head_withCutouts h1
    have := hs.start_nonneg j 0 first s0 ⟨hj, by push_cast; omega, h3⟩
    have hr1 : r.1 ≠ -1 := by rw [h5]; dsimp only at this ⊢; omega
    refine ⟨hr1, by unfold eff; rw [if_pos hr1], by rw [h5]; exact this, ?_⟩
    intro i k o s he
    rw [h5]
    exact pieces_bounds hs h1 h2 h3 h4 he

theorem effPsf_le {d : CatDtype} {rows : List ObjRow} {q : Int × Int} (hs : PiecesInOrder (fun _ s => s.psfStartRow) (psfPixels d) rows)
    (hd : d.psfBox = .absent ∨ d.psfRowCol = .absent)
    (hr : psfRowRange d rows = .ok q) (hne : withCutouts rows ≠ []) :
    q.1 ≠ -1 ∧ eff q.1 = q.1 ∧ 0 ≤ q.1 ∧ ∀ i k o s, Epoch rows i k o s → q.1 ≤ s.psfStartRow ∧ s.psfStartRow + psfPixels d o s ≤ q.2 := by
  rcases psfRowRange_ok hr hd with ⟨hw, _⟩ | ⟨first, last, s0, s1, h1, h2, h3, h4, h5⟩
  · exact absurd hw hne
  · obtain ⟨j, hj, hjn, _⟩ := head_withCutouts h1
    have := hs.start_nonneg j 0 first s0 ⟨hj, by push_cast; omega, h3⟩
    have hr1 : q.1 ≠ -1 := by rw [h5]; dsimp only at this ⊢; omega
    refine ⟨hr1, by unfold eff; rw [if_pos hr1], by rw [h5]; exact this, ?_⟩
    intro i k o s he
    rw [h5]
    exact pieces_bounds hs h1 h2 h3 h4 he

theorem epoch_withCutouts {rows : List ObjRow} {i k : Nat} {o : ObjRow} {s : Slot} (h : Epoch rows i k o s) : withCutouts rows ≠ [] := by
  intro hw
  have := withCutouts_nil.mp hw o (List.mem_of_getElem? h.1)
  have := Epoch.ncut h
  omega

theorem shiftRow_contig {o : ObjRow} (h : ObjContig o) (c pc : Int) : ObjContig (shiftRow c pc o) := by
  intro k s s0 hk hs hs0
  simp only [shiftRow, List.getElem?_map, Option.map_eq_some_iff] at hs hs0 hk
  obtain ⟨s', hs', rfl⟩ := hs
  obtain ⟨s0', hs0', rfl⟩ := hs0
  have := h k s' s0' hk hs' hs0'
  simp only [shiftRow]
  rw [this]; ring

theorem dummy_no_psf (copyAll : Bool) {f g : Fits} {a b : Int} {t : ObjTable} {rows : List ObjRow} {r : Int × Int}
    {psf : Option (Int × Int)} {info : List InfoRow} {md : String} {cuts : List (String × Hdu)}
    (h : Ranged f a b copyAll t rows r psf info md cuts g) (hr : r.1 = -1) : g.has "psf" = false := by
  unfold Fits.has
  rw [h.find_ext (by decide) (by decide) (by decide) (.inl (by decide))]
  have := h.cuts_eq
  unfold rangeCutouts at this
  rw [if_pos hr] at this
  injection this with this
  rw [← this]
  rfl

/-- **C19 (layout preserved)** The extracted file is again stored in catalogue order. -/
theorem C19_extracted_in_order {f g : Fits} {m mg : MEDS} {a b : Int} {copyAll : Bool} (ho : MEDS.openFile f = .ok m)
    (hord : CutoutsInOrder m.cat.rows) (hpsf : f.has "psf" = true → PsfInOrder m.cat)
    (hx : extractRange f a b copyAll = .ok g) (hg : MEDS.openFile g = .ok mg) :
    CutoutsInOrder mg.cat.rows ∧ (g.has "psf" = true → PsfInOrder mg.cat) := by
  obtain ⟨t, rows, r, psf, info, md, cuts, h⟩ := ranged_iff.mp hx
  obtain ⟨p1, p2, p3, p4⟩ := opened_parts ho
  have htc : t = m.cat := by have := h.objects; rw [p2] at this; simpa using this.symm
  subst htc
  have := h.opens
  rw [hg] at this
  injection this with this
  subst this
  have hs : CutoutsInOrder rows := by rw [h.rows_eq]; exact CutoutsInOrder.slice hord _ _
  constructor
  · refine ⟨?_, ⟨?_, ?_, ?_⟩, ?_⟩
    · intro o hm
      obtain ⟨o', ho', rfl⟩ := List.mem_map.mp hm
      have := hs.fit o' ho'
      simpa [shiftRow] using this
    · intro i k o' s' he
      obtain ⟨o, s, he1, rfl, rfl⟩ := epoch_shift he
      obtain ⟨_, e2, _, e3⟩ := eff_le hs.pieces h.range (epoch_withCutouts he1)
      have := (e3 i k o s he1).1
      dsimp only
      omega
    · intro i k o' s' he
      exact sq_nonneg _
    · intro i k o1 s1 i' k' o2 s2 he1 he2 hlt
      obtain ⟨o, s, he, rfl, rfl⟩ := epoch_shift he1
      obtain ⟨o', s', he', rfl, rfl⟩ := epoch_shift he2
      have := hs.pieces.order _ _ _ _ _ _ _ _ he he' hlt
      simp only [shiftRow] at this ⊢
      omega
    · intro o hm
      obtain ⟨o', ho', rfl⟩ := List.mem_map.mp hm
      exact shiftRow_contig (hs.contig o' ho') _ _
  · intro hgp
    by_cases hr : r.1 = -1
    · rw [dummy_no_psf copyAll h hr] at hgp; cases hgp
    have hfp : f.has "psf" = true := by rw [← (h.psfExt hr).1]; exact hgp
    have hP := hpsf hfp
    have hps := PiecesInOrder.slice hP.pieces a.toNat (b + 1).toNat
    rw [← h.rows_eq] at hps
    have hq := h.psf_eq
    unfold psfRange at hq
    rw [if_pos hfp] at hq
    obtain ⟨q, hq1, hqe⟩ := Res.bind_eq_ok.mp hq
    injection hqe with hqe
    subst hqe
    refine ⟨⟨?_, ?_, ?_⟩, hP.oneWay⟩
    · intro i k o' s' he
      obtain ⟨o, s, he1, rfl, rfl⟩ := epoch_shift he
      obtain ⟨_, e2, _, e3⟩ := effPsf_le hps hP.oneWay hq1 (epoch_withCutouts he1)
      have := (e3 i k o s he1).1
      simp only [effPsf]
      omega
    · intro i k o' s' he
      obtain ⟨o, s, he1, rfl, rfl⟩ := epoch_shift he
      rw [psfPixels_shift]
      exact hps.npix_nonneg _ _ _ _ he1
    · intro i k o1 s1 i' k' o2 s2 he1 he2 hlt
      obtain ⟨o, s, he, rfl, rfl⟩ := epoch_shift he1
      obtain ⟨o', s', he', rfl, rfl⟩ := epoch_shift he2
      rw [psfPixels_shift]
      have := hps.order _ _ _ _ _ _ _ _ he he' hlt
      dsimp only at this ⊢
      omega

/-- **C19** Extracting `[c, d]` from the extraction of `[a, b]` gives the same objects as extracting `[a+c, a+d]` directly. -/
theorem C19_extraction_composes {f g g' g'' : Fits} {m : MEDS} {a b c d : Int} {ca ca' ca'' : Bool} (ho : MEDS.openFile f = .ok m)
    (hord : CutoutsInOrder m.cat.rows) (hpsf : f.has "psf" = true → PsfInOrder m.cat)
    (hx : extractRange f a b ca = .ok g) (hx' : extractRange g c d ca' = .ok g') (hd : a + d ≤ b)
    (hx'' : extractRange f (a + c) (a + d) ca'' = .ok g'') :
    ∃ m' m'', MEDS.openFile g' = .ok m' ∧ MEDS.openFile g'' = .ok m'' ∧ m'.size = m''.size ∧
      ∀ i : Nat, i < m'.size → SameView ["image", "weight", "seg", "bmask", "noise"] m' i m'' i := by
  obtain ⟨mg, o1, _, _, _, s1, a0, ab, v1⟩ := C18_range_preserves_objects ho hord hpsf hx
  obtain ⟨q1, q2⟩ := C19_extracted_in_order ho hord hpsf hx o1
  obtain ⟨m', o2, _, _, _, s2, c0, cd, v2⟩ := C18_range_preserves_objects o1 q1 q2 hx'
  obtain ⟨m'', o3, _, _, _, s3, _, _, v3⟩ := C18_range_preserves_objects ho hord hpsf hx''
  have hsz : m'.size = m''.size := by
    obtain ⟨t, rows, r, psf, info, md, cuts, h⟩ := ranged_iff.mp hx'
    have := h.inside
    omega
  refine ⟨m', m'', o2, o3, hsz, ?_⟩
  intro i hi
  have h1 := (v2 i hi).1
  have hj : c.toNat + i < mg.size := by omega
  have h2 := (v1 _ hj).1
  have h3 := (v3 i (by omega)).1
  rw [show (a + c).toNat + i = a.toNat + (c.toNat + i) by omega] at h3
  exact (h1.trans h2).trans h3.symm

end Extract
end Meds
