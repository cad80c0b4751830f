import Verif.Lemmas.Relay
import Verif.Lemmas.SameView

/-! Lemmas on the number extractor: which rows it takes, and that each of them reads as before. -/

namespace Meds
namespace Extract
open Spec

theorem whereNumber_mem {rows : List ObjRow} {n : Int} {i : Nat} : i ∈ whereNumber rows n ↔ ∃ o, rows[i]? = some o ∧ o.number = n := by
  unfold whereNumber
  rw [List.mem_filter, List.mem_range]
  constructor
  · rintro ⟨h1, h2⟩
    rw [List.getElem?_eq_getElem h1] at h2
    exact ⟨rows[i], List.getElem?_eq_getElem h1, by simpa using h2⟩
  · rintro ⟨o, h1, h2⟩
    refine ⟨(List.getElem?_eq_some_iff.mp h1).1, ?_⟩
    rw [h1]
    simpa using h2

theorem guess_iff {rows : List ObjRow} {n : Int} : guess rows n = true ↔ 1 ≤ n ∧ ∃ o, rows[(n - 1).toNat]? = some o ∧ o.number = n := by
  unfold guess
  simp only [Bool.and_eq_true, decide_eq_true_eq]
  constructor
  · rintro ⟨⟨h1, h2⟩, h3⟩
    refine ⟨h2, ?_⟩
    cases hr : rows[(n - 1).toNat]? with
    | none => rw [hr] at h3; cases h3
    | some o => rw [hr] at h3; exact ⟨o, rfl, (of_decide_eq_true h3).symm⟩
  · rintro ⟨h1, o, h2, h3⟩
    have := (List.getElem?_eq_some_iff.mp h2).1
    rw [h2]
    exact ⟨⟨by omega, h1⟩, by simpa using h3.symm⟩

theorem numberInd_ok {rows : List ObjRow} {n : Int} {i : Nat} (h : numberInd rows n = .ok i) : ∃ o, rows[i]? = some o ∧ o.number = n := by
  unfold numberInd at h
  split at h
  · rename_i hg
    injection h with h
    subst h
    exact (guess_iff.mp hg).2
  · split at h
    · rename_i j hw
      injection h with h
      subst h
      exact whereNumber_mem.mp (by rw [hw]; exact List.mem_cons_self)
    · cases h

theorem numberInd_error {rows : List ObjRow} {n : Int} {e : Err} (h : numberInd rows n = .error e) : e = .assertionError := by
  unfold numberInd at h
  split at h
  · cases h
  · split at h
    · cases h
    · injection h with h; exact h.symm

/-- Number of row `i`. -/
def numAt (rows : List ObjRow) (i : Nat) : Int := match rows[i]? with | some o => o.number | none => 0

theorem numberInds_ok {t : ObjTable} {ns : List Int} {inds : List Nat} (h : numberInds t ns = .ok inds) :
    t.dtype.hasNumber = true ∧ inds.map (numAt t.rows) = ns ∧ ∀ i ∈ inds, i < t.rows.length := by
  unfold numberInds at h
  split at h
  · rename_i hn
    refine ⟨hn, ?_⟩
    have h2 := mapRes_ok_iff.mp h
    clear h
    induction h2 with
    | nil => exact ⟨rfl, fun i hi => by cases hi⟩
    | cons h1 _ ih =>
      obtain ⟨o, e1, e2⟩ := numberInd_ok h1
      refine ⟨?_, ?_⟩
      · rw [List.map_cons, ih.1]
        congr 1
        unfold numAt
        rw [e1]
        exact e2
      · intro i hi
        rcases List.mem_cons.mp hi with rfl | hi
        · exact (List.getElem?_eq_some_iff.mp e1).1
        · exact ih.2 i hi
  · cases h

theorem takeRows_ok {sorts : Bool} {rows out : List ObjRow} {inds : List Nat} (h : takeRows sorts rows inds = .ok out) :
    ∃ inds', inds'.Perm inds ∧ (sorts = false → inds' = inds) ∧ (sorts = true → inds'.Pairwise (· ≤ ·)) ∧
      out.length = inds'.length ∧ (∀ (i j : Nat), inds'[i]? = some j → ∃ o : ObjRow, out[i]? = some o ∧ rows[j]? = some o) ∧
      out.map (·.number) = inds'.map (numAt rows) := by
  unfold takeRows at h
  refine ⟨if sorts then inds.insertionSort (· ≤ ·) else inds, ?_, ?_, ?_, mapRes_length h, ?_, ?_⟩
  · split
    · exact List.perm_insertionSort _ _
    · exact List.Perm.refl _
  · intro hs; rw [hs]; rfl
  · intro hs
    rw [hs, if_pos rfl]
    exact List.pairwise_insertionSort _ _
  · intro i j hj
    have hf := mapRes_ok_iff.mp h
    have hl := hf.length_eq
    obtain ⟨h1, h2⟩ := List.getElem?_eq_some_iff.mp hj
    have := (List.forall₂_iff_get.mp hf).2 i h1 (by omega)
    simp only [List.get_eq_getElem] at this
    rw [h2] at this
    have := pyGet_ok_nonneg this (by omega)
    exact ⟨out[i]'(by omega), List.getElem?_eq_getElem _, by simpa using this⟩
  · have hf := mapRes_ok_iff.mp h
    generalize (if sorts then inds.insertionSort (· ≤ ·) else inds) = l at hf
    clear h
    induction hf with
    | nil => rfl
    | cons h1 _ ih =>
      rw [List.map_cons, List.map_cons, ih]
      congr 1
      have := pyGet_ok_nonneg h1 (by omega)
      unfold numAt
      simp only [Int.toNat_natCast] at this
      rw [this]

/-! ### Pieces -/

/-- Start of an object's pixels. -/
def st (o : ObjRow) : Int := match o.slots[0]? with | some s => s.startRow | none => 0
/-- Start of an object's PSFs. -/
def stPsf (o : ObjRow) : Int := match o.slots[0]? with | some s => s.psfStartRow | none => 0
/-- Number of pixels of an object's cutouts. -/
def len (o : ObjRow) : Int := o.ncutout.toNat * o.boxSize ^ 2
/-- Number of PSF pixels of an object. -/
def lenPsf (o : ObjRow) : Int := psfSum o.slots o.ncutout.toNat

/-- Pixels of an object. -/
def piece (s n : ObjRow → Int) (pix : List ℚ) (o : ObjRow) : List ℚ := if 0 < o.ncutout then cut pix (s o) (s o + n o) else []

theorem cutAll_pieces (s n : ObjRow → Int) (pix : List ℚ) (rows : List ObjRow) :
    cutAll pix ((withCutouts rows).map (fun o => (s o, s o + n o))) = (rows.map (piece s n pix)).flatten := by
  induction rows with
  | nil => rfl
  | cons o t ih =>
    unfold withCutouts at *
    by_cases h : 0 < o.ncutout
    · rw [List.filter_cons_of_pos (by simpa using h), List.map_cons, List.map_cons, List.flatten_cons, ← ih]
      simp [cutAll, piece, h]
    · rw [List.filter_cons_of_neg (by simpa using h), List.map_cons, List.flatten_cons, ← ih]
      simp [piece, h]

theorem together_obj {f : Fits} {rows : List ObjRow} (h : CutoutsTogether f rows) {o : ObjRow} (ho : o ∈ rows) (hn : 0 < o.ncutout) :
    ∃ s0, o.slots[0]? = some s0 ∧ st o = s0.startRow ∧ 0 ≤ st o ∧
      (∀ n ∈ ["image_cutouts", "weight_cutouts", "seg_cutouts", "bmask_cutouts"], ∀ pix, f.find n = some (.image pix) → st o + len o ≤ pix.length) ∧
      ∀ (k : Nat) (s : Slot), (k : Int) < o.ncutout → o.slots[k]? = some s → s.startRow = st o + k * o.boxSize ^ 2 := by
  obtain ⟨i, hil, rfl⟩ := List.mem_iff_getElem.mp ho
  have hi : rows[i]? = some rows[i] := List.getElem?_eq_getElem hil
  have hf := h.fit _ ho
  have h0 : rows[i].slots[0]? = some (rows[i].slots[0]'(by omega)) := List.getElem?_eq_getElem _
  have hst : st rows[i] = (rows[i].slots[0]'(by omega)).startRow := by unfold st; rw [h0]
  have hc : ∀ (k : Nat) (s : Slot), (k : Int) < rows[i].ncutout → rows[i].slots[k]? = some s → s.startRow = st rows[i] + k * rows[i].boxSize ^ 2 := by
    intro k s hk hs
    rw [hst]
    exact h.contig _ ho k s _ hk hs h0
  refine ⟨_, h0, hst, by rw [hst]; exact h.start_nonneg i 0 _ _ ⟨hi, by push_cast; omega, h0⟩, ?_, hc⟩
  intro n hnn pix hp
  have hl : (rows[i].ncutout - 1).toNat < rows[i].slots.length := by omega
  have h1 := List.getElem?_eq_getElem hl
  have := h.inside n hnn pix hp i _ _ _ ⟨hi, by omega, h1⟩
  rw [hc _ _ (by omega) h1] at this
  unfold len
  have e : ((rows[i].ncutout - 1).toNat : Int) = rows[i].ncutout.toNat - 1 := by omega
  rw [e] at this
  linarith

theorem psfSum_nonneg {ss : List Slot} {k : Nat} (h : ∀ (j : Nat) (s : Slot), j < k → ss[j]? = some s → 0 ≤ s.psfRowSize * s.psfColSize) : 0 ≤ psfSum ss k := by
  apply List.sum_nonneg
  intro x hx
  obtain ⟨s, hs, rfl⟩ := List.mem_map.mp hx
  obtain ⟨j, hj, rfl⟩ := List.mem_iff_getElem.mp hs
  simp only [List.length_take] at hj
  apply h j _ (by omega)
  rw [List.getElem_take]
  exact List.getElem?_eq_getElem (by omega)

theorem together_psf {f : Fits} {t : ObjTable} (h : PsfTogether f t) (hfit : EpochsFit t.rows) {o : ObjRow} (ho : o ∈ t.rows) (hn : 0 < o.ncutout) :
    ∃ s0 s1, o.slots[0]? = some s0 ∧ o.slots[(o.ncutout - 1).toNat]? = some s1 ∧ stPsf o = s0.psfStartRow ∧ 0 ≤ stPsf o ∧
      s1.psfStartRow + s1.psfRowSize * s1.psfColSize = stPsf o + lenPsf o ∧
      (∀ pix, f.find "psf" = some (.image pix) → stPsf o + lenPsf o ≤ pix.length) ∧
      (∀ (k : Nat) (s : Slot), (k : Int) < o.ncutout → o.slots[k]? = some s → s.psfStartRow = stPsf o + psfSum o.slots k) ∧
      ∀ (k : Nat) (s : Slot), (k : Int) < o.ncutout → o.slots[k]? = some s → 0 ≤ psfSum o.slots k ∧ psfSum o.slots k + s.psfRowSize * s.psfColSize ≤ lenPsf o := by
  obtain ⟨i, hil, rfl⟩ := List.mem_iff_getElem.mp ho
  have hi : t.rows[i]? = some t.rows[i] := List.getElem?_eq_getElem hil
  have hf := hfit _ ho
  generalize t.rows[i] = o at *
  have h0 : o.slots[0]? = some (o.slots[0]'(by omega)) := List.getElem?_eq_getElem _
  have hst : stPsf o = (o.slots[0]'(by omega)).psfStartRow := by unfold stPsf; rw [h0]
  have hc : ∀ (k : Nat) (s : Slot), (k : Int) < o.ncutout → o.slots[k]? = some s → s.psfStartRow = stPsf o + psfSum o.slots k := by
    intro k s hk hs
    rw [hst]
    exact h.contig _ ho k s _ hk hs h0
  have hl : (o.ncutout - 1).toNat < o.slots.length := by omega
  have h1 := List.getElem?_eq_getElem hl
  have hend : (o.slots[(o.ncutout - 1).toNat]).psfStartRow + (o.slots[(o.ncutout - 1).toNat]).psfRowSize * (o.slots[(o.ncutout - 1).toNat]).psfColSize = stPsf o + lenPsf o := by
    have e := psfSum_succ h1
    rw [show (o.ncutout - 1).toNat + 1 = o.ncutout.toNat by omega] at e
    rw [hc _ _ (by omega) h1]
    unfold lenPsf
    rw [e]; ring
  refine ⟨_, _, h0, h1, hst, by rw [hst]; exact h.start_nonneg i 0 _ _ ⟨hi, by push_cast; omega, h0⟩, hend, ?_, hc, ?_⟩
  · intro pix hp
    rw [← hend]
    exact h.inside pix hp i _ _ _ ⟨hi, by omega, h1⟩
  · intro k s hk hs
    have hpos : ∀ (j : Nat) (s : Slot), (j : Int) < o.ncutout → o.slots[j]? = some s → 0 ≤ s.psfRowSize * s.psfColSize :=
      fun j s hj hs => h.size_nonneg i j _ s ⟨hi, hj, hs⟩
    refine ⟨psfSum_nonneg (fun j s hj hs => hpos j s (by omega) hs), ?_⟩
    rw [← psfSum_succ hs]
    unfold lenPsf psfSum
    have : o.slots.take o.ncutout.toNat = o.slots.take (k + 1) ++ (o.slots.drop (k + 1)).take (o.ncutout.toNat - (k + 1)) := by
      rw [← List.take_add]; congr 1; omega
    rw [this, List.map_append, List.sum_append]
    have : 0 ≤ (((o.slots.drop (k + 1)).take (o.ncutout.toNat - (k + 1))).map (fun s => s.psfRowSize * s.psfColSize)).sum := by
      apply List.sum_nonneg
      intro x hx
      obtain ⟨s, hs, rfl⟩ := List.mem_map.mp hx
      obtain ⟨j, hj, rfl⟩ := List.mem_iff_getElem.mp hs
      simp only [List.length_take, List.length_drop] at hj
      apply hpos (k + 1 + j) _ (by omega)
      rw [List.getElem_take, List.getElem_drop]
      exact List.getElem?_eq_getElem (by omega)
    linarith

/-- Everything a successful extraction by number computed. -/
structure Numbered (sorts : Bool) (f : Fits) (ns : List Int) (t : ObjTable) (inds : List Nat) (rows : List ObjRow) (rs : List (Int × Int))
    (rows1 : List ObjRow) (p : List ObjRow × Option (List (Int × Int))) (info : List InfoRow) (md : String) (cuts : List (String × Hdu)) (g : Fits) : Prop where
  objects : f.find "object_data" = some (.objects t)
  inds_eq : numberInds t ns = .ok inds
  rows_eq : takeRows sorts t.rows inds = .ok rows
  ranges : rowRanges rows = .ok rs
  starts : newStarts rs rows = .ok rows1
  psf_eq : numberPsf f t.dtype rows1 = .ok p
  info_eq : f.find "image_info" = some (.info info)
  md_eq : f.find "metadata" = some (.metadata md)
  cuts_eq : numberCutouts f rs p.2 = .ok cuts
  out : g = ⟨[("object_data", .objects { t with rows := p.1 }), ("image_info", .info info), ("metadata", .metadata md)] ++ cuts⟩

theorem numbered_iff {sorts : Bool} {f : Fits} {ns : List Int} {g : Fits} :
    byNumber sorts f ns = .ok g ↔ ∃ t inds rows rs rows1 p info md cuts, Numbered sorts f ns t inds rows rs rows1 p info md cuts g := by
  constructor
  · intro h
    unfold byNumber at h
    obtain ⟨t, h1, h⟩ := Res.bind_eq_ok.mp h
    obtain ⟨inds, h2, h⟩ := Res.bind_eq_ok.mp h
    obtain ⟨rows, h3, h⟩ := Res.bind_eq_ok.mp h
    obtain ⟨rs, h4, h⟩ := Res.bind_eq_ok.mp h
    obtain ⟨rows1, h5, h⟩ := Res.bind_eq_ok.mp h
    obtain ⟨p, h6, h⟩ := Res.bind_eq_ok.mp h
    obtain ⟨info, h7, h⟩ := Res.bind_eq_ok.mp h
    obtain ⟨md, h8, h⟩ := Res.bind_eq_ok.mp h
    obtain ⟨cuts, h9, h⟩ := Res.bind_eq_ok.mp h
    injection h with h
    exact ⟨t, inds, rows, rs, rows1, p, info, md, cuts, objects_ok.mp h1, h2, h3, h4, h5, h6, imageInfo_ok.mp h7, metaTable_ok.mp h8, h9, h.symm⟩
  · rintro ⟨t, inds, rows, rs, rows1, p, info, md, cuts, h⟩
    unfold byNumber
    rw [objects_ok.mpr h.objects]
    simp only [Res.ok_bind]
    rw [h.inds_eq]
    simp only [Res.ok_bind]
    rw [h.rows_eq]
    simp only [Res.ok_bind]
    rw [h.ranges]
    simp only [Res.ok_bind]
    rw [h.starts]
    simp only [Res.ok_bind]
    rw [h.psf_eq]
    simp only [Res.ok_bind]
    rw [imageInfo_ok.mpr h.info_eq, metaTable_ok.mpr h.md_eq]
    simp only [Res.ok_bind]
    rw [h.cuts_eq, h.out]
    rfl

theorem rowRanges_none {rows : List ObjRow} (h : withCutouts rows = []) : rowRanges rows = .ok [(-1, -1)] := by
  unfold rowRanges; rw [h]

theorem psfRowRanges_none {d : CatDtype} {rows : List ObjRow} (h : withCutouts rows = []) : psfRowRanges d rows = .ok [(-1, -1)] := by
  unfold psfRowRanges; rw [h]

theorem objRange_ok {o : ObjRow} {s0 : Slot} (hn : 0 < o.ncutout) (h : o.slots[0]? = some s0) (hs : st o = s0.startRow) : objRange o = .ok (st o, st o + len o) := by
  unfold objRange
  have : pyGet o.slots 0 = .ok s0 := pyGet_nat_some h
  rw [this, hs]
  simp only [Res.ok_bind]
  unfold len
  rw [Int.toNat_of_nonneg (by omega), mul_comm]

/-- The merged ranges hold exactly the objects' pixels, in order. -/
theorem rowRanges_some {f : Fits} {all rows : List ObjRow} {rs : List (Int × Int)} (h : CutoutsTogether f all) (hsub : ∀ o ∈ rows, o ∈ all)
    (hne : withCutouts rows ≠ []) (hr : rowRanges rows = .ok rs) :
    rs ≠ [] ∧ firstStart rs ≠ -1 ∧ ∀ pix, cutAll pix rs = (rows.map (piece st len pix)).flatten := by
  have hm : mapRes objRange (withCutouts rows) = .ok ((withCutouts rows).map (fun o => (st o, st o + len o))) := by
    rw [← mapRes_ok_map]
    apply mapRes_congr
    intro o ho
    obtain ⟨h1, h2⟩ := mem_withCutouts.mp ho
    obtain ⟨s0, e1, e2, _⟩ := together_obj h (hsub o h1) h2
    exact objRange_ok h2 e1 e2
  have hpos : ∀ o ∈ withCutouts rows, 0 ≤ st o ∧ 0 ≤ len o := by
    intro o ho
    obtain ⟨h1, h2⟩ := mem_withCutouts.mp ho
    obtain ⟨s0, e1, e2, e3, _⟩ := together_obj h (hsub o h1) h2
    exact ⟨e3, by unfold len; positivity⟩
  unfold rowRanges at hr
  cases hw : withCutouts rows with
  | nil => exact absurd hw hne
  | cons x l =>
    rw [hw] at hr
    dsimp only at hr
    rw [← hw, hm] at hr
    simp only [Res.ok_bind] at hr
    injection hr with hr
    subst hr
    rw [hw, List.map_cons]
    obtain ⟨e1, e2⟩ := merged_firstStart (st x, st x + len x) (l.map (fun o => (st o, st o + len o)))
    have hx := hpos x (by rw [hw]; exact List.mem_cons_self)
    refine ⟨e2, by rw [e1]; dsimp only; omega, ?_⟩
    intro pix
    rw [← cutAll_pieces, hw, List.map_cons]
    rw [foldl_pushRange_cut pix ?_ [] (by simp)]
    · simp [cutAll]
    · intro r hr
      rw [← List.map_cons (f := fun o : ObjRow => (st o, st o + len o)), ← hw] at hr
      obtain ⟨o, ho, rfl⟩ := List.mem_map.mp hr
      have := hpos o ho
      dsimp only; omega

theorem pyGet_epoch {o : ObjRow} {s : Slot} (hn : 0 < o.ncutout) (h : o.slots[(o.ncutout - 1).toNat]? = some s) : pyGet o.slots (o.ncutout - 1) = .ok s := by
  have := pyGet_nat_some h
  rwa [Int.toNat_of_nonneg (by omega)] at this

theorem psfRowRange_one {d : CatDtype} {o : ObjRow} {s0 s1 : Slot} {r : Int × Int} (hd : d.psfBox = .absent) (hn : 0 < o.ncutout)
    (h0 : o.slots[0]? = some s0) (h1 : o.slots[(o.ncutout - 1).toNat]? = some s1) (h : psfRowRange d [o] = .ok r) :
    d.psfRowCol = .perEpoch ∧ r = (s0.psfStartRow, s1.psfStartRow + s1.psfRowSize * s1.psfColSize) := by
  have hw : withCutouts [o] = [o] := by unfold withCutouts; rw [List.filter_cons_of_pos (by simpa using hn)]; rfl
  unfold psfRowRange at h
  rw [hw] at h
  simp only [List.head?_cons, List.getLast?_singleton] at h
  rw [show pyGet o.slots 0 = .ok s0 from pyGet_nat_some h0] at h
  simp only [Res.ok_bind] at h
  unfold psfNpix at h
  rw [hd, pyGet_epoch hn h1] at h
  cases hrc : d.psfRowCol <;> rw [hrc] at h
  · cases h
  · cases h
  · simp only [Res.ok_bind] at h
    injection h with h
    exact ⟨rfl, h.symm⟩

/-- `o1` has the same PSFs as `o`. -/
structure SamePsf (o o1 : ObjRow) : Prop where
  ncut : o1.ncutout = o.ncutout
  slots : List.Forall₂ (fun s s' : Slot => s' = { s with startRow := s'.startRow }) o.slots o1.slots

theorem SamePsf.slot {o o1 : ObjRow} (h : SamePsf o o1) {k : Nat} {s : Slot} (hs : o.slots[k]? = some s) :
    ∃ s', o1.slots[k]? = some s' ∧ s' = { s with startRow := s'.startRow } := by
  have hl := h.slots.length_eq
  obtain ⟨h1, h2⟩ := List.getElem?_eq_some_iff.mp hs
  refine ⟨o1.slots[k]'(by omega), List.getElem?_eq_getElem _, ?_⟩
  have := (List.forall₂_iff_get.mp h.slots).2 k h1 (by omega)
  simp only [List.get_eq_getElem, h2] at this
  exact this

theorem SamePsf.sum {o o1 : ObjRow} (h : SamePsf o o1) (k : Nat) : psfSum o1.slots k = psfSum o.slots k := by
  have hs := h.slots
  unfold psfSum
  generalize o.slots = a at hs
  generalize o1.slots = b at hs
  clear h
  induction hs generalizing k with
  | nil => rfl
  | cons h1 _ ih =>
    cases k with
    | zero => rfl
    | succ k =>
      simp only [List.take_succ_cons, List.map_cons, List.sum_cons]
      rw [ih k, h1]

/-- The PSF ranges hold exactly the objects' PSFs, in order. -/
theorem psfRowRanges_some {f : Fits} {t : ObjTable} {rows rows1 : List ObjRow} {rs : List (Int × Int)} (h : PsfTogether f t)
    (hfit : EpochsFit t.rows) (hsub : ∀ o ∈ rows, o ∈ t.rows) (hsame : List.Forall₂ SamePsf rows rows1)
    (hne : withCutouts rows ≠ []) (hr : psfRowRanges t.dtype rows1 = .ok rs) :
    t.dtype.psfRowCol = .perEpoch ∧ rs ≠ [] ∧ firstStart rs ≠ -1 ∧ ∀ pix, cutAll pix rs = (rows.map (piece stPsf lenPsf pix)).flatten := by
  have hw : List.Forall₂ SamePsf (withCutouts rows) (withCutouts rows1) := by
    clear hr hne hsub
    unfold withCutouts
    induction hsame with
    | nil => exact List.Forall₂.nil
    | cons h1 _ ih =>
      rename_i a b _ _ _
      by_cases hp : 0 < a.ncutout
      · rw [List.filter_cons_of_pos (by simpa using hp), List.filter_cons_of_pos (by simpa [h1.ncut] using hp)]
        exact List.Forall₂.cons h1 ih
      · rw [List.filter_cons_of_neg (by simpa using hp), List.filter_cons_of_neg (by simpa [h1.ncut] using hp)]
        exact ih
  have hmap : mapRes (fun o => psfRowRange t.dtype [o]) (withCutouts rows1) = .ok rs := by
    unfold psfRowRanges at hr
    cases hc : withCutouts rows1 with
    | nil =>
      rw [hc] at hw
      cases hx : withCutouts rows with
      | nil => exact absurd hx hne
      | cons a l => rw [hx] at hw; cases hw
    | cons a l => rw [hc] at hr; exact hr
  have key : ∀ o o1, SamePsf o o1 → o ∈ withCutouts rows → ∀ r, psfRowRange t.dtype [o1] = .ok r →
      t.dtype.psfRowCol = .perEpoch ∧ r = (stPsf o, stPsf o + lenPsf o) ∧ 0 ≤ stPsf o := by
    intro o o1 hs ho r hr
    obtain ⟨h1, h2⟩ := mem_withCutouts.mp ho
    obtain ⟨s0, s1, e1, e2, e3, e4, e5, _⟩ := together_psf h hfit (hsub o h1) h2
    obtain ⟨s0', f1, f2⟩ := hs.slot e1
    obtain ⟨s1', f3, f4⟩ := hs.slot e2
    rw [← hs.ncut] at f3
    obtain ⟨g1, g2⟩ := psfRowRange_one h.oneWay (by rw [hs.ncut]; exact h2) f1 f3 hr
    refine ⟨g1, ?_, e4⟩
    rw [g2, f2, f4]
    dsimp only
    rw [← e3, e5]
  have hall : rs = (withCutouts rows).map (fun o => (stPsf o, stPsf o + lenPsf o)) ∧
      (∀ o ∈ withCutouts rows, t.dtype.psfRowCol = .perEpoch ∧ 0 ≤ stPsf o) := by
    have hm := mapRes_ok_iff.mp hmap
    generalize withCutouts rows = A at *
    generalize withCutouts rows1 = B at *
    clear hr hmap hne hsame hsub
    induction hw generalizing rs with
    | nil => cases hm; exact ⟨rfl, fun o ho => by cases ho⟩
    | cons h1 _ ih =>
      obtain ⟨r, l, hr1, hr2, rfl⟩ := List.forall₂_cons_left_iff.mp hm
      obtain ⟨k1, k2, k3⟩ := key _ _ h1 List.mem_cons_self r hr1
      obtain ⟨i1, i2⟩ := ih (fun o o1 hs ho => key o o1 hs (List.mem_cons_of_mem _ ho)) hr2
      refine ⟨by rw [List.map_cons, ← i1, k2], ?_⟩
      intro o ho
      rcases List.mem_cons.mp ho with rfl | ho
      · exact ⟨k1, k3⟩
      · exact i2 o ho
  obtain ⟨e1, e2⟩ := hall
  subst e1
  cases hx : withCutouts rows with
  | nil => exact absurd hx hne
  | cons a l =>
    have ha := e2 a (by rw [hx]; exact List.mem_cons_self)
    refine ⟨ha.1, by simp, ?_, ?_⟩
    · simp only [List.map_cons, firstStart]; omega
    · intro pix
      rw [← hx]
      exact cutAll_pieces stPsf lenPsf pix rows

end Extract
end Meds
