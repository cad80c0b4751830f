import Verif.Model.Extractor
import Verif.Spec.Stored
import Verif.Lemmas.Reader
import Verif.Lemmas.File

/-! Helper lemmas for the extractors. -/

namespace Meds
namespace Extract
open Spec

theorem mem_withCutouts {rows : List ObjRow} {o : ObjRow} : o ∈ withCutouts rows ↔ o ∈ rows ∧ 0 < o.ncutout := by
  simp [withCutouts]

theorem withCutouts_nil {rows : List ObjRow} : withCutouts rows = [] ↔ ∀ o ∈ rows, o.ncutout ≤ 0 := by
  simp [withCutouts, List.filter_eq_nil_iff]

/-- The first row with cutouts. -/
theorem head_withCutouts {rows : List ObjRow} {o : ObjRow} (h : (withCutouts rows).head? = some o) :
    ∃ i, rows[i]? = some o ∧ 0 < o.ncutout ∧ ∀ (j : Nat) (o' : ObjRow), j < i → rows[j]? = some o' → o'.ncutout ≤ 0 := by
  induction rows with
  | nil => simp [withCutouts] at h
  | cons x t ih =>
    by_cases hx : 0 < x.ncutout
    · simp [withCutouts, hx] at h
      subst h
      exact ⟨0, rfl, hx, fun j o' hj => absurd hj (by omega)⟩
    · have : withCutouts (x :: t) = withCutouts t := by simp [withCutouts, hx]
      rw [this] at h
      obtain ⟨i, h1, h2, h3⟩ := ih h
      refine ⟨i + 1, h1, h2, ?_⟩
      intro j o' hj hjo
      cases j with
      | zero => simp at hjo; subst hjo; omega
      | succ j => exact h3 j o' (by omega) hjo

/-- The last row with cutouts. -/
theorem last_withCutouts {rows : List ObjRow} {o : ObjRow} (h : (withCutouts rows).getLast? = some o) :
    ∃ i, rows[i]? = some o ∧ 0 < o.ncutout ∧ ∀ (j : Nat) (o' : ObjRow), i < j → rows[j]? = some o' → o'.ncutout ≤ 0 := by
  induction rows with
  | nil => simp [withCutouts] at h
  | cons x t ih =>
    by_cases ht : withCutouts t = []
    · by_cases hx : 0 < x.ncutout
      · have : withCutouts (x :: t) = [x] := by
          unfold withCutouts at ht ⊢
          simp [hx, ht]
        rw [this] at h
        simp at h
        subst h
        refine ⟨0, rfl, hx, ?_⟩
        intro j o' hj hjo
        cases j with
        | zero => omega
        | succ j => exact withCutouts_nil.mp ht o' (List.mem_of_getElem? hjo)
      · have : withCutouts (x :: t) = [] := by
          unfold withCutouts at ht ⊢
          simp [hx, ht]
        rw [this] at h
        simp at h
    · have h' : (withCutouts t).getLast? = some o := by
        by_cases hx : 0 < x.ncutout
        · have : withCutouts (x :: t) = x :: withCutouts t := by simp [withCutouts, hx]
          rw [this] at h
          rw [← h, List.getLast?_cons]
          cases hw : withCutouts t with
          | nil => exact absurd hw ht
          | cons y ys => rfl
        · have : withCutouts (x :: t) = withCutouts t := by simp [withCutouts, hx]
          rw [this] at h
          exact h
      obtain ⟨i, h1, h2, h3⟩ := ih h'
      refine ⟨i + 1, h1, h2, ?_⟩
      intro j o' hj hjo
      cases j with
      | zero => omega
      | succ j => exact h3 j o' (by omega) hjo

theorem Epoch.ncut {rows : List ObjRow} {i k : Nat} {o : ObjRow} {s : Slot} (h : Epoch rows i k o s) : 0 < o.ncutout := by
  have := h.2.1; omega

/-- All pieces lie between the start of the first and the end of the last one. -/
theorem pieces_bounds {st np : ObjRow → Slot → Int} {rows : List ObjRow} (hp : PiecesInOrder st np rows)
    {first last : ObjRow} {s0 s1 : Slot}
    (hf : (withCutouts rows).head? = some first) (hl : (withCutouts rows).getLast? = some last)
    (h0 : first.slots[0]? = some s0) (h1 : last.slots[(last.ncutout - 1).toNat]? = some s1)
    {i k : Nat} {o : ObjRow} {s : Slot} (he : Epoch rows i k o s) :
    st first s0 ≤ st o s ∧ st o s + np o s ≤ st last s1 + np last s1 := by
  obtain ⟨a, a1, a2, a3⟩ := head_withCutouts hf
  obtain ⟨b, b1, b2, b3⟩ := last_withCutouts hl
  have e0 : Epoch rows a 0 first s0 := ⟨a1, by push_cast; omega, h0⟩
  have e1 : Epoch rows b (last.ncutout - 1).toNat last s1 := ⟨b1, by omega, h1⟩
  have hia : a ≤ i := by
    by_contra hc
    have := a3 i o (by omega) he.1
    have := Epoch.ncut he
    omega
  have hib : i ≤ b := by
    by_contra hc
    have := b3 i o (by omega) he.1
    have := Epoch.ncut he
    omega
  constructor
  · by_cases hlt : a < i ∨ (a = i ∧ 0 < k)
    · have := hp.order _ _ _ _ _ _ _ _ e0 he hlt
      have := hp.npix_nonneg _ _ _ _ e0
      omega
    · have hai : a = i := by omega
      have hk : k = 0 := by omega
      subst hai hk
      have := he.1
      rw [a1] at this
      injection this with this
      subst this
      have := he.2.2
      rw [h0] at this
      injection this with this
      subst this
      exact le_refl _
  · by_cases hlt : i < b ∨ (i = b ∧ k < (last.ncutout - 1).toNat)
    · have := hp.order _ _ _ _ _ _ _ _ he e1 hlt
      have := hp.npix_nonneg _ _ _ _ e1
      omega
    · have hbi : i = b := by omega
      subst hbi
      have := he.1
      rw [b1] at this
      injection this with this
      subst this
      have hk : k = (last.ncutout - 1).toNat := by
        have := he.2.1
        omega
      subst hk
      have := he.2.2
      rw [h1] at this
      injection this with this
      subst this
      exact le_refl _

/-- Reading a piece of a slice. -/
theorem readSlice_shift {α : Type} {pix sub : List α} {c e x y : Int} (h : readSlice pix c e = .ok sub)
    (hx : c ≤ x) (hy : y ≤ e) : readSlice sub (x - c) (y - c) = readSlice pix x y := by
  unfold readSlice at h ⊢
  split at h
  · cases h
  split at h
  · cases h
  injection h with h
  subst h
  rw [if_neg (by omega), if_neg (show ¬ x < 0 by omega)]
  by_cases hxy : y ≤ x
  · rw [if_pos (by omega), if_pos hxy]
  · rw [if_neg (by omega), if_neg hxy]
    congr 1
    rw [List.take_drop, List.drop_drop, List.take_take]
    congr 1
    · omega
    · congr 1; omega

theorem epoch_slice {rows : List ObjRow} {a n i k : Nat} {o : ObjRow} {s : Slot} :
    Epoch ((rows.take n).drop a) i k o s ↔ a + i < n ∧ Epoch rows (a + i) k o s := by
  unfold Epoch
  rw [List.getElem?_drop, List.getElem?_take]
  by_cases h : a + i < n
  · simp [h]
  · simp [h]

theorem PiecesInOrder.slice {st np : ObjRow → Slot → Int} {rows : List ObjRow} (hp : PiecesInOrder st np rows) (a n : Nat) :
    PiecesInOrder st np ((rows.take n).drop a) where
  start_nonneg i k o s h := hp.start_nonneg _ _ _ _ (epoch_slice.mp h).2
  npix_nonneg i k o s h := hp.npix_nonneg _ _ _ _ (epoch_slice.mp h).2
  order i k o s i' k' o' s' h h' hlt :=
    hp.order _ _ _ _ _ _ _ _ (epoch_slice.mp h).2 (epoch_slice.mp h').2 (by omega)

theorem mem_slice {α : Type} {rows : List α} {a n : Nat} {o : α} (h : o ∈ (rows.take n).drop a) : o ∈ rows :=
  List.mem_of_mem_take (List.mem_of_mem_drop h)

theorem CutoutsInOrder.slice {rows : List ObjRow} (h : CutoutsInOrder rows) (a n : Nat) :
    CutoutsInOrder ((rows.take n).drop a) where
  fit o ho := h.fit o (mem_slice ho)
  pieces := PiecesInOrder.slice h.pieces a n
  contig o ho := h.contig o (mem_slice ho)

/-- Row transformation that shifts the starts. -/
def shiftRow (c pc : Int) (o : ObjRow) : ObjRow :=
  { o with slots := o.slots.map (fun s => { s with startRow := s.startRow - c, psfStartRow := s.psfStartRow - pc }) }

/-- The effective shift: a start of -1 means no shift. -/
def eff (c : Int) : Int := if c ≠ -1 then c else 0

/-- The effective PSF shift. -/
def effPsf : Option (Int × Int) → Int
  | none => 0
  | some r => eff r.1

theorem shift_eq (c : Int) (psf : Option (Int × Int)) (rows : List ObjRow) :
    shiftPsf psf (shiftRows c rows) = rows.map (shiftRow (eff c) (effPsf psf)) := by
  have h00 : ∀ rows : List ObjRow, rows.map (shiftRow 0 0) = rows := by
    intro rows
    have : shiftRow 0 0 = id := by
      funext o
      simp [shiftRow]
    rw [this, List.map_id]
  have h1 : shiftRows c rows = rows.map (shiftRow (eff c) 0) := by
    unfold shiftRows eff
    split
    · apply List.map_congr_left
      intro o _
      simp [shiftRow]
    · rw [h00]
  have h2 : ∀ rows, shiftPsf psf rows = rows.map (shiftRow 0 (effPsf psf)) := by
    intro rows
    cases psf with
    | none => exact (h00 rows).symm
    | some r =>
      simp only [shiftPsf, shiftPsfRows, effPsf, eff]
      split
      · apply List.map_congr_left
        intro o _
        simp [shiftRow]
      · rw [h00]
  rw [h1, h2, List.map_map]
  apply List.map_congr_left
  intro o _
  simp [shiftRow, Function.comp_def]

theorem lookup_mapRes {f : String → Res (String × Hdu)} (hf : ∀ n x, f n = .ok x → x.1 = n) {ns : List String}
    {l : List (String × Hdu)} (h : mapRes f ns = .ok l) (n : String) :
    (n ∈ ns → ∃ hd, Fits.lookup l n = some hd ∧ f n = .ok (n, hd)) ∧ (n ∉ ns → Fits.lookup l n = none) := by
  induction ns generalizing l with
  | nil =>
    simp only [mapRes] at h
    injection h with h
    subst h
    simp [Fits.lookup]
  | cons x t ih =>
    obtain ⟨y, ys, hy, hys, hl⟩ := List.forall₂_cons_left_iff.mp (mapRes_ok_iff.mp h)
    subst hl
    have hyx := hf x y hy
    obtain ⟨m, hd⟩ := y
    simp only at hyx
    subst hyx
    obtain ⟨i1, i2⟩ := ih (mapRes_ok_iff.mpr hys)
    simp only [Fits.lookup]
    by_cases e : m = n
    · subst e
      simp only [List.mem_cons, true_or, if_true, forall_true_left, Option.some.injEq]
      exact ⟨⟨hd, rfl, hy⟩, fun h => absurd (by simp) h⟩
    · rw [if_neg e]
      constructor
      · intro hn
        rcases List.mem_cons.mp hn with hn | hn
        · exact absurd hn.symm e
        · exact i1 hn
      · intro hn
        exact i2 (fun h => hn (by simp [h]))

theorem sliceExt_ok {f : Fits} {r : Int × Int} {n : String} {x : String × Hdu} (h : sliceExt f r n = .ok x) :
    ∃ pix sub, f.find n = some (.image pix) ∧ readSlice pix r.1 r.2 = .ok sub ∧ x = (n, .image sub) := by
  unfold sliceExt at h
  obtain ⟨p, hp, h⟩ := Res.bind_eq_ok.mp h
  injection h with h
  unfold Fits.imageSlice at hp
  split at hp
  · rename_i pix hpix
    exact ⟨pix, p, hpix, hp, h.symm⟩
  · cases hp

/-- The names looked up by the reader. -/
theorem lookup_extras (f : Fits) (b : Bool) {n : String} (hn : n ∈ defaultExt ∨ f.has n = false) : Fits.lookup (extras f b) n = none := by
  apply lookup_none_of_not_mem
  intro x hx e
  unfold extras at hx
  split at hx
  · obtain ⟨hx1, hx2⟩ := List.mem_filter.mp hx
    rcases hn with hn | hn
    · rw [e] at hx2; simp [hn] at hx2
    · have : Fits.lookup f.hdus n ≠ none := by
        clear hx hx2
        have hx1 : x ∈ f.hdus := hx1
        generalize f.hdus = l at hx1 
        induction l with
        | nil => cases hx1
        | cons y t ih =>
          obtain ⟨m, hd⟩ := y
          simp only [Fits.lookup]
          split
          · simp
          · rename_i hne
            rcases List.mem_cons.mp hx1 with h | h
            · subst h; exact absurd e hne
            · exact ih h
      unfold Fits.has Fits.find at hn
      cases hl : Fits.lookup f.hdus n with
      | none => exact this hl
      | some v => rw [hl] at hn; simp at hn
  · cases hx

end Extract
end Meds

namespace Meds
namespace Extract
open Spec

theorem withCutouts_map (c pc : Int) (rows : List ObjRow) :
    withCutouts (rows.map (shiftRow c pc)) = (withCutouts rows).map (shiftRow c pc) := by
  unfold withCutouts
  rw [List.filter_map]
  rfl

theorem pyGet_map {α β : Type} (g : α → β) (l : List α) (i : Int) :
    pyGet (l.map g) i = pyGet l i >>= fun x => .ok (g x) := by
  unfold pyGet
  rw [List.length_map]
  cases pyIndex l.length i with
  | error e => rfl
  | ok k =>
    dsimp only
    rw [List.getElem?_map]
    cases l[k]? <;> rfl

theorem psfNpix_shift (d : CatDtype) (c pc : Int) (o : ObjRow) (k : Int) : psfNpix d (shiftRow c pc o) k = psfNpix d o k := by
  unfold psfNpix shiftRow
  dsimp only
  cases d.psfBox <;> dsimp only
  · cases d.psfRowCol <;> dsimp only
    rw [pyGet_map]
    cases pyGet o.slots k <;> rfl
  · rw [pyGet_map]
    cases pyGet o.slots k <;> rfl

theorem psfRowRange_shift (d : CatDtype) (c : Int) (rows : List ObjRow) :
    psfRowRange d (rows.map (shiftRow c 0)) = psfRowRange d rows := by
  unfold psfRowRange
  rw [withCutouts_map, List.head?_map, List.getLast?_map]
  cases (withCutouts rows).head? with
  | none => rfl
  | some a =>
    cases (withCutouts rows).getLast? with
    | none => rfl
    | some b =>
      simp only [Option.map_some]
      rw [psfNpix_shift]
      simp only [shiftRow, pyGet_map]
      cases pyGet a.slots 0 with
      | error e => rfl
      | ok s0 =>
        simp only [Res.ok_bind]
        cases psfNpix d b (b.ncutout - 1) with
        | error e => rfl
        | ok n =>
          simp only [Res.ok_bind]
          cases pyGet b.slots (b.ncutout - 1) with
          | error e => rfl
          | ok s1 => simp

theorem shiftRows_eq (c : Int) (rows : List ObjRow) : shiftRows c rows = rows.map (shiftRow (eff c) 0) := by
  have := shift_eq c none rows
  simpa [shiftPsf, effPsf] using this

theorem psfRange_shift (f : Fits) (d : CatDtype) (c : Int) (rows : List ObjRow) :
    psfRange f d (shiftRows c rows) = psfRange f d rows := by
  unfold psfRange
  rw [shiftRows_eq, psfRowRange_shift]

/-- Everything a successful range extraction computed. -/
structure Ranged (f : Fits) (a b : Int) (copyAll : Bool) (t : ObjTable) (rows : List ObjRow) (r : Int × Int) (psf : Option (Int × Int))
    (info : List InfoRow) (md : String) (cuts : List (String × Hdu)) (g : Fits) : Prop where
  le : a ≤ b
  objects : f.find "object_data" = some (.objects t)
  inside : 0 ≤ a ∧ a < t.rows.length
  rows_eq : rows = (t.rows.take (b + 1).toNat).drop a.toNat
  range : rowRange rows = .ok r
  psf_eq : psfRange f t.dtype rows = .ok psf
  info_eq : f.find "image_info" = some (.info info)
  md_eq : f.find "metadata" = some (.metadata md)
  cuts_eq : rangeCutouts f r psf = .ok cuts
  out : g = ⟨[("object_data", .objects { t with rows := rows.map (shiftRow (eff r.1) (effPsf psf)) }), ("image_info", .info info), ("metadata", .metadata md)]
    ++ cuts ++ extras f copyAll⟩

theorem objects_ok {f : Fits} {t : ObjTable} : f.objects = .ok t ↔ f.find "object_data" = some (.objects t) := by
  unfold Fits.objects
  split <;> simp_all

theorem imageInfo_ok {f : Fits} {t : List InfoRow} : f.imageInfo = .ok t ↔ f.find "image_info" = some (.info t) := by
  unfold Fits.imageInfo
  split <;> simp_all

theorem metaTable_ok {f : Fits} {t : String} : f.metaTable = .ok t ↔ f.find "metadata" = some (.metadata t) := by
  unfold Fits.metaTable
  split <;> simp_all

theorem ranged_iff {f : Fits} {a b : Int} {copyAll : Bool} {g : Fits} :
    extractRange f a b copyAll = .ok g ↔ ∃ t rows r psf info md cuts, Ranged f a b copyAll t rows r psf info md cuts g := by
  constructor
  · intro h
    unfold extractRange at h
    split at h
    · cases h
    rename_i hle
    unfold range at h
    obtain ⟨t, ht, h⟩ := Res.bind_eq_ok.mp h
    obtain ⟨rows, hrows, h⟩ := Res.bind_eq_ok.mp h
    obtain ⟨r, hr, h⟩ := Res.bind_eq_ok.mp h
    dsimp only at h
    obtain ⟨psf, hp, h⟩ := Res.bind_eq_ok.mp h
    obtain ⟨info, hi, h⟩ := Res.bind_eq_ok.mp h
    obtain ⟨md, hm, h⟩ := Res.bind_eq_ok.mp h
    obtain ⟨cuts, hc, h⟩ := Res.bind_eq_ok.mp h
    injection h with h
    unfold sliceRows at hrows
    split at hrows
    · cases hrows
    rename_i hin
    injection hrows with hrows
    rw [psfRange_shift] at hp
    rw [shift_eq] at h
    exact ⟨t, rows, r, psf, info, md, cuts, by omega, objects_ok.mp ht, by omega, hrows.symm, hr, hp, imageInfo_ok.mp hi, metaTable_ok.mp hm, hc, h.symm⟩
  · rintro ⟨t, rows, r, psf, info, md, cuts, h⟩
    unfold extractRange
    have := h.le
    have hin := h.inside
    rw [if_neg (by omega)]
    unfold range
    rw [objects_ok.mpr h.objects]
    simp only [Res.ok_bind]
    unfold sliceRows
    rw [if_neg (by omega), ← h.rows_eq]
    simp only [Res.ok_bind]
    rw [h.range]
    simp only [Res.ok_bind]
    rw [psfRange_shift, h.psf_eq]
    simp only [Res.ok_bind]
    rw [imageInfo_ok.mpr h.info_eq, metaTable_ok.mpr h.md_eq]
    simp only [Res.ok_bind]
    rw [h.cuts_eq, h.out, shift_eq]
    rfl

end Extract
end Meds

namespace Meds
namespace Extract
open Spec

/-- The cutout types that extraction keeps. -/
def keptTypes : List String := ["image", "weight", "seg", "bmask", "noise"]

theorem pyGet_last {o : ObjRow} (hn : 0 < o.ncutout) {s : Slot} (h : pyGet o.slots (o.ncutout - 1) = .ok s) :
    o.slots[(o.ncutout - 1).toNat]? = some s := pyGet_ok_nonneg h (by omega)

theorem pyGet_zero {o : ObjRow} {s : Slot} (h : pyGet o.slots 0 = .ok s) : o.slots[0]? = some s := pyGet_ok_nonneg h (le_refl 0)

theorem rowRange_ok {rows : List ObjRow} {r : Int × Int} (h : rowRange rows = .ok r) :
    (withCutouts rows = [] ∧ r = (-1, -1)) ∨
    ∃ first last s0 s1, (withCutouts rows).head? = some first ∧ (withCutouts rows).getLast? = some last ∧
      first.slots[0]? = some s0 ∧ last.slots[(last.ncutout - 1).toNat]? = some s1 ∧
      r = (s0.startRow, s1.startRow + last.boxSize ^ 2) := by
  unfold rowRange at h
  split at h
  · rename_i first last h1 h2
    obtain ⟨s0, h3, h⟩ := Res.bind_eq_ok.mp h
    obtain ⟨s1, h4, h⟩ := Res.bind_eq_ok.mp h
    injection h with h
    have := (last_withCutouts h2)
    obtain ⟨_, _, hn, _⟩ := this
    exact .inr ⟨first, last, s0, s1, h1, h2, pyGet_zero h3, pyGet_last hn h4, h.symm⟩
  · rename_i hne
    injection h with h
    left
    refine ⟨?_, h.symm⟩
    cases hw : withCutouts rows with
    | nil => rfl
    | cons x t =>
      exfalso
      exact hne x ((x :: t).getLast (by simp)) (by rw [hw]; rfl) (by rw [hw]; exact List.getLast?_eq_some_getLast (by simp))

theorem psfNpix_ok {d : CatDtype} {o : ObjRow} {s : Slot} {n : Int} (hn : 0 < o.ncutout) (hd : d.psfBox = .absent ∨ d.psfRowCol = .absent)
    (hs : o.slots[(o.ncutout - 1).toNat]? = some s) (h : psfNpix d o (o.ncutout - 1) = .ok n) : n = psfPixels d o s := by
  have hg : pyGet o.slots (o.ncutout - 1) = .ok s := by
    have := pyGet_nat_some hs
    rwa [Int.toNat_of_nonneg (by omega)] at this
  unfold psfNpix at h
  unfold psfPixels
  rw [hg] at h
  cases hb : d.psfBox <;> rw [hb] at h hd <;> cases hr : d.psfRowCol <;> rw [hr] at h hd <;> simp_all

theorem psfRowRange_ok {d : CatDtype} {rows : List ObjRow} {r : Int × Int} (h : psfRowRange d rows = .ok r)
    (hd : d.psfBox = .absent ∨ d.psfRowCol = .absent) :
    (withCutouts rows = [] ∧ r = (-1, -1)) ∨
    ∃ first last s0 s1, (withCutouts rows).head? = some first ∧ (withCutouts rows).getLast? = some last ∧
      first.slots[0]? = some s0 ∧ last.slots[(last.ncutout - 1).toNat]? = some s1 ∧
      r = (s0.psfStartRow, s1.psfStartRow + psfPixels d last s1) := by
  unfold psfRowRange at h
  split at h
  · rename_i first last h1 h2
    obtain ⟨s0, h3, h⟩ := Res.bind_eq_ok.mp h
    obtain ⟨n, h5, h⟩ := Res.bind_eq_ok.mp h
    obtain ⟨s1, h4, h⟩ := Res.bind_eq_ok.mp h
    injection h with h
    obtain ⟨_, _, hn, _⟩ := last_withCutouts h2
    have := psfNpix_ok hn hd (pyGet_last hn h4) h5
    subst this
    exact .inr ⟨first, last, s0, s1, h1, h2, pyGet_zero h3, pyGet_last hn h4, h.symm⟩
  · rename_i hne
    injection h with h
    left
    refine ⟨?_, h.symm⟩
    cases hw : withCutouts rows with
    | nil => rfl
    | cons x t =>
      exfalso
      exact hne x ((x :: t).getLast (by simp)) (by rw [hw]; rfl) (by rw [hw]; exact List.getLast?_eq_some_getLast (by simp))

theorem sliceExt_name {f : Fits} {r : Int × Int} (n : String) (x : String × Hdu) (h : sliceExt f r n = .ok x) : x.1 = n := by
  obtain ⟨_, _, _, _, rfl⟩ := sliceExt_ok h
  rfl

theorem kept_names {t : String} (ht : t ∈ keptTypes) :
    t ++ "_cutouts" ≠ "object_data" ∧ t ++ "_cutouts" ≠ "image_info" ∧ t ++ "_cutouts" ≠ "metadata" ∧ t ++ "_cutouts" ≠ "psf" ∧
    t ≠ "psf" ∧ t ++ "_cutouts" ∈ ["image_cutouts", "weight_cutouts", "seg_cutouts", "bmask_cutouts", "noise_cutouts"] := by
  revert t
  decide

namespace Ranged
variable {f g : Fits} {a b : Int} {copyAll : Bool} {t : ObjTable} {rows : List ObjRow} {r : Int × Int} {psf : Option (Int × Int)}
  {info : List InfoRow} {md : String} {cuts : List (String × Hdu)}

theorem opens (h : Ranged f a b copyAll t rows r psf info md cuts g) :
    MEDS.openFile g = .ok { fits := g, cat := { t with rows := rows.map (shiftRow (eff r.1) (effPsf psf)) }, info := info, metaData := md } := by
  have h1 : g.find "object_data" = some (.objects { t with rows := rows.map (shiftRow (eff r.1) (effPsf psf)) }) := by
    rw [h.out]; rfl
  have h2 : g.find "image_info" = some (.info info) := by
    rw [h.out]
    simp [Fits.find, Fits.lookup]
  have h3 : g.find "metadata" = some (.metadata md) := by
    rw [h.out]
    simp [Fits.find, Fits.lookup]
  unfold MEDS.openFile
  rw [h1, h2, h3]

theorem find_ext (h : Ranged f a b copyAll t rows r psf info md cuts g) {n : String}
    (h1 : n ≠ "object_data") (h2 : n ≠ "image_info") (h3 : n ≠ "metadata") (h4 : n ∈ defaultExt ∨ f.has n = false) :
    g.find n = Fits.lookup cuts n := by
  rw [h.out]
  unfold Fits.find
  dsimp only
  rw [lookup_append, lookup_append, lookup_extras f copyAll h4]
  simp [Fits.lookup, h1.symm, h2.symm, h3.symm]

theorem cuts_some (h : Ranged f a b copyAll t rows r psf info md cuts g) (hr : r.1 ≠ -1) :
    ∃ c p, mapRes (sliceExt f r) (rangeExts f) = .ok c ∧ psfHdu f psf = .ok p ∧ cuts = c ++ p := by
  have := h.cuts_eq
  unfold rangeCutouts at this
  rw [if_neg hr] at this
  obtain ⟨c, hc, this⟩ := Res.bind_eq_ok.mp this
  obtain ⟨p, hp, this⟩ := Res.bind_eq_ok.mp this
  injection this with this
  exact ⟨c, p, hc, hp, this.symm⟩

theorem psf_name {p : List (String × Hdu)} (hp : psfHdu f psf = .ok p) :
    (psf = none ∧ p = []) ∨ ∃ q pix sub, psf = some q ∧ f.find "psf" = some (.image pix) ∧ readSlice pix q.1 q.2 = .ok sub ∧ p = [("psf", .image sub)] := by
  cases psf with
  | none => left; injection hp with hp; exact ⟨rfl, hp.symm⟩
  | some q =>
    right
    obtain ⟨s, hs, hp⟩ := Res.bind_eq_ok.mp hp
    injection hp with hp
    unfold Fits.imageSlice at hs
    split at hs
    · rename_i pix hpix
      exact ⟨q, pix, s, rfl, hpix, hs, hp.symm⟩
    · cases hs

theorem mem_rangeExts {f : Fits} {n : String} (h : n ∈ ["image_cutouts", "weight_cutouts", "seg_cutouts", "bmask_cutouts", "noise_cutouts"]) (hf : f.has n = true) :
    n ∈ rangeExts f := by
  simp only [List.mem_cons, List.not_mem_nil, or_false] at h
  unfold rangeExts
  rcases h with rfl | rfl | rfl | rfl | rfl <;> simp [hf]

/-- A copied extension is exactly the slice. -/
theorem ext_find (h : Ranged f a b copyAll t rows r psf info md cuts g) (hr : r.1 ≠ -1) {ty : String} (ht : ty ∈ keptTypes) (hn : ty ++ "_cutouts" ∈ rangeExts f) :
    ∃ pix sub, f.find (ty ++ "_cutouts") = some (.image pix) ∧ readSlice pix r.1 r.2 = .ok sub ∧ g.find (ty ++ "_cutouts") = some (.image sub) := by
  obtain ⟨n1, n2, n3, n4, _, n6⟩ := kept_names ht
  generalize ty ++ "_cutouts" = n at *
  obtain ⟨c, p, hc, hp, hcp⟩ := h.cuts_some hr
  obtain ⟨hd, hl, hs⟩ := (lookup_mapRes sliceExt_name hc n).1 hn
  obtain ⟨pix, sub, e1, e2, e3⟩ := sliceExt_ok hs
  injection e3 with _ e3
  refine ⟨pix, sub, e1, e2, ?_⟩
  have : g.find n = Fits.lookup cuts n := by
    by_cases hnn : n = "noise_cutouts"
    · -- present in the input, and possibly copied again at the end
      rw [h.out]
      unfold Fits.find
      dsimp only
      rw [lookup_append, lookup_append]
      simp [Fits.lookup, n1.symm, n2.symm, n3.symm]
      rw [hcp, lookup_append, hl]
      simp
    · apply h.find_ext n1 n2 n3
      left
      simp only [List.mem_cons, List.not_mem_nil, or_false] at n6
      rcases n6 with rfl | rfl | rfl | rfl | rfl
      · decide
      · decide
      · decide
      · decide
      · exact absurd rfl hnn
  rw [this, hcp, lookup_append, hl, e3]
  rfl

theorem ext (h : Ranged f a b copyAll t rows r psf info md cuts g) (hr : r.1 ≠ -1) {ty : String} (ht : ty ∈ keptTypes) :
    g.has (ty ++ "_cutouts") = f.has (ty ++ "_cutouts") ∧
    ∀ x y, r.1 ≤ x → y ≤ r.2 → g.imageSlice (ty ++ "_cutouts") (x - r.1) (y - r.1) = f.imageSlice (ty ++ "_cutouts") x y := by
  have hfd := h.ext_find hr ht
  obtain ⟨n1, n2, n3, n4, _, n6⟩ := kept_names ht
  generalize ty ++ "_cutouts" = n at *
  obtain ⟨c, p, hc, hp, hcp⟩ := h.cuts_some hr
  have hpl : Fits.lookup p n = none := by
    rcases psf_name hp with ⟨_, rfl⟩ | ⟨_, _, _, _, _, _, rfl⟩
    · rfl
    · simp [Fits.lookup, n4.symm]
  have hlk := lookup_mapRes sliceExt_name hc n
  by_cases hn : n ∈ rangeExts f
  · obtain ⟨pix, sub, e1, e2, hf⟩ := hfd hn
    constructor
    · unfold Fits.has; rw [hf, e1]; rfl
    · intro x y hx hy
      unfold Fits.imageSlice
      rw [hf, e1]
      exact readSlice_shift e2 hx hy
  · have hnf : f.has n = false := by
      simp only [List.mem_cons, List.not_mem_nil, or_false] at n6
      by_contra hc'
      apply hn
      have hc' : f.has n = true := by simpa using hc'
      unfold rangeExts
      rcases n6 with rfl | rfl | rfl | rfl | rfl <;> simp [hc']
    have hg : g.find n = none := by
      rw [h.find_ext n1 n2 n3 (.inr hnf), hcp, lookup_append, hlk.2 hn, hpl]
      rfl
    have hff : f.find n = none := by
      unfold Fits.has at hnf
      cases hfn : f.find n with
      | none => rfl
      | some v => rw [hfn] at hnf; cases hnf
    constructor
    · unfold Fits.has; rw [hg, hff]
    · intro x y _ _
      unfold Fits.imageSlice
      rw [hg, hff]

theorem psfExt (h : Ranged f a b copyAll t rows r psf info md cuts g) (hr : r.1 ≠ -1) :
    g.has "psf" = f.has "psf" ∧
    (∀ q, psf = some q → ∀ x y, q.1 ≤ x → y ≤ q.2 → g.imageSlice "psf" (x - q.1) (y - q.1) = f.imageSlice "psf" x y) := by
  obtain ⟨c, p, hc, hp, hcp⟩ := h.cuts_some hr
  have hcl : Fits.lookup c "psf" = none := by
    apply (lookup_mapRes sliceExt_name hc "psf").2
    unfold rangeExts
    simp
  have hg : g.find "psf" = Fits.lookup p "psf" := by
    rw [h.find_ext (by decide) (by decide) (by decide) (.inl (by decide)), hcp, lookup_append, hcl]
    rfl
  have hpq := h.psf_eq
  unfold psfRange at hpq
  rcases psf_name hp with ⟨rfl, rfl⟩ | ⟨q, pix, sub, rfl, e1, e2, rfl⟩
  · constructor
    · split at hpq
      · obtain ⟨_, _, hpq⟩ := Res.bind_eq_ok.mp hpq
        cases hpq
      · rename_i hh
        unfold Fits.has
        rw [hg]
        simp only [Bool.not_eq_true] at hh
        unfold Fits.has at hh
        rw [hh]
        rfl
    · simp
  · have hg' : g.find "psf" = some (.image sub) := by rw [hg]; simp [Fits.lookup]
    constructor
    · unfold Fits.has
      rw [hg', e1]
      rfl
    · intro q' hq' x y hx hy
      injection hq' with hq'
      subst hq'
      unfold Fits.imageSlice
      rw [hg', e1]
      exact readSlice_shift e2 hx hy

/-- The copied PSFs are exactly the slice. -/
theorem psf_find (h : Ranged f a b copyAll t rows r psf info md cuts g) (hr : r.1 ≠ -1) (hf : f.has "psf" = true) :
    ∃ q pix sub, psfRowRange t.dtype rows = .ok q ∧ f.find "psf" = some (.image pix) ∧ readSlice pix q.1 q.2 = .ok sub ∧ g.find "psf" = some (.image sub) := by
  obtain ⟨c, p, hc, hp, hcp⟩ := h.cuts_some hr
  have hcl : Fits.lookup c "psf" = none := by
    apply (lookup_mapRes sliceExt_name hc "psf").2
    unfold rangeExts
    simp
  have hg : g.find "psf" = Fits.lookup p "psf" := by
    rw [h.find_ext (by decide) (by decide) (by decide) (.inl (by decide)), hcp, lookup_append, hcl]
    rfl
  have hpq := h.psf_eq
  unfold psfRange at hpq
  rw [if_pos hf] at hpq
  obtain ⟨q, hq, hpq⟩ := Res.bind_eq_ok.mp hpq
  injection hpq with hpq
  rcases psf_name hp with ⟨e, _⟩ | ⟨q', pix, sub, e, e1, e2, rfl⟩
  · rw [e] at hpq; cases hpq
  · rw [e] at hpq
    injection hpq with hpq
    subst hpq
    exact ⟨q, pix, sub, hq, e1, e2, by rw [hg]; simp [Fits.lookup]⟩

end Ranged
end Extract
end Meds
