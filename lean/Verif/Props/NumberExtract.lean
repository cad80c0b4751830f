import Mathlib.Data.List.Nodup
import Verif.Lemmas.Number
import Verif.Props.CopyAll

/-!
# Extraction of objects by number (C21, C22)
-/

namespace Meds
open Spec

namespace Extract

/-- The cutout types that extraction by number keeps. -/
def numberTypes : List String := ["image", "weight", "seg", "bmask"]

theorem number_names {t : String} (ht : t ∈ numberTypes) :
    t ++ "_cutouts" ≠ "object_data" ∧ t ++ "_cutouts" ≠ "image_info" ∧ t ++ "_cutouts" ≠ "metadata" ∧ t ++ "_cutouts" ≠ "psf" ∧
    t ≠ "psf" ∧ t ++ "_cutouts" ∈ ["image_cutouts", "weight_cutouts", "seg_cutouts", "bmask_cutouts"] := by
  revert t
  decide

theorem gatherExt_name {f : Fits} {rs : List (Int × Int)} (n : String) (x : String × Hdu) (h : gatherExt f rs n = .ok x) : x.1 = n := by
  unfold gatherExt at h
  obtain ⟨p, _, h⟩ := Res.bind_eq_ok.mp h
  injection h with h
  rw [← h]

namespace Numbered
variable {sorts : Bool} {f g : Fits} {ns : List Int} {t : ObjTable} {inds : List Nat} {rows rows1 : List ObjRow} {rs : List (Int × Int)}
  {p : List ObjRow × Option (List (Int × Int))} {info : List InfoRow} {md : String} {cuts : List (String × Hdu)}

theorem opens (h : Numbered sorts f ns t inds rows rs rows1 p info md cuts g) :
    MEDS.openFile g = .ok { fits := g, cat := { t with rows := p.1 }, info := info, metaData := md } := by
  have h1 : g.find "object_data" = some (.objects { t with rows := p.1 }) := by rw [h.out]; rfl
  have h2 : g.find "image_info" = some (.info info) := by rw [h.out]; simp [Fits.find, Fits.lookup]
  have h3 : g.find "metadata" = some (.metadata md) := by rw [h.out]; simp [Fits.find, Fits.lookup]
  unfold MEDS.openFile
  rw [h1, h2, h3]

theorem find_ext (h : Numbered sorts f ns t inds rows rs rows1 p info md cuts g) {n : String}
    (h1 : n ≠ "object_data") (h2 : n ≠ "image_info") (h3 : n ≠ "metadata") : g.find n = Fits.lookup cuts n := by
  rw [h.out]
  unfold Fits.find
  dsimp only
  rw [lookup_append]
  simp [Fits.lookup, h1.symm, h2.symm, h3.symm]

theorem cuts_some (h : Numbered sorts f ns t inds rows rs rows1 p info md cuts g) (hr : firstStart rs ≠ -1) :
    ∃ c q, mapRes (gatherExt f rs) ["image_cutouts", "weight_cutouts", "seg_cutouts", "bmask_cutouts"] = .ok c ∧ numberPsfHdu f p.2 = .ok q ∧ cuts = c ++ q := by
  have := h.cuts_eq
  unfold numberCutouts at this
  rw [if_neg hr] at this
  obtain ⟨c, hc, this⟩ := Res.bind_eq_ok.mp this
  obtain ⟨q, hq, this⟩ := Res.bind_eq_ok.mp this
  injection this with this
  exact ⟨c, q, hc, hq, this.symm⟩

theorem ext (h : Numbered sorts f ns t inds rows rs rows1 p info md cuts g) (hr : firstStart rs ≠ -1) (hne : rs ≠ []) {ty : String} (ht : ty ∈ numberTypes) :
    ∃ pix, f.find (ty ++ "_cutouts") = some (.image pix) ∧ g.find (ty ++ "_cutouts") = some (.image (cutAll pix rs)) := by
  obtain ⟨n1, n2, n3, n4, _, n6⟩ := number_names ht
  obtain ⟨c, q, hc, hq, hcq⟩ := h.cuts_some hr
  obtain ⟨hd, hl, hs⟩ := (lookup_mapRes gatherExt_name hc (ty ++ "_cutouts")).1 n6
  unfold gatherExt at hs
  obtain ⟨d, hdd, hs⟩ := Res.bind_eq_ok.mp hs
  injection hs with hs
  injection hs with _ hs
  obtain ⟨pix, e1, e2⟩ := dataFromRanges_ok hne hdd
  refine ⟨pix, e1, ?_⟩
  rw [h.find_ext n1 n2 n3, hcq, lookup_append, hl, ← hs, e2]
  rfl

theorem ext_psf (h : Numbered sorts f ns t inds rows rs rows1 p info md cuts g) (hr : firstStart rs ≠ -1) :
    (p.2 = none → g.find "psf" = none) ∧
    ∀ qs, p.2 = some qs → qs ≠ [] → ∃ pix, f.find "psf" = some (.image pix) ∧ g.find "psf" = some (.image (cutAll pix qs)) := by
  obtain ⟨c, q, hc, hq, hcq⟩ := h.cuts_some hr
  have hcl : Fits.lookup c "psf" = none := (lookup_mapRes gatherExt_name hc "psf").2 (by decide)
  have hg : g.find "psf" = Fits.lookup q "psf" := by
    rw [h.find_ext (by decide) (by decide) (by decide), hcq, lookup_append, hcl]; rfl
  constructor
  · intro hp
    rw [hp] at hq
    injection hq with hq
    rw [hg, ← hq]
    rfl
  · intro qs hp hne
    rw [hp] at hq
    unfold numberPsfHdu at hq
    obtain ⟨x, hx, hq⟩ := Res.bind_eq_ok.mp hq
    injection hq with hq
    unfold gatherExt at hx
    obtain ⟨d, hd, hx⟩ := Res.bind_eq_ok.mp hx
    injection hx with hx
    obtain ⟨pix, e1, e2⟩ := dataFromRanges_ok hne hd
    refine ⟨pix, e1, ?_⟩
    rw [hg, ← hq, ← hx, e2]
    rfl

/-- The chosen rows without and with new start rows. -/
theorem rows_rel (h : Numbered sorts f ns t inds rows rs rows1 p info md cuts g) : List.Forall₂ SamePsf rows rows1 ∧ p.1.length = rows.length := by
  have e1 : List.Forall₂ SamePsf rows rows1 := by
    have := h.starts
    unfold newStarts at this
    split at this
    · obtain ⟨l, hr⟩ := relay_ok this
      rw [List.forall₂_iff_get]
      refine ⟨l.symm, fun i h1 h2 => ?_⟩
      obtain ⟨ss, q1, q2⟩ := (hr i _ _ (List.getElem?_eq_getElem h1) (List.getElem?_eq_getElem h2)).rest
      simp only [List.get_eq_getElem]
      exact ⟨by rw [q1], by rw [q1]; exact q2⟩
    · injection this with this
      subst this
      exact List.forall₂_same.mpr (fun o _ => ⟨rfl, List.forall₂_same.mpr (fun _ _ => rfl)⟩)
  refine ⟨e1, ?_⟩
  have hl := e1.length_eq
  have := h.psf_eq
  unfold numberPsf at this
  split at this
  · obtain ⟨qs, _, this⟩ := Res.bind_eq_ok.mp this
    obtain ⟨r', h2, this⟩ := Res.bind_eq_ok.mp this
    injection this with this
    subst this
    unfold newPsfStarts at h2
    split at h2
    · split at h2
      · rw [(relayPsf_ok h2).1, hl]
      · cases h2
      · cases h2
    · injection h2 with h2
      rw [← h2, hl]
  · injection this with this
    subst this
    exact hl.symm

end Numbered

theorem forall2_trans_same {a b c : List Slot} (h1 : List.Forall₂ (fun s s' : Slot => s' = { s with startRow := s'.startRow }) a b)
    (h2 : List.Forall₂ (fun s s' : Slot => s' = { s with psfStartRow := s'.psfStartRow }) b c) :
    List.Forall₂ (fun s s' : Slot => s' = { s with startRow := s'.startRow, psfStartRow := s'.psfStartRow }) a c := by
  induction h1 generalizing c with
  | nil => cases h2; exact List.Forall₂.nil
  | cons e _ ih =>
    obtain ⟨z, l, f1, f2, rfl⟩ := List.forall₂_cons_left_iff.mp h2
    refine List.Forall₂.cons ?_ (ih f2)
    rw [f1, e]

theorem twin_number {sorts : Bool} {f g : Fits} {m : MEDS} {ns : List Int} {t : ObjTable} {inds : List Nat} {rows rows1 : List ObjRow} {rs : List (Int × Int)}
    {p : List ObjRow × Option (List (Int × Int))} {info : List InfoRow} {md : String} {cuts : List (String × Hdu)}
    (h : Numbered sorts f ns t inds rows rs rows1 p info md cuts g) (ho : MEDS.openFile f = .ok m)
    (hst : CutoutsTogether f m.cat.rows) (hpsf : f.has "psf" = true → PsfTogether f m.cat)
    (hsub : ∀ o ∈ rows, o ∈ m.cat.rows)
    {i j : Nat} {o : ObjRow} (hi : rows[i]? = some o) (hj : m.cat.rows[j]? = some o) :
    ∃ o', Twin numberTypes m j o { fits := g, cat := { t with rows := p.1 }, info := info, metaData := md } i o' := by
  obtain ⟨p1, p2, p3, p4⟩ := opened_parts ho
  have htc : t = m.cat := by have := h.objects; rw [p2] at this; simpa using this.symm
  subst htc
  obtain ⟨hrel, hlen⟩ := h.rows_rel
  have hil : i < rows.length := (List.getElem?_eq_some_iff.mp hi).1
  have hil1 : i < rows1.length := by rw [← hrel.length_eq]; exact hil
  have hi1 : rows1[i]? = some rows1[i] := List.getElem?_eq_getElem hil1
  have hi2 : p.1[i]? = some (p.1[i]'(by omega)) := List.getElem?_eq_getElem _
  have hmem := hsub o (List.mem_of_getElem? hi)
  have hfit := hst.fit o hmem
  have hinfo : info = m.info := by have := h.info_eq; rw [p3] at this; simpa using this.symm
  have hsp : SamePsf o rows1[i] := by
    have := (List.forall₂_iff_get.mp hrel).2 i hil hil1
    simp only [List.get_eq_getElem] at this
    rwa [(List.getElem?_eq_some_iff.mp hi).2] at this
  -- the relation between the catalogue rows
  have hr1 : ∃ ss, rows1[i] = { o with slots := ss } ∧ List.Forall₂ (fun s s' : Slot => s' = { s with startRow := s'.startRow }) o.slots ss := by
    have := h.starts
    unfold newStarts at this
    split at this
    · exact ((relay_ok this).2 i o rows1[i] hi hi1).rest
    · injection this with this
      subst this
      have : rows[i] = o := (List.getElem?_eq_some_iff.mp hi).2
      exact ⟨o.slots, this, List.forall₂_same.mpr (fun _ _ => rfl)⟩
  have hr2 : ∃ ss, p.1[i]'(by omega) = { rows1[i] with slots := ss } ∧
      List.Forall₂ (fun s s' : Slot => s' = { s with psfStartRow := s'.psfStartRow }) rows1[i].slots ss := by
    have := h.psf_eq
    unfold numberPsf at this
    split at this
    · obtain ⟨qs, _, this⟩ := Res.bind_eq_ok.mp this
      obtain ⟨r', h2, this⟩ := Res.bind_eq_ok.mp this
      injection this with this
      subst this
      unfold newPsfStarts at h2
      split at h2
      · split at h2
        · exact ((relayPsf_ok h2).2 i _ _ hi1 hi2).rest
        · cases h2
        · cases h2
      · injection h2 with h2
        subst h2
        exact ⟨_, rfl, List.forall₂_same.mpr (fun _ _ => rfl)⟩
    · injection this with this
      subst this
      exact ⟨_, rfl, List.forall₂_same.mpr (fun _ _ => rfl)⟩
  have hsame : SameButStarts o (p.1[i]'(by omega)) := by
    obtain ⟨ss1, a1, a2⟩ := hr1
    obtain ⟨ss2, b1, b2⟩ := hr2
    rw [a1] at b1 b2
    exact ⟨ss2, b1, forall2_trans_same a2 b2⟩
  have hne : 0 < o.ncutout → withCutouts rows ≠ [] := fun hn hw => by
    have := withCutouts_nil.mp hw o (List.mem_of_getElem? hi)
    omega
  have hpiece : ∀ n ∈ ["image_cutouts", "weight_cutouts", "seg_cutouts", "bmask_cutouts"], ∀ pix, f.find n = some (.image pix) →
      ∀ o ∈ rows, ((piece st len pix o).length : Int) = len o := by
    intro n hn pix hp o ho
    unfold piece
    split
    · rename_i hpos
      obtain ⟨_, _, _, e3, e4, _⟩ := together_obj hst (hsub o ho) hpos
      have hl : 0 ≤ len o := by unfold len; positivity
      rw [cut_length pix e3 (by omega) (e4 n hn pix hp)]; ring
    · rename_i hpos
      unfold len
      rw [show o.ncutout.toNat = 0 by omega]; simp
  refine ⟨p.1[i]'(by omega), { row := hj, row' := hi2, same := hsame, dtype := rfl, info := hinfo, nonneg := hfit.1, ext := ?_, psf := ?_ }⟩
  · intro ty hty
    refine ⟨(number_names hty).2.2.2.2.1, fun hn => ?_⟩
    obtain ⟨r1, r2, r3⟩ := rowRanges_some hst hsub (hne hn) h.ranges
    obtain ⟨pix, e1, e2⟩ := h.ext r2 r1 hty
    rw [r3] at e2
    have hP := hpiece _ (number_names hty).2.2.2.2.2 pix e1
    have hstart : ∀ (k : Nat) (s' : Slot), (k : Int) < o.ncutout → (p.1[i]'(by omega)).slots[k]? = some s' →
        s'.startRow = sumTo len rows i + k * o.boxSize ^ 2 := by
      intro k s' hk hs'
      have hst := h.starts
      unfold newStarts at hst
      rw [if_pos r2] at hst
      have hR := ((relay_ok hst).2 i o rows1[i] hi hi1).start
      obtain ⟨ss2, b1, b2⟩ := hr2
      rw [b1] at hs'
      dsimp only at hs'
      have hl2 := b2.length_eq
      obtain ⟨q1, q2⟩ := List.getElem?_eq_some_iff.mp hs'
      have hb := (List.forall₂_iff_get.mp b2).2 k (by omega) q1
      simp only [List.get_eq_getElem, q2] at hb
      have := hR k (rows1[i].slots[k]'(by omega)) hk (List.getElem?_eq_getElem _)
      rw [hb]
      dsimp only
      rw [this]
      simp only [zero_add]
      rfl
    obtain ⟨s0, c1, c2, c3, c4, c5⟩ := together_obj hst hmem hn
    have hread : ∀ u v : Int, 0 ≤ u → v ≤ len o →
        g.imageSlice (ty ++ "_cutouts") (sumTo len rows i + u) (sumTo len rows i + v) = f.imageSlice (ty ++ "_cutouts") (st o + u) (st o + v) := by
      intro u v hu hv
      unfold Fits.imageSlice
      rw [e1, e2]
      dsimp only
      rw [readSlice_flatten hP hi hu hv]
      unfold piece
      rw [if_pos hn]
      exact readSlice_of_cut pix c3 hu (by omega)
    dsimp only
    rw [p1]
    refine ⟨by unfold Fits.has; rw [e1, e2]; rfl, ?_, ?_⟩
    · intro k s s' hk hks hks'
      rw [hstart k s' hk hks', c5 k s hk hks, add_assoc, add_assoc]
      have hsq : (0 : Int) ≤ o.boxSize ^ 2 := sq_nonneg _
      apply hread
      · positivity
      · unfold len
        have : ((k : Int) + 1) * o.boxSize ^ 2 ≤ o.ncutout.toNat * o.boxSize ^ 2 := mul_le_mul_of_nonneg_right (by omega) hsq
        nlinarith
    · intro s s' hks hks'
      rw [hstart 0 s' (by push_cast; omega) hks', c5 0 s (by push_cast; omega) hks]
      simp only [Nat.cast_zero, zero_mul]
      rw [add_assoc, add_assoc]
      have := hread 0 (0 + o.boxSize * o.boxSize * o.ncutout) (le_refl _) (by
        unfold len; rw [Int.toNat_of_nonneg (by omega)]; apply le_of_eq; ring)
      simpa using this
  · intro hn
    obtain ⟨r1, r2, r3⟩ := rowRanges_some hst hsub (hne hn) h.ranges
    dsimp only
    rw [p1]
    by_cases hfp : f.has "psf" = true
    · have hP := hpsf hfp
      have hq := h.psf_eq
      unfold numberPsf at hq
      rw [if_pos hfp] at hq
      obtain ⟨qs, hqs, hq⟩ := Res.bind_eq_ok.mp hq
      obtain ⟨r', hr', hq⟩ := Res.bind_eq_ok.mp hq
      injection hq with hq
      obtain ⟨d1, d2, d3, d4⟩ := psfRowRanges_some hP hst.fit hsub hrel (hne hn) hqs
      have hp1 : p.1 = r' := by rw [← hq]
      have hp2 : p.2 = some qs := by rw [← hq]
      obtain ⟨pix, e1, e2⟩ := (h.ext_psf r2).2 qs hp2 d2
      rw [d4] at e2
      unfold newPsfStarts at hr'
      rw [if_pos d3, d1] at hr'
      dsimp only at hr'
      rw [← hp1] at hr'
      have hR := (relayPsf_ok hr').2 i _ _ hi1 hi2
      have hsum : ∀ n, sumTo (fun o => psfSum o.slots o.ncutout.toNat) rows1 n = sumTo lenPsf rows n := by
        intro n
        have hrel := hrel
        clear * - hrel
        induction hrel generalizing n with
        | nil => rfl
        | cons e _ ih =>
          cases n with
          | zero => rfl
          | succ n =>
            rw [sumTo_cons, sumTo_cons, ih n, e.sum, e.ncut]
            rfl
      have hPl : ∀ o ∈ rows, ((piece stPsf lenPsf pix o).length : Int) = lenPsf o := by
        intro o ho
        unfold piece
        split
        · rename_i hpos
          obtain ⟨s0, s1, c1, c2, c3, c4, c5, c6, c7, c8⟩ := together_psf hP hst.fit (hsub o ho) hpos
          have := c8 0 s0 (by push_cast; omega) c1
          have hnn : 0 ≤ lenPsf o := by
            obtain ⟨i', hi', rfl⟩ := List.mem_iff_getElem.mp (hsub o ho)
            have := hP.size_nonneg i' 0 _ s0 ⟨List.getElem?_eq_getElem hi', by push_cast; omega, c1⟩
            omega
          rw [cut_length pix c4 (by omega) (c6 pix e1)]; ring
        · rename_i hpos
          unfold lenPsf
          rw [show o.ncutout.toNat = 0 by omega]; simp [psfSum]
      obtain ⟨s0, s1, c1, c2, c3, c4, c5, c6, c7, c8⟩ := together_psf hP hst.fit hmem hn
      refine ⟨by unfold Fits.has; rw [e1, e2]; rfl, fun _ k s s' hk hks hks' => ?_⟩
      have hs' := hR.start k s' (by rw [hsp.ncut]; exact hk) hks'
      rw [hsp.sum, hsum] at hs'
      have hpp : psfPixels m.cat.dtype o s = s.psfRowSize * s.psfColSize := by unfold psfPixels; rw [d1]
      rw [hpp, hs', c7 k s hk hks]
      simp only [zero_add]
      rw [add_assoc, add_assoc]
      obtain ⟨b1, b2⟩ := c8 k s hk hks
      unfold Fits.imageSlice
      rw [e1, e2]
      dsimp only
      rw [readSlice_flatten hPl hi b1 b2]
      unfold piece
      rw [if_pos hn]
      exact readSlice_of_cut pix c4 b1 (by omega)
    · have hq := h.psf_eq
      unfold numberPsf at hq
      rw [if_neg hfp] at hq
      injection hq with hq
      have hg := (h.ext_psf r2).1 (by rw [← hq])
      refine ⟨?_, fun hc => absurd hc hfp⟩
      simp only [Bool.not_eq_true] at hfp
      rw [hfp]
      unfold Fits.has
      rw [hg]
      rfl

end Extract
end Meds

namespace Meds
open Spec

namespace Extract

theorem numberInds_error {t : ObjTable} {ns : List Int} (hh : t.dtype.hasNumber = true) {n : Int} (hn : n ∈ ns) (habs : ∀ o ∈ t.rows, o.number ≠ n) :
    numberInds t ns = .error .assertionError := by
  unfold numberInds
  rw [if_pos hh]
  have : ∀ l : List Int, n ∈ l → mapRes (numberInd t.rows) l = .error .assertionError := by
    intro l
    induction l with
    | nil => intro h; cases h
    | cons x l ih =>
      intro h
      unfold mapRes
      cases hx : numberInd t.rows x with
      | error e => rw [numberInd_error hx]
      | ok j =>
        dsimp only
        obtain ⟨o, e1, e2⟩ := numberInd_ok hx
        have hne : n ≠ x := fun e => habs o (List.mem_of_getElem? e1) (by rw [e2, e])
        rw [ih (by rcases List.mem_cons.mp h with h | h; exact absurd h hne; exact h)]
  exact this ns hn

theorem sameButStarts_number {o o' : ObjRow} (h : SameButStarts o o') : o'.number = o.number := by obtain ⟨ss, e, _⟩ := h; rw [e]

theorem sorted_numbers (ns : List Int) : (ns.insertionSort (· ≤ ·)).Pairwise (· ≤ ·) := List.pairwise_insertionSort _ _

/-- **C21** Extraction by number, whichever order fitsio returns rows in (`sorts`): the new file opens with the same columns, image info and metadata; its rows
have exactly the numbers asked for; row `i` is the row `inds[i]` of the input, with different `inds[i]` for different `i`, and the same object for every
reader call of the types image, weight, seg and bmask and for the PSF, all other catalogue columns being unchanged.  The rows come in increasing number order
if fitsio keeps the order asked for, or if the file is in number order. -/
theorem C21_numbers_preserve_objects {sorts : Bool} {f g : Fits} {m : MEDS} {numbers : List Int} (ho : MEDS.openFile f = .ok m)
    (hst : CutoutsTogether f m.cat.rows) (hpsf : f.has "psf" = true → PsfTogether f m.cat)
    (hx : extractNumbers sorts f numbers = .ok g) :
    ∃ (mg : MEDS) (inds : List Nat), MEDS.openFile g = .ok mg ∧ mg.cat.dtype = m.cat.dtype ∧ mg.info = m.info ∧ mg.metaData = m.metaData ∧
      mg.size = numbers.length ∧ inds.length = mg.size ∧ inds.Nodup ∧ (mg.cat.rows.map (·.number)).Perm numbers ∧
      (∀ i j : Nat, inds[i]? = some j → SameView ["image", "weight", "seg", "bmask"] mg i m j ∧
        ∃ o o', m.cat.rows[j]? = some o ∧ mg.cat.rows[i]? = some o' ∧ SameButStarts o o') ∧
      (sorts = false ∨ (m.cat.rows.map (·.number)).Pairwise (· < ·) → (mg.cat.rows.map (·.number)).Pairwise (· ≤ ·)) := by
  unfold extractNumbers at hx
  split at hx
  swap
  · cases hx
  rename_i hnd
  split at hx
  · cases hx
  obtain ⟨t, inds, rows, rs, rows1, p, info, md, cuts, h⟩ := numbered_iff.mp hx
  obtain ⟨p1, p2, p3, p4⟩ := opened_parts ho
  have htc : t = m.cat := by have := h.objects; rw [p2] at this; simpa using this.symm
  subst htc
  obtain ⟨a1, a2, a3⟩ := numberInds_ok h.inds_eq
  obtain ⟨inds', b1, b2, b3, b4, b5, b6⟩ := takeRows_ok h.rows_eq
  obtain ⟨_, hlen⟩ := h.rows_rel
  have hsub : ∀ o ∈ rows, o ∈ m.cat.rows := by
    intro o hm
    obtain ⟨i, hil, rfl⟩ := List.mem_iff_getElem.mp hm
    obtain ⟨o, c1, c2⟩ := b5 i (inds'[i]'(by omega)) (List.getElem?_eq_getElem _)
    rw [List.getElem?_eq_getElem hil] at c1
    injection c1 with c1
    rw [c1]
    exact List.mem_of_getElem? c2
  have htw : ∀ i j : Nat, inds'[i]? = some j → ∃ o o', Twin numberTypes m j o { fits := g, cat := { m.cat with rows := p.1 }, info := info, metaData := md } i o' := by
    intro i j hj
    obtain ⟨o, c1, c2⟩ := b5 i j hj
    obtain ⟨o', tw⟩ := twin_number h ho hst hpsf hsub c1 c2
    exact ⟨o, o', tw⟩
  have hnum : p.1.map (·.number) = rows.map (·.number) := by
    apply List.ext_getElem
    · simp [hlen]
    · intro i h1 h2
      simp only [List.length_map] at h1 h2
      simp only [List.getElem_map]
      obtain ⟨o, c1, c2⟩ := b5 i (inds'[i]'(by omega)) (List.getElem?_eq_getElem _)
      obtain ⟨o', tw⟩ := twin_number h ho hst hpsf hsub c1 c2
      have e := tw.row'
      dsimp only at e
      rw [List.getElem?_eq_getElem h1] at e
      injection e with e
      rw [List.getElem?_eq_getElem h2] at c1
      injection c1 with c1
      rw [e, c1]
      exact sameButStarts_number tw.same
  have hperm : (rows.map (·.number)).Perm numbers := by
    rw [b6]
    refine (b1.map _).trans ?_
    rw [a2]
    exact List.perm_insertionSort _ _
  refine ⟨_, inds', h.opens, rfl, ?_, ?_, ?_, ?_, ?_, ?_, ?_, ?_⟩
  · have := h.info_eq; rw [p3] at this; simpa using this.symm
  · have := h.md_eq; rw [p4] at this; simpa using this.symm
  · have := hperm.length_eq
    simpa [MEDS.size, hlen] using this
  · simp [MEDS.size, hlen, b4]
  · have : (inds'.map (numAt m.cat.rows)).Nodup := by rw [← b6]; exact hperm.nodup_iff.mpr hnd
    exact List.Nodup.of_map _ this
  · dsimp only; rw [hnum]; exact hperm
  · intro i j hj
    obtain ⟨o, o', tw⟩ := htw i j hj
    exact ⟨tw.sameView.symm, o, o', tw.row, tw.row', tw.same⟩
  · intro hs
    dsimp only
    rw [hnum, b6]
    by_cases hso : sorts = false
    · rw [b2 hso, a2]
      exact sorted_numbers _
    · have hmono := hs.resolve_left hso
      have hp := b3 (by simpa using hso)
      rw [List.pairwise_map]
      refine List.Pairwise.imp_of_mem ?_ hp
      intro i j hi hj hij
      have hi' := a3 i (b1.mem_iff.mp hi)
      have hj' := a3 j (b1.mem_iff.mp hj)
      unfold numAt
      rw [List.getElem?_eq_getElem hi', List.getElem?_eq_getElem hj']
      dsimp only
      rcases Nat.lt_or_ge i j with hlt | hge
      · have := List.pairwise_iff_getElem.mp hmono i j (by simpa using hi') (by simpa using hj') hlt
        simp only [List.getElem_map] at this
        omega
      · have : i = j := by omega
        subst this; exact le_refl _

/-- **C22** A number that no row has: AssertionError, and nothing is written (the numbers are looked up before the first write).  A file that does not open
or has no `number` column fails as well. -/
theorem C22_unknown_number_rejected {sorts : Bool} {f : Fits} {m : MEDS} {numbers : List Int} (ho : MEDS.openFile f = .ok m)
    (hh : m.cat.dtype.hasNumber = true) {n : Int} (hn : n ∈ numbers) (habs : ∀ o ∈ m.cat.rows, o.number ≠ n) :
    extractNumbers sorts f numbers = .error .assertionError := by
  obtain ⟨p1, p2, p3, p4⟩ := opened_parts ho
  unfold extractNumbers
  split
  · rw [if_neg (by intro h; rw [List.length_eq_zero_iff] at h; rw [h] at hn; cases hn)]
    unfold byNumber
    rw [objects_ok.mpr p2]
    simp only [Res.ok_bind]
    rw [numberInds_error hh ((List.mem_insertionSort _).mpr hn) habs]
    rfl
  · rfl

/-- **C22** Without a `number` column, or with repeated numbers, or with no number at all, nothing is extracted. -/
theorem C22_bad_request_rejected (sorts : Bool) (f : Fits) (numbers : List Int) :
    (¬ numbers.Nodup → extractNumbers sorts f numbers = .error .assertionError) ∧
    (numbers = [] → extractNumbers sorts f numbers = .error .valueError) ∧
    (∀ m, MEDS.openFile f = .ok m → m.cat.dtype.hasNumber = false → ∀ g, extractNumbers sorts f numbers ≠ .ok g) := by
  refine ⟨?_, ?_, ?_⟩
  · intro h; unfold extractNumbers; rw [if_neg h]
  · intro h; subst h; rfl
  · intro m ho hh g hx
    unfold extractNumbers at hx
    split at hx
    swap
    · cases hx
    split at hx
    · cases hx
    obtain ⟨t, inds, rows, rs, rows1, p, info, md, cuts, h⟩ := numbered_iff.mp hx
    obtain ⟨p1, p2, p3, p4⟩ := opened_parts ho
    have htc : t = m.cat := by have := h.objects; rw [p2] at this; simpa using this.symm
    subst htc
    rw [(numberInds_ok h.inds_eq).1] at hh
    cases hh

/-- **C22** Every row of a file extracted by number has one of the numbers asked for, each number once (no assumption on the storage of the input). -/
theorem C22_rows_have_numbers {sorts : Bool} {f g : Fits} {mg : MEDS} {numbers : List Int} (hx : extractNumbers sorts f numbers = .ok g)
    (hg : MEDS.openFile g = .ok mg) : (mg.cat.rows.map (·.number)).Perm numbers := by
  unfold extractNumbers at hx
  split at hx
  swap
  · cases hx
  split at hx
  · cases hx
  obtain ⟨t, inds, rows, rs, rows1, p, info, md, cuts, h⟩ := numbered_iff.mp hx
  have := h.opens
  rw [hg] at this
  injection this with this
  subst this
  dsimp only
  obtain ⟨a1, a2, a3⟩ := numberInds_ok h.inds_eq
  obtain ⟨inds', b1, b2, b3, b4, b5, b6⟩ := takeRows_ok h.rows_eq
  have e1 : rows1.map (·.number) = rows.map (·.number) := by
    have := h.starts
    unfold newStarts at this
    split at this
    · obtain ⟨l, hr⟩ := relay_ok this
      apply List.ext_getElem (by simp [l])
      intro i h1 h2
      simp only [List.length_map] at h1 h2
      obtain ⟨ss, q1, _⟩ := (hr i _ _ (List.getElem?_eq_getElem h2) (List.getElem?_eq_getElem h1)).rest
      simp only [List.getElem_map]
      rw [q1]
    · injection this with this
      rw [this]
  have e2 : p.1.map (·.number) = rows1.map (·.number) := by
    have := h.psf_eq
    unfold numberPsf at this
    split at this
    · obtain ⟨qs, _, this⟩ := Res.bind_eq_ok.mp this
      obtain ⟨r', h2, this⟩ := Res.bind_eq_ok.mp this
      injection this with this
      subst this
      dsimp only
      unfold newPsfStarts at h2
      split at h2
      · split at h2
        · obtain ⟨l, hr⟩ := relayPsf_ok h2
          apply List.ext_getElem (by simp [l])
          intro i h1 h2
          simp only [List.length_map] at h1 h2
          obtain ⟨ss, q1, _⟩ := (hr i _ _ (List.getElem?_eq_getElem h2) (List.getElem?_eq_getElem h1)).rest
          simp only [List.getElem_map]
          rw [q1]
        · cases h2
        · cases h2
      · injection h2 with h2
        rw [h2]
    · injection this with this
      rw [← this]
  rw [e2, e1, b6]
  refine (b1.map _).trans ?_
  rw [a2]
  exact List.perm_insertionSort _ _

/-- **C22 (limits)** A number that two rows have is reported, unless one of them is row `number - 1`: then that row is taken silently. -/
theorem C22_duplicates_in_file (rows : List ObjRow) (n : Int) {i j : Nat} {o o' : ObjRow} (hij : i ≠ j) (hi : rows[i]? = some o) (hj : rows[j]? = some o')
    (ho : o.number = n) (ho' : o'.number = n) :
    numberInd rows n = if 1 ≤ n ∧ (rows[(n - 1).toNat]?).map (·.number) = some n then .ok (n - 1).toNat else .error .assertionError := by
  have hgi : guess rows n = true ↔ (1 ≤ n ∧ (rows[(n - 1).toNat]?).map (·.number) = some n) := by
    rw [guess_iff]
    simp only [Option.map_eq_some_iff]
  unfold numberInd
  by_cases hg : guess rows n = true
  · rw [if_pos hg, if_pos (hgi.mp hg)]
  · rw [if_neg hg, if_neg (fun h => hg (hgi.mpr h))]
    have m1 : i ∈ whereNumber rows n := whereNumber_mem.mpr ⟨o, hi, ho⟩
    have m2 : j ∈ whereNumber rows n := whereNumber_mem.mpr ⟨o', hj, ho'⟩
    split
    · rename_i k hk
      rw [hk] at m1 m2
      simp only [List.mem_cons, List.not_mem_nil, or_false] at m1 m2
      omega
    · rfl

end Extract

/-! ### Files made by the maker meet the hypotheses -/

section
open Extract Maker
variable {cfg : MakerCfg} {hn : Bool} {objs : List InputObj} {images : List SrcImage} {psf : Option (List PsfModel)}
  {psfInfo : Option String} {md : String} {mk mk' : Maker} {f : Fits} {m : MEDS}

theorem consec_psfSum {l : List Slot} {s e : Int} (h : Consec s (l.map (fun s => (s.psfStartRow, s.psfRowSize * s.psfColSize))) e)
    {k : Nat} {x : Slot} (hk : l[k]? = some x) : x.psfStartRow = s + psfSum l k := by
  induction l generalizing s k with
  | nil => cases hk
  | cons y t ih =>
    obtain ⟨h1, _, h3⟩ := h
    cases k with
    | zero =>
      simp only [List.getElem?_cons_zero, Option.some.injEq] at hk
      subst hk
      rw [psfSum_zero]
      dsimp only at h1
      omega
    | succ k =>
      rw [List.getElem?_cons_succ] at hk
      rw [ih h3 hk, psfSum_cons]
      dsimp only
      ring

theorem psfSum_take (ss : List Slot) {k n : Nat} (h : k ≤ n) : psfSum (ss.take n) k = psfSum ss k := by
  unfold psfSum
  rw [List.take_take, min_eq_left h]

/-- **C21 (hypotheses)** Every file written by the maker with the four extensions that the number extractor reads stores the cutouts of each object together. -/
theorem C21_written_together (hi : Maker.init cfg hn objs images psf psfInfo md = .ok mk) (hw : mk.write = .ok (mk', f))
    (ho : MEDS.openFile f = .ok m) (hty : "weight" ∈ cfg.cutoutTypes ∧ "seg" ∈ cfg.cutoutTypes ∧ "bmask" ∈ cfg.cutoutTypes) :
    CutoutsTogether f m.cat.rows := by
  have hord := C18_written_in_order hi hw ho
  refine ⟨hord.fit, hord.contig, hord.pieces.start_nonneg, ?_⟩
  have key : ∀ t : String, (t = "image" ∨ t ∈ cfg.cutoutTypes) → ∀ pix, f.find (t ++ "_cutouts") = some (.image pix) →
      ∀ i k o s, Epoch m.cat.rows i k o s → s.startRow + o.boxSize ^ 2 ≤ pix.length := by
    intro t ht pix hp i k o s he
    obtain ⟨pix', h1, h2, _⟩ := C03_storage_tiles hi hw ho ht
    rw [(opened_parts ho).1, hp] at h1
    injection h1 with h1
    injection h1 with h1
    rw [h1]
    exact (h2 i k o s he).2
  intro n hnn
  simp only [List.mem_cons, List.not_mem_nil, or_false] at hnn
  rcases hnn with rfl | rfl | rfl | rfl
  · exact key "image" (.inl rfl)
  · exact key "weight" (.inr hty.1)
  · exact key "seg" (.inr hty.2.1)
  · exact key "bmask" (.inr hty.2.2)

/-- **C21 (hypotheses)** ... and the PSFs. -/
theorem C21_written_psf_together (hi : Maker.init cfg hn objs images psf psfInfo md = .ok mk) (hw : mk.write = .ok (mk', f))
    (ho : MEDS.openFile f = .ok m) {ps : List PsfModel} (hps : psf = some ps) (hwf : ∀ p ∈ ps, ∀ sky r c, (p.getRec sky r c).WF) :
    PsfTogether f m.cat := by
  obtain ⟨_, g2, g3, g4⟩ := written_psf hi hw ho hps hwf
  obtain ⟨pix, h0, h1, h2, _⟩ := C11_psf_storage_tiles hi hw ho hps hwf
  have hbox : m.cat.dtype.psfBox = .absent := by
    obtain ⟨in0, w, W, _, hd, _⟩ := written hi hw
    have hdt : m.cat.dtype = mk.dtype := by
      have := W.open
      rw [ho] at this
      injection this with this
      subst this
      exact hd
    rw [hdt, (init_ok hi).2.2.2.2.2.2.1]
  refine ⟨hbox, ?_, fun i k o s he => (h1 i k o s he).1, ?_, ?_⟩
  · intro o hm k s s0 hk hs hs0
    obtain ⟨i, hil, rfl⟩ := List.mem_iff_getElem.mp hm
    have hsplit : m.cat.rows = m.cat.rows.take i ++ m.cat.rows[i] :: m.cat.rows.drop (i + 1) := by simp
    generalize m.cat.rows[i] = o at *
    rw [hsplit] at g3
    unfold psfRegions at g3
    rw [List.flatMap_append, List.flatMap_cons] at g3
    obtain ⟨m1, _, g3⟩ := Consec.sub g3
    obtain ⟨m2, g3, _⟩ := Consec.sub g3
    have hget : ∀ (k : Nat) (s : Slot), (k : Int) < o.ncutout → o.slots[k]? = some s → s.psfStartRow = m1 + psfSum o.slots k := by
      intro k s hk hs
      have := consec_psfSum g3 (k := k) (x := s) (by rw [List.getElem?_take, if_pos (by omega)]; exact hs)
      rwa [psfSum_take _ (by omega)] at this
    rw [hget k s hk hs, hget 0 s0 (by push_cast; omega) hs0, psfSum_zero]
    ring
  · intro i k o s he
    rw [psfRegions_eq_cells] at g3
    exact (Consec.bounds g3 (List.mem_map_of_mem (f := fun c : ObjRow × Slot => (c.2.psfStartRow, c.2.psfRowSize * c.2.psfColSize)) (epoch_mem_cells he))).2.1
  · intro pix' hp i k o s he
    rw [(opened_parts ho).1, hp] at h0
    injection h0 with h0
    injection h0 with h0
    rw [h0]
    exact (h1 i k o s he).2

end

namespace Ex
open Extract

/-- Run an extraction by number and a test on the result. -/
def byNum (sorts : Bool) (f : Fits) (ns : List Int) (test : MEDS → Bool) : Bool :=
  match extractNumbers sorts f ns with
  | .ok g =>
    match MEDS.openFile g with
    | .ok m => test m
    | .error _ => false
  | .error _ => false

theorem file_together : CutoutsTogether file med.cat.rows := by
  obtain ⟨mk, mk', h1, h2⟩ := run_file
  exact C21_written_together h1 h2 open_file (by decide)

theorem file_psf_together : PsfTogether file med.cat := by
  obtain ⟨mk, mk', h1, h2⟩ := run_file
  refine C21_written_psf_together h1 h2 open_file rfl ?_
  intro p hp sky r c
  simp only [psfs, List.mem_cons, List.not_mem_nil, or_false] at hp
  rcases hp with rfl | rfl | rfl <;> simp [psf, Img.WF, Img.ofFn]

-- the numbers in the example file are 11 and 12; number 12 alone, and both in the other order
example : byNum true file [12] (fun mg => decide (mg.size = 1) && decide (mg.getCutout 0 2 "image" = med.getCutout 1 2 "image") &&
    decide (mg.getPsf 0 2 = med.getPsf 1 2) && decide (mg.getNumber 0 = .ok 12)) = true := by decide +kernel
example : byNum false file [12, 11] (fun mg => decide (mg.cat.rows.map (·.number) = [11, 12]) && decide (mg.getMosaic 0 "seg" = med.getMosaic 0 "seg")) = true := by
  decide +kernel
-- an absent number
example : extractNumbers true file [12, 13] = .error .assertionError := by decide +kernel

end Ex
end Meds
