import Verif.Spec.SameView
import Verif.Spec.Stored
import Verif.Lemmas.Reader

/-! Sufficient condition for `SameView`. -/

namespace Meds
open Spec

theorem pyGet_eq_nat {α : Type} (l : List α) (k : Nat) :
    pyGet l (k : Int) = match l[k]? with | some x => .ok x | none => .error .indexError := by
  by_cases h : k < l.length
  · rw [pyGet_nat h, List.getElem?_eq_getElem h]
  · unfold pyGet pyIndex
    rw [if_pos (by omega), if_neg (by omega), List.getElem?_eq_none (by omega)]

/-- What the reader needs to see the same object. -/
structure Twin (types : List String) (m : MEDS) (i : Nat) (o : ObjRow) (m' : MEDS) (j : Nat) (o' : ObjRow) : Prop where
  row : m.cat.rows[i]? = some o
  row' : m'.cat.rows[j]? = some o'
  same : SameButStarts o o'
  dtype : m'.cat.dtype = m.cat.dtype
  info : m'.info = m.info
  ext : ∀ t ∈ types, t ≠ "psf" ∧ (0 < o.ncutout →
    m'.fits.has (t ++ "_cutouts") = m.fits.has (t ++ "_cutouts") ∧
    (∀ (k : Nat) (s s' : Slot), (k : Int) < o.ncutout → o.slots[k]? = some s → o'.slots[k]? = some s' →
      m'.fits.imageSlice (t ++ "_cutouts") s'.startRow (s'.startRow + o.boxSize * o.boxSize)
        = m.fits.imageSlice (t ++ "_cutouts") s.startRow (s.startRow + o.boxSize * o.boxSize)) ∧
    (∀ s s' : Slot, o.slots[0]? = some s → o'.slots[0]? = some s' →
      m'.fits.imageSlice (t ++ "_cutouts") s'.startRow (s'.startRow + o.boxSize * o.boxSize * o.ncutout)
        = m.fits.imageSlice (t ++ "_cutouts") s.startRow (s.startRow + o.boxSize * o.boxSize * o.ncutout)))
  psf : 0 < o.ncutout → m'.fits.has "psf" = m.fits.has "psf" ∧
    (m.fits.has "psf" = true → ∀ (k : Nat) (s s' : Slot), (k : Int) < o.ncutout → o.slots[k]? = some s → o'.slots[k]? = some s' →
      m'.fits.imageSlice "psf" s'.psfStartRow (s'.psfStartRow + psfPixels m.cat.dtype o s)
        = m.fits.imageSlice "psf" s.psfStartRow (s.psfStartRow + psfPixels m.cat.dtype o s))
  nonneg : 0 ≤ o.ncutout

namespace Twin
variable {types : List String} {m m' : MEDS} {i j : Nat} {o o' : ObjRow}

theorem ncut (h : Twin types m i o m' j o') : o'.ncutout = o.ncutout := by obtain ⟨ss, e, _⟩ := h.same; rw [e]
theorem box (h : Twin types m i o m' j o') : o'.boxSize = o.boxSize := by obtain ⟨ss, e, _⟩ := h.same; rw [e]

theorem slots (h : Twin types m i o m' j o') (k : Nat) :
    (o.slots[k]? = none ∧ o'.slots[k]? = none) ∨
    ∃ s s', o.slots[k]? = some s ∧ o'.slots[k]? = some s' ∧ s' = { s with startRow := s'.startRow, psfStartRow := s'.psfStartRow } := by
  obtain ⟨ss, e, hf⟩ := h.same
  rw [e]
  dsimp only
  have hl := hf.length_eq
  by_cases hk : k < o.slots.length
  · right
    have hk' : k < ss.length := by omega
    refine ⟨o.slots[k], ss[k], List.getElem?_eq_getElem hk, List.getElem?_eq_getElem hk', ?_⟩
    exact (List.forall₂_iff_get.mp hf).2 k hk hk'
  · left
    exact ⟨List.getElem?_eq_none (by omega), List.getElem?_eq_none (by omega)⟩

theorem rowEq (h : Twin types m i o m' j o') : m.row i = .ok o ∧ m'.row j = .ok o' := ⟨pyGet_nat_some h.row, pyGet_nat_some h.row'⟩

theorem check (h : Twin types m i o m' j o') (ic : Option Int) : m.checkIndices i ic = m'.checkIndices j ic := by
  have hi := (List.getElem?_eq_some_iff.mp h.row).1
  have hj := (List.getElem?_eq_some_iff.mp h.row').1
  unfold MEDS.checkIndices MEDS.size
  rw [if_neg (by omega), if_neg (by omega), h.rowEq.1, h.rowEq.2]
  simp only [Res.ok_bind, h.ncut]

theorem check_none (h : Twin types m i o m' j o') {k : Nat} (hk : o.ncutout ≤ k) :
    m.checkIndices i (some k) = .error .valueError := by
  have hi := (List.getElem?_eq_some_iff.mp h.row).1
  unfold MEDS.checkIndices MEDS.size
  rw [if_neg (by omega), h.rowEq.1]
  simp only [Res.ok_bind]
  split <;> rfl

theorem check_zero (h : Twin types m i o m' j o') (hk : o.ncutout = 0) : m.checkIndices i none = .error .valueError := by
  have hi := (List.getElem?_eq_some_iff.mp h.row).1
  unfold MEDS.checkIndices MEDS.size
  rw [if_neg (by omega), h.rowEq.1]
  simp only [Res.ok_bind]
  rw [if_pos hk]

theorem slotEq (h : Twin types m i o m' j o') (k : Nat) :
    (m.slot i k = .error .indexError ∧ m'.slot j k = .error .indexError) ∨
    ∃ s s', o.slots[k]? = some s ∧ o'.slots[k]? = some s' ∧ m.slot i k = .ok s ∧ m'.slot j k = .ok s' ∧
      s' = { s with startRow := s'.startRow, psfStartRow := s'.psfStartRow } := by
  unfold MEDS.slot
  rw [h.rowEq.1, h.rowEq.2]
  simp only [Res.ok_bind, pyGet_eq_nat]
  rcases h.slots k with ⟨h1, h2⟩ | ⟨s, s', h1, h2, h3⟩
  · left; rw [h1, h2]; exact ⟨rfl, rfl⟩
  · right; exact ⟨s, s', h1, h2, by rw [h1], by rw [h2], h3⟩

theorem extName (m : MEDS) (t : String) :
    m.extensionName t = if m.fits.has (t ++ "_cutouts") then .ok (t ++ "_cutouts") else .error .valueError := rfl

theorem cutout (h : Twin types m i o m' j o') {t : String} (ht : t ∈ types) (k : Nat) : m.getCutout i k t = m'.getCutout j k t := by
  obtain ⟨h1, h2⟩ := h.ext t ht
  unfold MEDS.getCutout
  rw [if_neg h1, if_neg h1]
  by_cases hk : o.ncutout ≤ k
  · rw [← h.check, h.check_none hk]; rfl
  · rw [← h.check]
    obtain ⟨e1, e2, _⟩ := h2 (by omega)
    cases m.checkIndices i (some k) with
    | error e => rfl
    | ok _ =>
      simp only [Res.ok_bind]
      rw [h.rowEq.1, h.rowEq.2]
      simp only [Res.ok_bind]
      rcases h.slotEq k with ⟨q1, q2⟩ | ⟨s, s', q1, q2, q3, q4, q5⟩
      · rw [q1, q2]; rfl
      · rw [q3, q4]
        simp only [Res.ok_bind, extName, e1]
        split
        · simp only [Res.ok_bind, h.box]
          rw [e2 k s s' (by omega) q1 q2]
        · rfl

theorem mosaic (h : Twin types m i o m' j o') {t : String} (ht : t ∈ types) : m.getMosaic i t = m'.getMosaic j t := by
  obtain ⟨h1, h2⟩ := h.ext t ht
  unfold MEDS.getMosaic
  by_cases hk : o.ncutout = 0
  · rw [← h.check, h.check_zero hk]; rfl
  · rw [← h.check]
    obtain ⟨e1, _, e2⟩ := h2 (by have := h.nonneg; omega)
    cases m.checkIndices i none with
    | error e => rfl
    | ok _ =>
      simp only [Res.ok_bind]
      rw [h.rowEq.1, h.rowEq.2]
      simp only [Res.ok_bind]
      rcases h.slotEq 0 with ⟨q1, q2⟩ | ⟨s, s', q1, q2, q3, q4, q5⟩
      · rw [show (0 : Int) = ((0 : Nat) : Int) from rfl, q1, q2]; rfl
      · rw [show (0 : Int) = ((0 : Nat) : Int) from rfl, q3, q4]
        simp only [Res.ok_bind, extName, e1]
        split
        · simp only [Res.ok_bind, h.box, h.ncut]
          rw [e2 s s' q1 q2]
        · rfl

theorem shape (h : Twin types m i o m' j o') (k : Nat) : m.psfShape i k = m'.psfShape j k ∧
    ∀ sh s, m.psfShape i k = .ok sh → o.slots[k]? = some s → sh.1 * sh.2 = psfPixels m.cat.dtype o s := by
  have hi : ∃ ss, o' = { o with slots := ss } := by obtain ⟨ss, e, _⟩ := h.same; exact ⟨ss, e⟩
  obtain ⟨ss, hi⟩ := hi
  unfold MEDS.psfShape psfPixels
  rw [h.dtype, h.rowEq.1, h.rowEq.2]
  rcases h.slotEq k with ⟨q1, q2⟩ | ⟨s, s', q1, q2, q3, q4, q5⟩
  · rw [q1, q2]
    cases m.cat.dtype.psfRowCol <;> dsimp only
    · cases m.cat.dtype.psfBox <;> dsimp only
      · exact ⟨rfl, fun sh s hh => by cases hh⟩
      · refine ⟨by rw [hi]; rfl, fun sh s hh _ => ?_⟩
        injection hh with hh; subst hh; ring
      · exact ⟨rfl, fun sh s hh => by cases hh⟩
    · refine ⟨by rw [hi]; rfl, fun sh s hh _ => ?_⟩
      injection hh with hh; subst hh; rfl
    · exact ⟨rfl, fun sh s hh => by cases hh⟩
  · rw [q3, q4, q1]
    cases m.cat.dtype.psfRowCol <;> dsimp only
    · cases m.cat.dtype.psfBox <;> dsimp only
      · exact ⟨rfl, fun sh s hh => by cases hh⟩
      · refine ⟨by rw [hi]; rfl, fun sh s hh _ => ?_⟩
        injection hh with hh; subst hh; ring
      · refine ⟨by rw [q5]; rfl, fun sh s hh hs => ?_⟩
        injection hh with hh; subst hh; injection hs with hs; subst hs; ring
    · refine ⟨by rw [hi]; rfl, fun sh s hh _ => ?_⟩
      injection hh with hh; subst hh; rfl
    · refine ⟨by rw [q5]; rfl, fun sh s hh hs => ?_⟩
      injection hh with hh; subst hh; injection hs with hs; subst hs; rfl

theorem psfEq (h : Twin types m i o m' j o') (k : Nat) : m.getPsf i k = m'.getPsf j k := by
  unfold MEDS.getPsf MEDS.hasPsf
  by_cases hk : o.ncutout ≤ k
  · rw [← h.check, h.check_none hk]
    simp only [Res.error_bind, ite_self]
  · obtain ⟨e1, e2⟩ := h.psf (by omega)
    rw [e1, ← h.check]
    cases hp : m.fits.has "psf" with
    | false => rfl
    | true =>
      simp only [if_true]
      cases m.checkIndices i (some k) with
      | error e => rfl
      | ok _ =>
        simp only [Res.ok_bind]
        obtain ⟨a1, a2⟩ := h.shape k
        rw [← a1]
        cases hsh : m.psfShape i k with
        | error e => rfl
        | ok sh =>
          simp only [Res.ok_bind]
          rcases h.slotEq k with ⟨q1, q2⟩ | ⟨s, s', q1, q2, q3, q4, q5⟩
          · rw [q1, q2]; rfl
          · rw [q3, q4]
            simp only [Res.ok_bind]
            rw [a2 sh s hsh q1, e2 hp k s s' (by omega) q1 q2]

theorem sameView (h : Twin types m i o m' j o') : SameView types m i m' j where
  cutout t ht k := h.cutout ht k
  mosaic t ht := h.mosaic ht
  list t ht := by
    unfold MEDS.getCutoutList
    rw [if_neg (h.ext t ht).1, if_neg (h.ext t ht).1, h.mosaic ht]
  psf k := h.psfEq k
  psfList := by
    unfold MEDS.getPsfList
    rw [h.rowEq.1, h.rowEq.2]
    simp only [Res.ok_bind, h.ncut]
    exact mapRes_congr (fun k _ => h.psfEq k)
  source k := by
    unfold MEDS.getSourceInfo
    rw [h.check]
    rcases h.slotEq k with ⟨q1, q2⟩ | ⟨s, s', q1, q2, q3, q4, q5⟩
    · rw [q1, q2]; rfl
    · rw [q3, q4, q5, h.info]; rfl
  path k := by
    unfold MEDS.getSourcePath MEDS.getSourceInfo
    rw [h.check]
    rcases h.slotEq k with ⟨q1, q2⟩ | ⟨s, s', q1, q2, q3, q4, q5⟩
    · rw [q1, q2]; rfl
    · rw [q3, q4, q5, h.info]; rfl
  rowcol k := by
    unfold MEDS.getCutoutRowcol
    rcases h.slotEq k with ⟨q1, q2⟩ | ⟨s, s', q1, q2, q3, q4, q5⟩
    · rw [q1, q2]
    · rw [q3, q4, q5]; rfl
  jacobian k := by
    unfold MEDS.getJacobian MEDS.getCutoutRowcol
    rw [h.check]
    rcases h.slotEq k with ⟨q1, q2⟩ | ⟨s, s', q1, q2, q3, q4, q5⟩
    · rw [q1, q2]
    · rw [q3, q4, q5]; rfl
  matrix k := by
    unfold MEDS.getJacobianMatrix
    rcases h.slotEq k with ⟨q1, q2⟩ | ⟨s, s', q1, q2, q3, q4, q5⟩
    · rw [q1, q2]
    · rw [q3, q4, q5]; rfl

end Twin
end Meds
