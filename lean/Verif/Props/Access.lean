import Verif.Props.MakerLayout
import Verif.Lemmas.Reader

/-!
# Index checks and accessor agreement of the Python reader (C17, C52)

These theorems hold for every open file, whoever wrote it.
-/

namespace Meds
open Spec

/-- The object index and the epoch index are in range: what the documentation of the accessors asks for. -/
def Spec.ValidEpoch (m : MEDS) (i k : Int) : Prop :=
  0 ≤ i ∧ i < m.size ∧ 0 ≤ k ∧ ∃ o, m.cat.rows[i.toNat]? = some o ∧ k < o.ncutout

theorem row_nonneg {m : MEDS} {i : Int} (hi : 0 ≤ i) (hs : i < m.size) : ∃ o, m.cat.rows[i.toNat]? = some o ∧ m.row i = .ok o := by
  obtain ⟨n, rfl⟩ := Int.eq_ofNat_of_zero_le hi
  have hn : n < m.cat.rows.length := by unfold MEDS.size at hs; omega
  exact ⟨m.cat.rows[n], by simp [hn], pyGet_nat hn⟩

theorem checkIndices_valid {m : MEDS} {i k : Int} (hi : 0 ≤ i) (hk : 0 ≤ k) :
    (ValidEpoch m i k → m.checkIndices i (some k) = .ok ()) ∧ (¬ ValidEpoch m i k → m.checkIndices i (some k) = .error .valueError) := by
  unfold MEDS.checkIndices
  by_cases hs : (m.size : Int) ≤ i
  · rw [if_pos hs]
    exact ⟨fun h => absurd h.2.1 (by omega), fun _ => rfl⟩
  · rw [if_neg hs]
    obtain ⟨o, h1, h2⟩ := row_nonneg (m := m) hi (by omega)
    rw [h2]
    simp only [Res.ok_bind]
    constructor
    · rintro ⟨_, _, _, o', h3, h4⟩
      rw [h1] at h3
      injection h3 with h3
      subst h3
      rw [if_neg (by omega), if_neg (by omega)]
    · intro hn
      split
      · rfl
      · rw [if_pos]
        by_contra hlt
        exact hn ⟨hi, by omega, hk, o, h1, by omega⟩

/-- **C17** (as far as it holds) For non-negative indices the accessors return data only for valid pairs and raise ValueError for all others. -/
theorem C17_bad_indices_rejected_partial {m : MEDS} {i k : Int} (hi : 0 ≤ i) (hk : 0 ≤ k) (hbad : ¬ ValidEpoch m i k) (t : String) :
    m.getCutout i k t = .error .valueError ∧ m.getPsf i k = .error .valueError ∧ m.getJacobian i k = .error .valueError ∧
    m.getSourceInfo i k = .error .valueError ∧ m.getSourcePath i k = .error .valueError := by
  have hc := (checkIndices_valid (m := m) hi hk).2 hbad
  have hpsf : m.getPsf i k = .error .valueError := by
    unfold MEDS.getPsf
    split
    · rw [hc]; rfl
    · rfl
  refine ⟨?_, hpsf, ?_, ?_, ?_⟩
  · unfold MEDS.getCutout
    split
    · exact hpsf
    · rw [hc]; rfl
  · unfold MEDS.getJacobian; rw [hc]; rfl
  · unfold MEDS.getSourceInfo; rw [hc]; rfl
  · unfold MEDS.getSourcePath MEDS.getSourceInfo; rw [hc]; rfl

/-- **C17** for the accessors of a whole object: a non-negative index is rejected with ValueError unless the object exists and has a cutout. -/
theorem C17_bad_object_rejected_partial {m : MEDS} {i : Int} (hi : 0 ≤ i) (t : String)
    (hbad : ∀ o, m.cat.rows[i.toNat]? = some o → o.ncutout = 0) :
    m.getMosaic i t = .error .valueError ∧ m.getJacobianList i = .error .valueError ∧
    (t ≠ "psf" → m.getCutoutList i t = .error .valueError) := by
  have hc : m.checkIndices i none = .error .valueError := by
    unfold MEDS.checkIndices
    by_cases hs : (m.size : Int) ≤ i
    · rw [if_pos hs]
    · rw [if_neg hs]
      obtain ⟨o, h1, h2⟩ := row_nonneg (m := m) hi (by omega)
      rw [h2]
      simp only [Res.ok_bind]
      rw [if_pos (hbad o h1)]
  have hm : m.getMosaic i t = .error .valueError := by
    unfold MEDS.getMosaic; rw [hc]; rfl
  refine ⟨hm, ?_, ?_⟩
  · unfold MEDS.getJacobianList; rw [hc]; rfl
  · intro ht
    unfold MEDS.getCutoutList
    rw [if_neg ht, hm]
    rfl

theorem pyGet_wrap {α : Type} {l : List α} {j : Nat} (h1 : 1 ≤ j) (h2 : j ≤ l.length) : pyGet l (-(j : Int)) = pyGet l ((l.length - j : Nat) : Int) := by
  have e : pyIndex l.length (-(j : Int)) = pyIndex l.length ((l.length - j : Nat) : Int) := by
    rw [pyIndex_nat (by omega)]
    unfold pyIndex
    rw [if_neg (by omega), if_pos (by omega)]
    congr 1
    omega
  unfold pyGet
  rw [e]

/-- **C17** (what really happens) A negative object index down to `-size` is taken as counting from the end, in every accessor: the index is not rejected. -/
theorem C17_negative_object_wraps {m : MEDS} {j : Nat} (h1 : 1 ≤ j) (h2 : j ≤ m.size) (k : Int) (t : String) :
    m.getCutout (-(j : Int)) k t = m.getCutout ((m.size - j : Nat) : Int) k t ∧
    m.getPsf (-(j : Int)) k = m.getPsf ((m.size - j : Nat) : Int) k ∧
    m.getMosaic (-(j : Int)) t = m.getMosaic ((m.size - j : Nat) : Int) t := by
  have hrow : m.row (-(j : Int)) = m.row ((m.size - j : Nat) : Int) := pyGet_wrap h1 h2
  have hslot : ∀ k, m.slot (-(j : Int)) k = m.slot ((m.size - j : Nat) : Int) k := by
    intro k; unfold MEDS.slot; rw [hrow]
  have hcheck : ∀ k, m.checkIndices (-(j : Int)) k = m.checkIndices ((m.size - j : Nat) : Int) k := by
    intro k
    unfold MEDS.checkIndices
    rw [if_neg (by omega), if_neg (by omega), hrow]
  have hshape : m.psfShape (-(j : Int)) k = m.psfShape ((m.size - j : Nat) : Int) k := by
    unfold MEDS.psfShape; rw [hslot, hrow]
  have hpsf : m.getPsf (-(j : Int)) k = m.getPsf ((m.size - j : Nat) : Int) k := by
    unfold MEDS.getPsf; rw [hcheck, hslot, hshape]
  refine ⟨?_, hpsf, ?_⟩
  · unfold MEDS.getCutout
    rw [hpsf, hcheck, hrow, hslot]
  · unfold MEDS.getMosaic
    rw [hcheck, hrow, hslot]

/-- Below `-size` the accessors raise IndexError, not the documented ValueError. -/
theorem C17_far_negative_index_error {m : MEDS} {i : Int} (h : i < -(m.size : Int)) (k : Int) (t : String) (ht : t ≠ "psf") :
    m.getCutout i k t = .error .indexError := by
  have hrow : m.row i = .error .indexError := by
    unfold MEDS.row pyGet pyIndex
    unfold MEDS.size at h
    rw [if_neg (by omega), if_neg (by omega)]
  unfold MEDS.getCutout MEDS.checkIndices
  rw [if_neg ht, if_neg (by omega), hrow]
  rfl

/-- **C17** (what really happens) A negative cutout index counts from the end of the per-epoch columns, not of the object's cutouts.  With columns `w` wide,
`-j` is epoch `w - j` if the object has that epoch; otherwise the unused entry `w - j` is taken as if it were an epoch, and no accessor complains about the index:
`get_source_info` then looks up the unset file number, `get_jacobian` returns the unset values. -/
theorem C17_negative_cutout_wraps {m : MEDS} {i : Int} {o : ObjRow} {j : Nat} (ho : m.row i = .ok o) (hi : i < m.size) (hn : 0 < o.ncutout) (h1 : 1 ≤ j)
    (h2 : j ≤ o.slots.length) (t : String) :
    (((o.slots.length - j : Nat) : Int) < o.ncutout →
      m.getCutout i (-(j : Int)) t = m.getCutout i ((o.slots.length - j : Nat) : Int) t ∧ m.getPsf i (-(j : Int)) = m.getPsf i ((o.slots.length - j : Nat) : Int) ∧
      m.getJacobian i (-(j : Int)) = m.getJacobian i ((o.slots.length - j : Nat) : Int) ∧
      m.getSourceInfo i (-(j : Int)) = m.getSourceInfo i ((o.slots.length - j : Nat) : Int)) ∧
    ∃ s, o.slots[o.slots.length - j]? = some s ∧ m.getSourceInfo i (-(j : Int)) = pyGet m.info s.fileId ∧
      m.getJacobian i (-(j : Int)) = .ok ⟨s.cutoutRow, s.cutoutCol, s.dudrow, s.dudcol, s.dvdrow, s.dvdcol⟩ ∧
      (t ≠ "psf" → ∀ im, m.getCutout i (-(j : Int)) t = .ok im →
        ∃ pix, m.fits.imageSlice (t ++ "_cutouts") s.startRow (s.startRow + o.boxSize * o.boxSize) = .ok pix ∧ im.flat = pix) := by
  have hs : m.slot i (-(j : Int)) = m.slot i ((o.slots.length - j : Nat) : Int) := by
    unfold MEDS.slot
    rw [ho]
    simp only [Res.ok_bind]
    exact pyGet_wrap h1 h2
  have hck : m.checkIndices i (some (-(j : Int))) = .ok () := by
    unfold MEDS.checkIndices
    rw [if_neg (by omega), ho]
    simp only [Res.ok_bind]
    rw [if_neg (by omega), if_neg (by omega)]
  obtain ⟨s, hs1⟩ : ∃ s, o.slots[o.slots.length - j]? = some s := ⟨_, List.getElem?_eq_getElem (by omega)⟩
  have hs2 : m.slot i (-(j : Int)) = .ok s := by
    rw [hs]
    unfold MEDS.slot
    rw [ho]
    simp only [Res.ok_bind]
    exact pyGet_nat_some hs1
  refine ⟨fun hlt => ?_, s, hs1, ?_, ?_, ?_⟩
  · have hck' : m.checkIndices i (some ((o.slots.length - j : Nat) : Int)) = .ok () := by
      unfold MEDS.checkIndices
      rw [if_neg (by omega), ho]
      simp only [Res.ok_bind]
      rw [if_neg (by omega), if_neg (by omega)]
    have hsh : m.psfShape i (-(j : Int)) = m.psfShape i ((o.slots.length - j : Nat) : Int) := by unfold MEDS.psfShape; rw [hs]
    have hp : m.getPsf i (-(j : Int)) = m.getPsf i ((o.slots.length - j : Nat) : Int) := by unfold MEDS.getPsf; rw [hck, hck', hs, hsh]
    refine ⟨?_, hp, ?_, ?_⟩
    · unfold MEDS.getCutout; rw [hp, hck, hck', hs]
    · unfold MEDS.getJacobian MEDS.getCutoutRowcol; rw [hck, hck', hs]
    · unfold MEDS.getSourceInfo; rw [hck, hck', hs]
  · unfold MEDS.getSourceInfo; rw [hck, hs2]; rfl
  · unfold MEDS.getJacobian MEDS.getCutoutRowcol; rw [hck, hs2]; rfl
  · intro ht im h
    unfold MEDS.getCutout at h
    rw [if_neg ht, hck, ho, hs2] at h
    simp only [Res.ok_bind] at h
    obtain ⟨e, he, hb⟩ := Res.bind_eq_ok.mp h
    obtain ⟨pix, hp, hr⟩ := Res.bind_eq_ok.mp hb
    have : e = t ++ "_cutouts" := by
      unfold MEDS.extensionName at he
      dsimp only at he
      split at he
      · injection he with he; exact he.symm
      · cases he
    subst this
    obtain ⟨_, _, _, rfl⟩ := reshape_ok hr
    exact ⟨pix, hp, rfl⟩

/-- A small file with two objects of two cutouts each. -/
def Ex.twoObjects : Res (Maker × Fits) := Ex.run { Ex.cfg with cutoutTypes := [] } [Ex.obj 1 2 2 2, Ex.obj 2 2 4 4] [Ex.src 5 0 100 1, Ex.src 5 0 200 1] none

/-- The opened file of that run. -/
def Ex.twoObjectsFile : Res MEDS := do
  let r ← Ex.twoObjects
  MEDS.openFile r.2

/-- **C17** is false: get_cutout(-1, -1) of a written file returns pixels. -/
theorem C17_counterexample : ∃ (m : MEDS) (im : Img ℚ), Ex.twoObjectsFile = .ok m ∧
    m.getCutout (-1) (-1) "image" = .ok im ∧ ¬ ValidEpoch m (-1) (-1) := by
  have h : (match Ex.twoObjectsFile with
    | .ok m => decide (m.getCutout (-1) (-1) "image" = .ok ⟨2, 2, [232, 233, 242, 243]⟩)
    | .error _ => false) = true := by decide +kernel
  cases hm : Ex.twoObjectsFile with
  | error e => rw [hm] at h; cases h
  | ok m =>
    rw [hm] at h
    refine ⟨m, _, rfl, of_decide_eq_true h, ?_⟩
    rintro ⟨h, _⟩
    omega

-- the columns of that file are two wide, and its objects have two cutouts: -1 is the second, -2 the first
example : (match Ex.twoObjectsFile with
  | .ok m => decide (m.getCutout 1 (-1) "image" = m.getCutout 1 1 "image") && decide (m.getCutout 1 (-2) "image" = m.getCutout 1 0 "image")
      && (match m.row 1 with
          | .ok o => decide (o.ncutout = 2 ∧ o.slots.length = 2)
          | .error _ => false)
  | .error _ => false) = true := by decide +kernel

-- the valid epochs of that file, and a rejected pair
example : (match Ex.twoObjects with
  | .ok (_, f) =>
    match MEDS.openFile f with
    | .ok m => decide (m.getCutout 1 1 "image" = .ok ⟨2, 2, [232, 233, 242, 243]⟩) && decide (m.getCutout 1 2 "image" = .error .valueError)
        && decide (m.getCutout 2 0 "image" = .error .valueError)
    | _ => false
  | _ => false) = true := by decide +kernel

/-! ### C52 -/

/-- **C52** For every valid epoch of any file, get_jacobian returns the catalogue's derivatives and centre, get_jacobian_matrix the same derivatives. -/
theorem C52_accessors_agree {m : MEDS} {i k : Nat} {o : ObjRow} {s : Slot} (he : Epoch m.cat.rows i k o s) :
    ∃ j M, m.getJacobian i k = .ok j ∧ m.getJacobianMatrix i k = .ok M ∧ m.getCutoutRowcol i k = .ok (j.row0, j.col0) ∧
      j.row0 = s.cutoutRow ∧ j.col0 = s.cutoutCol ∧
      j.dudrow = s.dudrow ∧ j.dudcol = s.dudcol ∧ j.dvdrow = s.dvdrow ∧ j.dvdcol = s.dvdcol ∧
      M.a = j.dudrow ∧ M.b = j.dudcol ∧ M.c = j.dvdrow ∧ M.d = j.dvdcol := by
  have hs := MEDS.Epoch.slot he
  have hrc : m.getCutoutRowcol i k = .ok (s.cutoutRow, s.cutoutCol) := by
    unfold MEDS.getCutoutRowcol; rw [hs]; rfl
  refine ⟨⟨s.cutoutRow, s.cutoutCol, s.dudrow, s.dudcol, s.dvdrow, s.dvdcol⟩, ⟨s.dudrow, s.dudcol, s.dvdrow, s.dvdcol⟩, ?_, ?_, hrc,
    rfl, rfl, rfl, rfl, rfl, rfl, rfl, rfl, rfl, rfl⟩
  · unfold MEDS.getJacobian
    rw [MEDS.checkIndices_some he.1 he.2.1]
    simp only [Res.ok_bind]
    rw [hrc]
    simp only [Res.ok_bind]
    rw [hs]
    rfl
  · unfold MEDS.getJacobianMatrix
    rw [hs]; rfl

/-- **C52** get_jacobian_list is the list of get_jacobian over the epochs of the object. -/
theorem C52_list_is_all_epochs {m : MEDS} {i : Nat} {o : ObjRow} (ho : m.cat.rows[i]? = some o) (hpos : 0 < o.ncutout)
    (hw : o.ncutout ≤ o.slots.length) :
    ∃ js, m.getJacobianList i = .ok js ∧ js.length = o.ncutout.toNat ∧ ∀ k : Nat, (k : Int) < o.ncutout → ∃ j, js[k]? = some j ∧ m.getJacobian i k = .ok j := by
  have hall : ∀ k : Nat, (k : Int) < o.ncutout → ∃ j, m.getJacobian i k = .ok j := by
    intro k hk
    have hk' : k < o.slots.length := by omega
    obtain ⟨j, _, hj, _⟩ := C52_accessors_agree (m := m) (i := i) (k := k) (o := o) (s := o.slots[k]) ⟨ho, hk, by simp [hk']⟩
    exact ⟨j, hj⟩
  obtain ⟨js, hjs⟩ := mapRes_of_forall (f := fun k : Nat => m.getJacobian i k) (l := List.range o.ncutout.toNat) (fun k hk => hall k (by
    have := List.mem_range.mp hk; omega))
  refine ⟨js, ?_, by rw [mapRes_length hjs, List.length_range], ?_⟩
  · unfold MEDS.getJacobianList
    rw [MEDS.checkIndices_none ho hpos]
    simp only [Res.ok_bind]
    rw [show m.row (i : Int) = .ok o from pyGet_nat_some ho]
    simp only [Res.ok_bind]
    exact hjs
  · intro k hk
    exact mapRes_getElem? hjs (x := k) (by rw [List.getElem?_range (by omega)])

-- the hypotheses are met by the standard example
example : Ex.check Ex.cfg Ex.objs Ex.images none (fun m =>
    match m.cat.rows with
    | [a, b] => decide (0 < a.ncutout) && decide (a.ncutout ≤ a.slots.length) && decide (b.ncutout ≤ b.slots.length) &&
        (match m.getJacobianList 1 with | .ok l => l.length = 3 | _ => false)
    | _ => false) = true := by decide +kernel

end Meds
