import Verif.Props.NumberExtract
import Verif.Props.Parts

/-!
# C18, C21: extracting only objects without cutouts

The extractors then put two values in place of each kind of pixels: -9999, and 0 for the weights.
-/

namespace Meds
open Spec Extract

/-- The pixels of a file extracted without any cutout: two values per extension, the weights zero, and no PSFs. -/
structure Placeholders (g : Fits) : Prop where
  image : g.find "image_cutouts" = some (.image [-9999, -9999])
  weight : g.find "weight_cutouts" = some (.image [0, 0])
  seg : g.find "seg_cutouts" = some (.image [-9999, -9999])
  bmask : g.find "bmask_cutouts" = some (.image [-9999, -9999])
  psf : g.find "psf" = none

theorem shiftRow_zero (o : ObjRow) : shiftRow 0 0 o = o := by
  cases o
  simp [shiftRow]

/-- **C18 (no cutouts)** Extracting a range none of whose objects has a cutout gives a file with the rows of the catalogue unchanged and placeholders for the
pixels. -/
theorem C18_no_cutouts {f g : Fits} {m mg : MEDS} {a b : Int} {copyAll : Bool} (ho : MEDS.openFile f = .ok m)
    (hno : ∀ (i : Nat) (o : ObjRow), a ≤ i → i ≤ b → m.cat.rows[i]? = some o → o.ncutout ≤ 0)
    (hx : extractRange f a b copyAll = .ok g) (hg : MEDS.openFile g = .ok mg) :
    Placeholders g ∧ mg.cat.rows = (m.cat.rows.take (b + 1).toNat).drop a.toNat := by
  obtain ⟨t, rows, r, psf, info, md, cuts, h⟩ := ranged_iff.mp hx
  obtain ⟨p1, p2, p3, p4⟩ := opened_parts ho
  have htc : t = m.cat := by have := h.objects; rw [p2] at this; simpa using this.symm
  subst htc
  have hop := h.opens
  rw [hg] at hop
  injection hop with hop
  subst hop
  have hin := h.inside
  have hw : withCutouts rows = [] := by
    refine withCutouts_nil.mpr fun o hm => ?_
    obtain ⟨i, hi⟩ := List.mem_iff_getElem?.mp hm
    rw [h.rows_eq, List.getElem?_drop, List.getElem?_take] at hi
    split at hi
    · exact hno (a.toNat + i) o (by push_cast; omega) (by push_cast; omega) hi
    · cases hi
  have hr : r = (-1, -1) := by
    have := h.range
    unfold rowRange at this
    rw [hw] at this
    injection this with this
    exact this.symm
  have hq : effPsf psf = 0 := by
    have := h.psf_eq
    unfold psfRange psfRowRange at this
    rw [hw] at this
    split at this <;> injection this with this <;> rw [← this] <;> rfl
  have hc := h.cuts_eq
  unfold rangeCutouts at hc
  rw [hr, if_pos rfl] at hc
  injection hc with hc
  have hf : ∀ n ∈ ["image_cutouts", "weight_cutouts", "seg_cutouts", "bmask_cutouts", "psf"], g.find n = Fits.lookup dummyHdus n := by
    intro n hn
    rw [hc]
    simp only [List.mem_cons, List.not_mem_nil, or_false] at hn
    rcases hn with rfl | rfl | rfl | rfl | rfl <;> exact h.find_ext (by decide) (by decide) (by decide) (.inl (by decide))
  refine ⟨⟨?_, ?_, ?_, ?_, ?_⟩, ?_⟩
  · rw [hf _ (by decide)]; rfl
  · rw [hf _ (by decide)]; rfl
  · rw [hf _ (by decide)]; rfl
  · rw [hf _ (by decide)]; rfl
  · rw [hf _ (by decide)]; rfl
  · dsimp only
    rw [hr, hq, ← h.rows_eq, show eff (-1) = 0 from rfl]
    rw [show shiftRow 0 0 = id from funext shiftRow_zero, List.map_id]

/-- **C21 (no cutouts)** Extracting numbers none of whose objects has a cutout gives a file with unchanged rows of the catalogue and placeholders for the
pixels. -/
theorem C21_no_cutouts {sorts : Bool} {f g : Fits} {m mg : MEDS} {numbers : List Int} (ho : MEDS.openFile f = .ok m)
    (hno : ∀ o ∈ m.cat.rows, o.number ∈ numbers → o.ncutout ≤ 0)
    (hx : extractNumbers sorts f numbers = .ok g) (hg : MEDS.openFile g = .ok mg) :
    Placeholders g ∧ ∀ o ∈ mg.cat.rows, o ∈ m.cat.rows := by
  unfold extractNumbers at hx
  split at hx
  swap
  · cases hx
  split at hx
  · cases hx
  obtain ⟨t, inds, rows, rs, rows1, p, info, md, cuts, h⟩ := numbered_iff.mp hx
  obtain ⟨p1, p2, p3, p4⟩ := opened_parts ho
  have htc : t = m.cat := by have := h.objects; rw [p2] at this; simpa using this.symm
  subst htc
  have hop := h.opens
  rw [hg] at hop
  injection hop with hop
  subst hop
  obtain ⟨a1, a2, a3⟩ := numberInds_ok h.inds_eq
  obtain ⟨inds', b1, b2, b3, b4, b5, b6⟩ := takeRows_ok h.rows_eq
  have hsub : ∀ o ∈ rows, o ∈ m.cat.rows := by
    intro o hm
    have := h.rows_eq
    unfold takeRows at this
    obtain ⟨i, _, hi⟩ := mapRes_mem this hm
    exact List.mem_of_getElem? (pyGet_ok_nonneg hi (by omega))
  have hnum : ∀ o ∈ rows, o.number ∈ numbers := by
    intro o hm
    have hperm : (rows.map (·.number)).Perm numbers := by
      rw [b6]
      refine (b1.map _).trans ?_
      rw [a2]
      exact List.perm_insertionSort _ _
    exact hperm.mem_iff.mp (List.mem_map_of_mem hm)
  have hw : withCutouts rows = [] := withCutouts_nil.mpr fun o hm => hno o (hsub o hm) (hnum o hm)
  have hr : rs = [(-1, -1)] := by
    have := h.ranges
    unfold rowRanges at this
    rw [hw] at this
    injection this with this
    exact this.symm
  subst hr
  have h1 : rows1 = rows := by
    have := h.starts
    unfold newStarts at this
    rw [if_neg (by simp [firstStart])] at this
    injection this with this
    exact this.symm
  subst h1
  have h2 : p.1 = rows1 := by
    have := h.psf_eq
    unfold numberPsf at this
    split at this
    · unfold psfRowRanges at this
      rw [hw] at this
      simp only [Res.ok_bind] at this
      unfold newPsfStarts at this
      rw [if_neg (by simp [firstStart])] at this
      injection this with this
      rw [← this]
    · injection this with this
      rw [← this]
  have hc := h.cuts_eq
  unfold numberCutouts at hc
  rw [if_pos (show firstStart [(-1, -1)] = -1 from rfl)] at hc
  injection hc with hc
  have hf : ∀ n ∈ ["image_cutouts", "weight_cutouts", "seg_cutouts", "bmask_cutouts", "psf"], g.find n = Fits.lookup dummyHdus n := by
    intro n hn
    rw [hc]
    simp only [List.mem_cons, List.not_mem_nil, or_false] at hn
    rcases hn with rfl | rfl | rfl | rfl | rfl <;> exact h.find_ext (by decide) (by decide) (by decide)
  refine ⟨⟨?_, ?_, ?_, ?_, ?_⟩, ?_⟩
  · rw [hf _ (by decide)]; rfl
  · rw [hf _ (by decide)]; rfl
  · rw [hf _ (by decide)]; rfl
  · rw [hf _ (by decide)]; rfl
  · rw [hf _ (by decide)]; rfl
  · dsimp only
    rw [h2]
    exact hsub

/-- The second object of three, with number 13, has no cutout: extracted alone, two zero weights stand for its pixels. -/
example : ((MEDS.openFile Ex.threeFile).toOption.map (fun m => m.cat.rows.map (fun o => (o.ncutout, o.number)))) = some [(2, 11), (0, 13), (3, 12)] ∧
    (extractRange Ex.threeFile 1 1 true).toOption.bind (fun g => g.find "weight_cutouts") = some (.image [0, 0]) ∧
    (extractNumbers true Ex.threeFile [13]).toOption.bind (fun g => g.find "weight_cutouts") = some (.image [0, 0]) ∧
    (extractRange Ex.threeFile 1 1 true).toOption.map (fun g => g.has "psf") = some false := by decide +kernel

end Meds
