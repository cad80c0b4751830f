import Verif.Model.Fits

/-! Stacking of images, and the contiguous layout of an object's cutouts. -/

namespace Meds.Spec

/-- Images of width `w` stacked top to bottom. -/
def vstack {α : Type} (w : Nat) (l : List (Img α)) : Img α :=
  { nr := (l.map (·.nr)).sum, nc := w, flat := (l.map (·.flat)).flatten }

/-- The cutouts of an object lie one behind the other. -/
def ObjContig (o : ObjRow) : Prop :=
  ∀ (k : Nat) (s s0 : Slot), (k : Int) < o.ncutout → o.slots[k]? = some s → o.slots[0]? = some s0 →
    s.startRow = s0.startRow + k * o.boxSize ^ 2

/-- The stacked image shows each image at its place: row `r` of image `k` is row `r + (rows of the images above)`. -/
theorem vstack_row {α : Type} {w : Nat} {l1 l2 : List (Img α)} {im : Img α} {r c : Nat} {v : α}
    (hwf : ∀ x ∈ l1, x.WF ∧ x.nc = w) (hn : im.nc = w) (h : im.get? r c = some v) :
    (vstack w (l1 ++ im :: l2)).get? ((l1.map (·.nr)).sum + r) c = some v := by
  have hlen : ((l1.map (·.flat)).flatten).length = (l1.map (·.nr)).sum * w := by
    clear h
    induction l1 with
    | nil => simp
    | cons x xs ih =>
      have h1 := hwf x (by simp)
      simp only [List.map_cons, List.flatten_cons, List.length_append, List.sum_cons]
      rw [ih (fun y hy => hwf y (by simp [hy])), h1.1, h1.2]
      ring
  unfold Img.get? at h ⊢
  split at h
  · rename_i hrc
    have hc : c < w := by rw [← hn]; exact hrc.2
    have hr : (l1.map (·.nr)).sum + r < (vstack w (l1 ++ im :: l2)).nr := by
      simp only [vstack, List.map_append, List.map_cons, List.sum_append, List.sum_cons]
      omega
    rw [if_pos ⟨hr, hc⟩]
    simp only [vstack, List.map_append, List.map_cons, List.flatten_append, List.flatten_cons]
    rw [List.getElem?_append_right (by rw [hlen, Nat.add_mul]; omega)]
    have hlt := (List.getElem?_eq_some_iff.mp h).1
    rw [hn] at h hlt
    have e : ((l1.map (·.nr)).sum + r) * w + c - (l1.map (·.nr)).sum * w = r * w + c := by
      rw [Nat.add_mul]; omega
    rw [hlen, e, List.getElem?_append_left hlt, h]
  · cases h

end Meds.Spec
