import Verif.Model.Reader
import Verif.Spec.Layout
import Verif.Lemmas.Regions

/-! Evaluation of the reader on files whose pixels are known. -/

namespace Meds
namespace MEDS
open Spec

theorem Epoch.row {m : MEDS} {i k : Nat} {o : ObjRow} {s : Slot} (h : Epoch m.cat.rows i k o s) : m.row (i : Int) = .ok o :=
  pyGet_nat_some h.1

theorem Epoch.slot {m : MEDS} {i k : Nat} {o : ObjRow} {s : Slot} (h : Epoch m.cat.rows i k o s) : m.slot (i : Int) (k : Int) = .ok s := by
  unfold MEDS.slot
  rw [pyGet_nat_some h.1 |> (show m.row (i : Int) = .ok o from ·)]
  exact pyGet_nat_some h.2.2

theorem checkIndices_none {m : MEDS} {i : Nat} {o : ObjRow} (h : m.cat.rows[i]? = some o) (hn : 0 < o.ncutout) :
    m.checkIndices (i : Int) none = .ok () := by
  have hi := (List.getElem?_eq_some_iff.mp h).1
  unfold MEDS.checkIndices MEDS.size
  rw [if_neg (by omega), show m.row (i : Int) = .ok o from pyGet_nat_some h]
  simp only [Res.ok_bind]
  rw [if_neg (by omega)]

theorem checkIndices_some {m : MEDS} {i k : Nat} {o : ObjRow} (h : m.cat.rows[i]? = some o) (hn : (k : Int) < o.ncutout) :
    m.checkIndices (i : Int) (some (k : Int)) = .ok () := by
  have hi := (List.getElem?_eq_some_iff.mp h).1
  unfold MEDS.checkIndices MEDS.size
  rw [if_neg (by omega), show m.row (i : Int) = .ok o from pyGet_nat_some h]
  simp only [Res.ok_bind]
  rw [if_neg (by omega), if_neg (by omega)]

theorem imageSlice_eq {f : Fits} {name : String} {pix b : List ℚ} {s n : Int} (hf : f.find name = some (.image pix))
    (hs : 0 ≤ s) (hb : s + b.length ≤ pix.length) (hn : n = b.length) (hpos : 0 < n) (ha : AgreesWith pix s b) :
    f.imageSlice name s (s + n) = .ok b := by
  unfold Fits.imageSlice
  rw [hf]
  dsimp only
  obtain ⟨a, rfl⟩ := Int.eq_ofNat_of_zero_le hs
  rw [hn]
  exact readSlice_eq (by omega) (by omega) (fun j hj => by have := ha j hj; simpa using this)

theorem extensionName_eq {m : MEDS} {t : String} {h : Hdu} (hf : m.fits.find (t ++ "_cutouts") = some h) :
    m.extensionName t = .ok (t ++ "_cutouts") := by
  unfold MEDS.extensionName Fits.has
  dsimp only
  rw [hf]
  rfl

/-- A single cutout is the block of pixels at its start row. -/
theorem getCutout_eq {m : MEDS} {i k : Nat} {o : ObjRow} {s : Slot} {t : String} {pix b : List ℚ}
    (he : Epoch m.cat.rows i k o s) (ht : t ≠ "psf") (hf : m.fits.find (t ++ "_cutouts") = some (.image pix))
    (hbox : 0 < o.boxSize) (hs : 0 ≤ s.startRow) (hlen : (b.length : Int) = o.boxSize * o.boxSize)
    (hfit : s.startRow + b.length ≤ pix.length) (ha : AgreesWith pix s.startRow b) :
    m.getCutout i k t = .ok ⟨o.boxSize.toNat, o.boxSize.toNat, b⟩ := by
  unfold MEDS.getCutout
  rw [if_neg ht, checkIndices_some he.1 he.2.1]
  simp only [Res.ok_bind]
  rw [Epoch.row he, Epoch.slot he, extensionName_eq hf]
  simp only [Res.ok_bind]
  rw [imageSlice_eq hf hs hfit hlen.symm (Int.mul_pos hbox hbox) ha]
  simp only [Res.ok_bind]
  obtain ⟨c, hc⟩ := Int.eq_ofNat_of_zero_le hbox.le
  rw [hc] at hlen ⊢
  simp only [Int.toNat_natCast]
  exact reshape_nat (by exact_mod_cast hlen)

end MEDS
end Meds
