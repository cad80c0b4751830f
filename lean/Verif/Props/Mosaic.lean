import Verif.Props.RoundTrip
import Verif.Spec.Mosaic

/-!
# Mosaics and lists of cutouts (C02, C35)
-/

namespace Meds
open Spec Maker

theorem flatten_slice {α : Type} {b : Nat} {l : List (List α)} (h : ∀ x ∈ l, x.length = b) {k : Nat} {x : List α} (hx : l[k]? = some x) :
    (l.flatten.take ((k + 1) * b)).drop (k * b) = x := by
  induction l generalizing k with
  | nil => simp at hx
  | cons y ys ih =>
    have hy := h y (by simp)
    cases k with
    | zero =>
      simp only [List.getElem?_cons_zero, Option.some.injEq] at hx
      subst hx
      simp only [zero_add, one_mul, zero_mul, List.drop_zero, List.flatten_cons]
      rw [List.take_append_of_le_length (by omega), List.take_of_length_le (by omega)]
    | succ k =>
      rw [List.getElem?_cons_succ] at hx
      have := ih (fun z hz => h z (by simp [hz])) hx
      rw [List.flatten_cons]
      have e1 : (k + 1 + 1) * b = y.length + (k + 1) * b := by rw [hy]; ring
      have e2 : (k + 1) * b = y.length + k * b := by rw [hy]; ring
      rw [e1, List.take_length_add_append, e2, List.drop_append]
      rw [List.drop_of_length_le (by omega)]
      simpa [e2, hy] using this

/-- **C35** `split_mosaic` undoes the stacking of square images of one (positive) size. -/
theorem C35_split_inverts_stack {α : Type} {b : Nat} (hb : 0 < b) (l : List (Img α)) (hl : ∀ im ∈ l, im.nr = b ∧ im.nc = b ∧ im.WF) :
    splitMosaic (vstack b l) = .ok l := by
  have hsum : (l.map (·.nr)).sum = l.length * b := by
    induction l with
    | nil => simp
    | cons x xs ih =>
      rw [List.map_cons, List.sum_cons, ih (fun y hy => hl y (by simp [hy])), (hl x (by simp)).1, List.length_cons]; ring
  unfold splitMosaic
  dsimp only
  rw [if_neg (by show ¬ b = 0; omega)]
  congr 1
  apply List.ext_getElem?
  intro k
  have hn : (vstack b l).nr / (vstack b l).nc = l.length := by
    show (l.map (·.nr)).sum / b = _
    rw [hsum, Nat.mul_div_cancel _ hb]
  rw [hn, List.getElem?_map]
  by_cases hk : k < l.length
  · rw [List.getElem?_range hk, List.getElem?_eq_getElem hk]
    simp only [Option.map_some, Option.some.injEq]
    have hx := hl l[k] (List.getElem_mem hk)
    have hmin : min ((k + 1) * b) (l.length * b) = (k + 1) * b := Nat.min_eq_left (Nat.mul_le_mul_right b hk)
    unfold Img.rowSlice
    show Img.mk (min ((k + 1) * b) ((l.map (·.nr)).sum) - k * b) b
      ((((l.map (·.flat)).flatten).take (min ((k + 1) * b) ((l.map (·.nr)).sum) * b)).drop (k * b * b)) = l[k]
    rw [hsum, hmin]
    have hf := flatten_slice (l := l.map (·.flat)) (b := b * b) (by
      intro x hx'
      obtain ⟨im, him, rfl⟩ := List.mem_map.mp hx'
      have := hl im him
      have hw : im.flat.length = im.nr * im.nc := this.2.2
      rw [hw, this.1, this.2.1]) (k := k) (x := (l[k]).flat) (by rw [List.getElem?_map, List.getElem?_eq_getElem hk]; rfl)
    rw [show (k + 1) * b * b = (k + 1) * (b * b) by ring, show k * b * b = k * (b * b) by ring, hf]
    have e : (k + 1) * b - k * b = b := by rw [Nat.add_mul]; omega
    rw [e]
    cases hh : l[k] with
    | mk nr nc fl =>
      rw [hh] at hx
      obtain ⟨h1, h2, _⟩ := hx
      simp only at h1 h2
      rw [h1, h2]
  · rw [List.getElem?_eq_none (by simpa using hk), List.getElem?_eq_none (by omega)]
    rfl

example : splitMosaic (⟨4, 2, [1, 2, 3, 4, 5, 6, 7, 8]⟩ : Img ℚ) = .ok [⟨2, 2, [1, 2, 3, 4]⟩, ⟨2, 2, [5, 6, 7, 8]⟩] := by decide +kernel

/-- **C02** (any file) For an object whose cutouts lie one behind the other inside the extension, the mosaic is the stack of the single cutouts
and the list is the list of them. -/
theorem C02_mosaic_is_stack {m : MEDS} {i : Nat} {o : ObjRow} {t : String} {pix : List ℚ} {s0 : Slot} (hr : m.cat.rows[i]? = some o)
    (ht : t ≠ "psf") (hf : m.fits.find (t ++ "_cutouts") = some (.image pix)) (hn : 0 < o.ncutout) (hbox : 0 < o.boxSize)
    (hslots : o.ncutout ≤ o.slots.length) (hs0 : o.slots[0]? = some s0) (hpos : 0 ≤ s0.startRow)
    (hfit : s0.startRow + o.boxSize ^ 2 * o.ncutout ≤ pix.length) (hc : ObjContig o) :
    ∃ l, (l.length : Int) = o.ncutout ∧ (∀ k : Nat, (k : Int) < o.ncutout → ∃ c, l[k]? = some c ∧ m.getCutout i k t = .ok c) ∧
      m.getMosaic i t = .ok (vstack o.boxSize.toNat l) ∧ m.getCutoutList i t = .ok l := by
  obtain ⟨n, hnn⟩ := Int.eq_ofNat_of_zero_le hn.le
  obtain ⟨b, hbb⟩ := Int.eq_ofNat_of_zero_le hbox.le
  obtain ⟨a, haa⟩ := Int.eq_ofNat_of_zero_le hpos
  rw [hnn, hbb, haa] at hfit
  have hfit' : a + b ^ 2 * n ≤ pix.length := by exact_mod_cast hfit
  have hb0 : 0 < b := by omega
  let blk : Nat → List ℚ := fun k => (pix.take (a + k * (b * b) + b * b)).drop (a + k * (b * b))
  have hkb : ∀ k, k < n → a + k * (b * b) + b * b ≤ pix.length := by
    intro k hk
    have : (k + 1) * (b * b) ≤ n * (b * b) := Nat.mul_le_mul_right _ hk
    have e : b ^ 2 * n = n * (b * b) := by ring
    rw [e] at hfit'
    rw [Nat.add_mul, one_mul] at this
    omega
  have hblk : ∀ k, k < n → (blk k).length = b * b := fun k hk => slice_length _ _ _ (hkb k hk)
  let l : List (Img ℚ) := (List.range n).map (fun k => ⟨b, b, blk k⟩)
  have hcut : ∀ k : Nat, k < n → m.getCutout i k t = .ok ⟨b, b, blk k⟩ := by
    intro k hk
    have hkl : k < o.slots.length := by omega
    have he : Epoch m.cat.rows i k o o.slots[k] := ⟨hr, by omega, List.getElem?_eq_getElem hkl⟩
    have hst := hc k _ s0 (by omega) (List.getElem?_eq_getElem hkl) hs0
    rw [haa, hbb] at hst
    have hst' : (o.slots[k]).startRow = ((a + k * (b * b) : Nat) : Int) := by rw [hst]; push_cast; ring
    have := MEDS.getCutout_eq (b := blk k) he ht hf hbox (by rw [hst']; omega) (by rw [hblk k hk, hbb]; push_cast; ring)
      (by rw [hst', hblk k hk]; exact_mod_cast hkb k hk) (by
        intro j hj
        rw [hst', Int.toNat_natCast]
        rw [hblk k hk] at hj
        exact (slice_getElem? _ _ _ _ hj).symm)
    rw [this, hbb]
    rfl
  have hwf : ∀ im ∈ l, im.nr = b ∧ im.nc = b ∧ im.WF := by
    intro im him
    obtain ⟨k, hk, rfl⟩ := List.mem_map.mp him
    exact ⟨rfl, rfl, hblk k (List.mem_range.mp hk)⟩
  have hflat : ∀ j, j ≤ n → ((List.range j).map blk).flatten = (pix.take (a + j * (b * b))).drop a := by
    intro j
    induction j with
    | zero => intro _; simp
    | succ j ih =>
      intro hj
      rw [List.range_succ, List.map_append, List.flatten_append, ih (by omega)]
      simp only [List.map_cons, List.map_nil, List.flatten_cons, List.flatten_nil, List.append_nil]
      have := hkb j (by omega)
      apply List.ext_getElem?
      intro p
      have len1 : ((pix.take (a + j * (b * b))).drop a).length = j * (b * b) := slice_length _ _ _ (by omega)
      have e : a + (j + 1) * (b * b) = a + j * (b * b) + b * b := by ring
      rw [e]
      by_cases hp : p < j * (b * b)
      · rw [List.getElem?_append_left (by omega), slice_getElem? _ _ _ _ hp]
        rw [List.getElem?_drop, List.getElem?_take, if_pos (by omega)]
      · rw [List.getElem?_append_right (by omega), len1]
        by_cases hp2 : p - j * (b * b) < b * b
        · rw [slice_getElem? _ _ _ _ hp2, List.getElem?_drop, List.getElem?_take, if_pos (by omega)]
          congr 1; omega
        · rw [List.getElem?_eq_none (by rw [hblk j (by omega)]; omega)]
          rw [List.getElem?_eq_none (by rw [List.length_drop, List.length_take]; omega)]
  have hsum : (l.map (·.nr)).sum = n * b := by
    show (((List.range n).map (fun k => (⟨b, b, blk k⟩ : Img ℚ))).map (·.nr)).sum = _
    rw [List.map_map]
    have : ((fun x : Img ℚ => x.nr) ∘ fun k => (⟨b, b, blk k⟩ : Img ℚ)) = fun _ => b := rfl
    rw [this]; simp
  have hmos : m.getMosaic i t = .ok (vstack b l) := by
    unfold MEDS.getMosaic
    rw [MEDS.checkIndices_none hr hn]
    simp only [Res.ok_bind]
    rw [show m.row (i : Int) = .ok o from pyGet_nat_some hr]
    simp only [Res.ok_bind]
    have hsl : m.slot (i : Int) 0 = .ok s0 := by
      unfold MEDS.slot
      rw [show m.row (i : Int) = .ok o from pyGet_nat_some hr]
      exact pyGet_nat_some (k := 0) hs0
    rw [hsl, MEDS.extensionName_eq hf]
    simp only [Res.ok_bind]
    have hfl := hflat n le_rfl
    have hlen : (((List.range n).map blk).flatten).length = n * (b * b) := by
      rw [hfl]; exact slice_length _ _ _ (by rw [show n * (b * b) = b ^ 2 * n by ring]; omega)
    rw [MEDS.imageSlice_eq (b := ((List.range n).map blk).flatten) hf hpos
      (by rw [hlen, haa]; push_cast; rw [show (n : Int) * (b * b) = (b : Int) ^ 2 * n by ring]; exact hfit)
      (by rw [hlen, hbb, hnn]; push_cast; ring) (by rw [hbb, hnn]; exact_mod_cast Nat.mul_pos (Nat.mul_pos hb0 hb0) (by omega))
      (by
        intro j hj
        rw [haa, Int.toNat_natCast, hfl]
        rw [hlen] at hj
        rw [slice_getElem? _ _ _ _ hj])]
    simp only [Res.ok_bind]
    rw [hbb, hnn]
    rw [show ((n : Int) * (b : Int)) = ((n * b : Nat) : Int) by push_cast; ring]
    rw [reshape_nat (by rw [hlen]; ring)]
    unfold vstack
    rw [hsum]
    congr 2
    show _ = (((List.range n).map (fun k => (⟨b, b, blk k⟩ : Img ℚ))).map (·.flat)).flatten
    rw [List.map_map]
    rfl
  refine ⟨l, by simp [l, hnn], ?_, ?_, ?_⟩
  · intro k hk
    have hk' : k < n := by omega
    exact ⟨_, by simp [l, hk'], hcut k hk'⟩
  · rw [hmos, hbb]; rfl
  · unfold MEDS.getCutoutList
    rw [if_neg ht, hmos]
    exact C35_split_inverts_stack hb0 l hwf

section
variable {cfg : MakerCfg} {hn : Bool} {objs : List InputObj} {images : List SrcImage} {psf : Option (List PsfModel)}
  {psfInfo : Option String} {md : String} {mk mk' : Maker} {f : Fits} {m : MEDS}

theorem consec_getElem {s e : Int} {l : List (Int × Int)} (h : Consec s l e) {n : Int} (hall : ∀ r ∈ l, r.2 = n) {k : Nat} {r : Int × Int}
    (hr : l[k]? = some r) : r.1 = s + k * n := by
  induction l generalizing s k with
  | nil => simp at hr
  | cons q t ih =>
    obtain ⟨h1, h2, h3⟩ := h
    cases k with
    | zero =>
      simp only [List.getElem?_cons_zero, Option.some.injEq] at hr
      subst hr
      rw [h1]; simp
    | succ k =>
      rw [List.getElem?_cons_succ] at hr
      have := ih h3 (fun r hr => hall r (by simp [hr])) hr
      rw [this, hall q (by simp)]
      push_cast; ring

theorem Consec.sub {s e : Int} {l₁ l₂ : List (Int × Int)} (h : Consec s (l₁ ++ l₂) e) :
    ∃ m, Consec s l₁ m ∧ Consec m l₂ e := by
  induction l₁ generalizing s with
  | nil => exact ⟨s, rfl, h⟩
  | cons q t ih =>
    obtain ⟨m, a, b⟩ := ih h.2.2
    exact ⟨m, ⟨h.1, h.2.1, a⟩, b⟩

/-- The objects of a written file are stored contiguously. -/
theorem written_contig (hi : Maker.init cfg hn objs images psf psfInfo md = .ok mk) (hw : mk.write = .ok (mk', f))
    (ho : MEDS.openFile f = .ok m) {i : Nat} {o : ObjRow} (hr : m.cat.rows[i]? = some o) : ObjContig o := by
  obtain ⟨in0, w, W, rfl, _⟩ := opened_eq hi hw ho
  have hc := W.ready.tiled
  obtain ⟨hil, rfl⟩ := List.getElem?_eq_some_iff.mp (show mk'.objs[i]? = some o from hr)
  have hsplit : mk'.objs = mk'.objs.take i ++ mk'.objs[i] :: mk'.objs.drop (i + 1) := by simp
  rw [hsplit] at hc
  unfold regions at hc
  rw [List.flatMap_append, List.flatMap_cons] at hc
  obtain ⟨m1, _, hc⟩ := Consec.sub hc
  obtain ⟨m2, hc, _⟩ := Consec.sub hc
  intro k s s0 hk hs hs0
  have hget : ∀ (k : Nat) (s : Slot), (k : Int) < (mk'.objs[i]).ncutout → (mk'.objs[i]).slots[k]? = some s →
      s.startRow = m1 + k * ((mk'.objs[i]).boxSize * (mk'.objs[i]).boxSize) := by
    intro k s hk hs
    refine consec_getElem (r := (s.startRow, (mk'.objs[i]).boxSize * (mk'.objs[i]).boxSize)) hc ?_ ?_
    · intro r hr
      obtain ⟨s', _, rfl⟩ := List.mem_map.mp hr
      rfl
    · rw [List.getElem?_map, List.getElem?_take, if_pos (by omega), hs]; rfl
  rw [hget k s hk hs, hget 0 s0 (by push_cast; omega) hs0, sq]
  simp

/-- **C02** For every object with cutouts in a written file, `get_cutout_list` is the list of `get_cutout` and `get_mosaic` is their stack. -/
theorem C02_written_mosaics (hi : Maker.init cfg hn objs images psf psfInfo md = .ok mk) (hw : mk.write = .ok (mk', f))
    (ho : MEDS.openFile f = .ok m) {t : String} (ht : t = "image" ∨ t ∈ cfg.cutoutTypes)
    {i : Nat} {o : ObjRow} (hr : m.cat.rows[i]? = some o) (hpos : 0 < o.ncutout) (hbox : 0 < o.boxSize) :
    ∃ l, (l.length : Int) = o.ncutout ∧ (∀ k : Nat, (k : Int) < o.ncutout → ∃ c, l[k]? = some c ∧ m.getCutout i k t = .ok c) ∧
      m.getMosaic i t = .ok (vstack o.boxSize.toNat l) ∧ m.getCutoutList i t = .ok l := by
  obtain ⟨w, _, hall, _, _⟩ := C09_slots hi hw ho
  obtain ⟨hsl, hn0, hnw⟩ := hall o (List.mem_of_getElem? hr)
  obtain ⟨pix, hf, h1, _, _⟩ := C03_storage_tiles hi hw ho ht
  have hcont := written_contig hi hw ho hr
  have hs0 : o.slots[0]? = some o.slots[0] := List.getElem?_eq_getElem (by omega)
  have hlast : (o.ncutout - 1).toNat < o.slots.length := by omega
  have hsL : o.slots[(o.ncutout - 1).toNat]? = some o.slots[(o.ncutout - 1).toNat] := List.getElem?_eq_getElem hlast
  refine C02_mosaic_is_stack hr (type_ne_psf hi ht) hf hpos hbox (by omega) hs0 (h1 i 0 o _ ⟨hr, by push_cast; omega, hs0⟩).1 ?_ hcont
  have := (h1 i _ o _ ⟨hr, by omega, hsL⟩).2
  rw [hcont _ _ _ (by omega) hsL hs0] at this
  have e : ((o.ncutout - 1).toNat : Int) = o.ncutout - 1 := by omega
  rw [e] at this
  linarith [this, show o.boxSize ^ 2 * o.ncutout = (o.ncutout - 1) * o.boxSize ^ 2 + o.boxSize ^ 2 by ring]

end

example : Ex.check Ex.cfg Ex.objs Ex.images (some Ex.psfs) (fun m =>
    decide (m.getMosaic 1 "image" = .ok ⟨6, 2, [112, 113, 122, 123, 424, 0, 444, 0, 310, 311, 320, 321]⟩) &&
    decide (m.getCutoutList 1 "image" = .ok [⟨2, 2, [112, 113, 122, 123]⟩, ⟨2, 2, [424, 0, 444, 0]⟩, ⟨2, 2, [310, 311, 320, 321]⟩])) = true := by
  decide +kernel

end Meds
