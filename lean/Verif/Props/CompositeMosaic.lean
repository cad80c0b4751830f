import Verif.Props.Composite

/-!
# Mosaics and lists of composite images (C27, C28)
-/

namespace Meds
open Spec

theorem mapRes_zipIdx {α β : Type} {f : α × Nat → Res β} {g : Nat → Res β} {l : List α} (h : ∀ k x, l[k]? = some x → f (x, k) = g k) :
    mapRes f l.zipIdx = mapRes g (List.range l.length) := by
  have h1 : mapRes f l.zipIdx = mapRes (fun x => g x.2) l.zipIdx := by
    apply mapRes_congr
    rintro ⟨x, k⟩ hx
    rw [List.mk_mem_zipIdx_iff_getElem?] at hx
    exact h k x hx
  have h2 : ∀ (L : List (α × Nat)), mapRes (fun x => g x.2) L = mapRes g (L.map Prod.snd) := by
    intro L
    induction L with
    | nil => rfl
    | cons x t ih =>
      rw [List.map_cons, mapRes.eq_2, mapRes.eq_2, ih]
  rw [h1, h2, List.zipIdx_map_snd, List.range_eq_range']

theorem vstack_flat_length {b : Nat} {l : List (Img ℚ)} (hl : ∀ im ∈ l, im.nr = b ∧ im.nc = b ∧ im.WF) :
    ((l.map (·.flat)).flatten).length = l.length * (b * b) := by
  induction l with
  | nil => simp
  | cons x t ih =>
    obtain ⟨h1, h2, h3⟩ := hl x (by simp)
    have h3' : x.flat.length = x.nr * x.nc := h3
    rw [List.map_cons, List.flatten_cons, List.length_append, ih (fun y hy => hl y (by simp [hy])), h3', h1, h2, List.length_cons]
    ring

theorem vstack_nr {b : Nat} {l : List (Img ℚ)} (hl : ∀ im ∈ l, im.nr = b ∧ im.nc = b ∧ im.WF) : (vstack b l).nr = l.length * b := by
  show (l.map (·.nr)).sum = _
  induction l with
  | nil => simp
  | cons x t ih =>
    rw [List.map_cons, List.sum_cons, ih (fun y hy => hl y (by simp [hy])), (hl x (by simp)).1, List.length_cons]; ring

namespace MEDS

/-- Working on the parts of a mosaic, in place, is stacking the results for the single parts. -/
theorem mosaic_loop {b : Nat} (hb : 0 < b) {l : List (Img ℚ)} (hl : ∀ im ∈ l, im.nr = b ∧ im.nc = b ∧ im.WF)
    {f : Img ℚ × Nat → Res (Img ℚ)} {g : Nat → Res (Img ℚ)} (hfg : ∀ k x, l[k]? = some x → f (x, k) = g k)
    (hshape : ∀ k x y, l[k]? = some x → f (x, k) = .ok y → y.nr = b ∧ y.nc = b ∧ y.WF) :
    (splitMosaic (vstack b l) >>= fun wl => mapRes f wl.zipIdx >>= fun parts => Except.ok (putBack (vstack b l) parts)) =
      (mapRes g (List.range l.length) >>= fun r => Except.ok (vstack b r)) ∧
    ∀ r, mapRes g (List.range l.length) = .ok r → ∀ im ∈ r, im.nr = b ∧ im.nc = b ∧ im.WF := by
  have hres : ∀ r, mapRes g (List.range l.length) = .ok r → ∀ im ∈ r, im.nr = b ∧ im.nc = b ∧ im.WF := by
    intro r hr im him
    obtain ⟨k, hk, rfl⟩ := List.mem_iff_getElem.mp him
    obtain ⟨k', hk', hg⟩ := mapRes_getElem?_inv hr (List.getElem?_eq_getElem hk)
    have hkl : k < l.length := by
      have := mapRes_length hr
      rw [List.length_range] at this
      omega
    rw [List.getElem?_range hkl] at hk'
    injection hk' with hk'
    subst hk'
    have hx := List.getElem?_eq_getElem hkl
    rw [← hfg k _ hx] at hg
    exact hshape k _ _ hx hg
  refine ⟨?_, hres⟩
  rw [C35_split_inverts_stack hb l hl]
  simp only [Res.ok_bind]
  rw [mapRes_zipIdx hfg]
  cases hr : mapRes g (List.range l.length) with
  | error e => rfl
  | ok r =>
    simp only [Res.ok_bind]
    have hlen : r.length = l.length := by rw [mapRes_length hr, List.length_range]
    have h1 := vstack_flat_length hl
    have h2 := vstack_flat_length (hres r hr)
    congr 1
    have hn1 := vstack_nr hl
    have hn2 := vstack_nr (hres r hr)
    unfold putBack
    dsimp only
    have hd : (vstack b l).flat.drop ((r.map (·.flat)).flatten).length = [] := by
      apply List.drop_of_length_le
      show ((l.map (·.flat)).flatten).length ≤ _
      rw [h1, h2, hlen]
    rw [hd, List.append_nil]
    have e : (vstack b l).nr = (vstack b r).nr := by rw [hn1, hn2, hlen]
    rw [show ({ vstack b l with flat := (r.map (·.flat)).flatten } : Img ℚ) = ⟨(vstack b l).nr, b, (r.map (·.flat)).flatten⟩ from rfl, e]
    rfl

theorem maskBy_shape {r : Bool} {own : ℚ} {labels x y : Img ℚ} (h : maskBy r own labels x = .ok y) :
    y.nr = x.nr ∧ y.nc = x.nc ∧ (x.WF → y.WF) := by
  unfold maskBy at h
  split at h
  · injection h with h
    subst h
    exact ⟨rfl, rfl, fun hw => Img.mapPix_WF hw _⟩
  · cases h

theorem makeComposite_shape {m : MEDS} {i k : Int} {x seg y : Img ℚ} {r : Bool} (h : m.makeComposite i k x seg r = .ok y) :
    y.nr = x.nr ∧ y.nc = x.nc ∧ (x.WF → y.WF) := by
  unfold makeComposite at h
  obtain ⟨_, _, h⟩ := Res.bind_eq_ok.mp h
  obtain ⟨_, _, h⟩ := Res.bind_eq_ok.mp h
  obtain ⟨_, _, h⟩ := Res.bind_eq_ok.mp h
  split at h
  · exact maskBy_shape h
  · obtain ⟨_, _, h⟩ := Res.bind_eq_ok.mp h
    obtain ⟨cj, _, h⟩ := Res.bind_eq_ok.mp h
    cases hc : Mat2.inv cj with
    | error e =>
      rw [hc] at h
      injection h with h
      subst h
      exact ⟨rfl, rfl, fun hw => Img.mapPix_WF hw _⟩
    | ok cji =>
      rw [hc] at h
      dsimp only at h
      obtain ⟨_, _, h⟩ := Res.bind_eq_ok.mp h
      exact maskBy_shape h

theorem interpolateImage_shape {m : MEDS} {i : Int} {j : Mat2} {c : Option (ℚ × ℚ)} {seg y : Img ℚ} (hs : m.getCutout i 0 "seg" = .ok seg)
    (h : m.interpolateImage i j c = .ok y) : y.nr = seg.nr ∧ y.nc = seg.nc ∧ y.WF := by
  unfold interpolateImage at h
  rw [hs] at h; simp only [Res.ok_bind] at h
  obtain ⟨_, _, h⟩ := Res.bind_eq_ok.mp h
  obtain ⟨_, _, h⟩ := Res.bind_eq_ok.mp h
  obtain ⟨_, _, h⟩ := Res.bind_eq_ok.mp h
  obtain ⟨h1, h2, h3, _⟩ := Img.ofFnRes_ok h
  exact ⟨h1, h2, h3⟩

variable {m : MEDS} {i : Nat} {o : ObjRow} {pix : List ℚ} {s0 : Slot}

/-- The stack of the weights, with the facts the loops need. -/
theorem stack_of_cutouts {t : String} (hr : m.cat.rows[i]? = some o)
    (ht : t ≠ "psf") (hf : m.fits.find (t ++ "_cutouts") = some (.image pix)) (hn : 0 < o.ncutout) (hbox : 0 < o.boxSize)
    (hslots : o.ncutout ≤ o.slots.length) (hs0 : o.slots[0]? = some s0) (hpos : 0 ≤ s0.startRow)
    (hfit : s0.startRow + o.boxSize ^ 2 * o.ncutout ≤ pix.length) (hc : ObjContig o) :
    ∃ l, l.length = o.ncutout.toNat ∧ m.getMosaic i t = .ok (vstack o.boxSize.toNat l) ∧
      (∀ (k : Nat) x, l[k]? = some x → m.getCutout i k t = .ok x) ∧ ∀ im ∈ l, im.nr = o.boxSize.toNat ∧ im.nc = o.boxSize.toNat ∧ im.WF := by
  obtain ⟨l, h1, h2, h3, _⟩ := C02_mosaic_is_stack hr ht hf hn hbox hslots hs0 hpos hfit hc
  have hcut : ∀ (k : Nat) x, l[k]? = some x → m.getCutout i k t = .ok x := by
    intro k x hx
    have hk := (List.getElem?_eq_some_iff.mp hx).1
    obtain ⟨c, hc1, hc2⟩ := h2 k (by omega)
    rw [hx] at hc1
    injection hc1 with hc1
    rw [hc1]; exact hc2
  refine ⟨l, by omega, h3, hcut, ?_⟩
  intro im him
  obtain ⟨k, hk, rfl⟩ := List.mem_iff_getElem.mp him
  obtain ⟨o', a1, _, a3, a4, a5⟩ := getCutout_shape ht (hcut k _ (List.getElem?_eq_getElem hk))
  rw [show m.row (i : Int) = .ok o from pyGet_nat_some hr] at a1
  injection a1 with a1
  subst a1
  exact ⟨a3, a4, a5⟩

/-- **C27** For an object whose weights lie one behind the other, `get_cweight_mosaic` is the stack of the `get_cweight_cutout` results
(it raises exactly when one of them does, and the same error). -/
theorem C27_cweight_mosaic_is_stack (hr : m.cat.rows[i]? = some o) (hf : m.fits.find "weight_cutouts" = some (.image pix)) (hn : 0 < o.ncutout)
    (hbox : 0 < o.boxSize) (hslots : o.ncutout ≤ o.slots.length) (hs0 : o.slots[0]? = some s0) (hpos : 0 ≤ s0.startRow)
    (hfit : s0.startRow + o.boxSize ^ 2 * o.ncutout ≤ pix.length) (hc : ObjContig o) (restrict : Bool) :
    m.getCweightMosaic i restrict =
      (mapRes (fun k : Nat => m.getCweightCutout i k restrict) (List.range o.ncutout.toNat) >>= fun l => Except.ok (vstack o.boxSize.toNat l)) ∧
    m.getCweightCutoutList i restrict = mapRes (fun k : Nat => m.getCweightCutout i k restrict) (List.range o.ncutout.toNat) := by
  obtain ⟨l, hlen, hmos, hcut, hl⟩ := stack_of_cutouts (t := "weight") hr (by decide) hf hn hbox hslots hs0 hpos hfit hc
  rw [← hlen]
  have hmain : m.getCweightMosaic i restrict =
      (mapRes (fun k : Nat => m.getCweightCutout i k restrict) (List.range l.length) >>= fun l => Except.ok (vstack o.boxSize.toNat l)) ∧
      ∀ r, mapRes (fun k : Nat => m.getCweightCutout i k restrict) (List.range l.length) = .ok r →
        ∀ im ∈ r, im.nr = o.boxSize.toNat ∧ im.nc = o.boxSize.toNat ∧ im.WF := by
    unfold getCweightMosaic
    rw [hmos]; simp only [Res.ok_bind]
    cases hs : m.getCutout i 0 "seg" with
    | error e =>
      obtain ⟨n, hn'⟩ : ∃ n, l.length = n + 1 := ⟨l.length - 1, by omega⟩
      have hz : mapRes (fun k : Nat => m.getCweightCutout i k restrict) (List.range l.length) = .error e := by
        rw [hn', List.range_succ_eq_map, mapRes.eq_2]
        have h0 : m.getCweightCutout i ((0 : Nat) : Int) restrict = .error e := by
          unfold getCweightCutout
          rw [hcut 0 l[0] (List.getElem?_eq_getElem (by omega)), hs]
          rfl
        rw [h0]
      rw [hz]
      exact ⟨rfl, fun r h => by cases h⟩
    | ok seg =>
      simp only [Res.ok_bind]
      refine mosaic_loop (by omega) hl (f := fun x => m.makeComposite i x.2 x.1 seg restrict) (g := fun k : Nat => m.getCweightCutout i k restrict) ?_ ?_
      · intro k x hx
        unfold getCweightCutout
        rw [hcut k x hx, hs]
        rfl
      · intro k x y hx hy
        obtain ⟨a1, a2, a3⟩ := makeComposite_shape hy
        obtain ⟨b1, b2, b3⟩ := hl x (List.mem_of_getElem? hx)
        exact ⟨by rw [a1, b1], by rw [a2, b2], a3 b3⟩
  refine ⟨hmain.1, ?_⟩
  unfold getCweightCutoutList
  rw [hmain.1]
  cases hz : mapRes (fun k : Nat => m.getCweightCutout i k restrict) (List.range l.length) with
  | error e => rfl
  | ok r =>
    simp only [Res.ok_bind]
    exact C35_split_inverts_stack (by omega) r (hmain.2 r hz)

theorem map_vstack (b : Nat) (l : List (Img ℚ)) (f : ℚ → ℚ) : (vstack b l).map f = vstack b (l.map (·.map f)) := by
  unfold vstack Img.map
  dsimp only
  rw [List.map_flatten, List.map_map, List.map_map, List.map_map]
  rfl

/-- **C27** The same for `get_cseg_mosaic` and `get_cseg_cutout_list`. -/
theorem C27_cseg_mosaic_is_stack (hr : m.cat.rows[i]? = some o) (hf : m.fits.find "seg_cutouts" = some (.image pix)) (hn : 0 < o.ncutout)
    (hbox : 0 < o.boxSize) (hslots : o.ncutout ≤ o.slots.length) (hs0 : o.slots[0]? = some s0) (hpos : 0 ≤ s0.startRow)
    (hfit : s0.startRow + o.boxSize ^ 2 * o.ncutout ≤ pix.length) (hc : ObjContig o) :
    m.getCsegMosaic i =
      (mapRes (fun k : Nat => m.getCsegCutout i k) (List.range o.ncutout.toNat) >>= fun l => Except.ok (vstack o.boxSize.toNat l)) ∧
    m.getCsegCutoutList i = mapRes (fun k : Nat => m.getCsegCutout i k) (List.range o.ncutout.toNat) := by
  obtain ⟨l, hlen, hmos, hcut, hl⟩ := stack_of_cutouts (t := "seg") hr (by decide) hf hn hbox hslots hs0 hpos hfit hc
  rw [← hlen]
  have hnum : ∃ n, m.getNumber i = .ok n := by
    unfold getNumber
    rw [show m.row (i : Int) = .ok o from pyGet_nat_some hr]
    split
    · exact ⟨_, rfl⟩
    · exact ⟨_, rfl⟩
  obtain ⟨n, hnum⟩ := hnum
  have hs : m.getCutout i 0 "seg" = .ok l[0] := hcut 0 _ (List.getElem?_eq_getElem (by omega))
  have hmain : m.getCsegMosaic i =
      (mapRes (fun k : Nat => m.getCsegCutout i k) (List.range l.length) >>= fun l => Except.ok (vstack o.boxSize.toNat l)) ∧
      ∀ r, mapRes (fun k : Nat => m.getCsegCutout i k) (List.range l.length) = .ok r →
        ∀ im ∈ r, im.nr = o.boxSize.toNat ∧ im.nc = o.boxSize.toNat ∧ im.WF := by
    unfold getCsegMosaic
    rw [hmos]; simp only [Res.ok_bind]
    rw [hnum, hs]; simp only [Res.ok_bind]
    rw [map_vstack]
    have hl' : ∀ im ∈ l.map (·.map fun _ => (n : ℚ)), im.nr = o.boxSize.toNat ∧ im.nc = o.boxSize.toNat ∧ im.WF := by
      intro im him
      obtain ⟨x, hx, rfl⟩ := List.mem_map.mp him
      obtain ⟨b1, b2, b3⟩ := hl x hx
      exact ⟨b1, b2, Img.map_WF b3 _⟩
    have := mosaic_loop (b := o.boxSize.toNat) (by omega) hl' (f := fun x => m.makeComposite i x.2 x.1 l[0] false) (g := fun k : Nat => m.getCsegCutout i k) (by
      intro k x hx
      rw [List.getElem?_map] at hx
      obtain ⟨y, hy, rfl⟩ := Option.map_eq_some_iff.mp hx
      unfold getCsegCutout
      rw [hcut k y hy, hnum, hs]
      rfl) (by
      intro k x y hx hy
      obtain ⟨a1, a2, a3⟩ := makeComposite_shape hy
      obtain ⟨b1, b2, b3⟩ := hl' x (List.mem_of_getElem? hx)
      exact ⟨by rw [a1, b1], by rw [a2, b2], a3 b3⟩)
    rw [List.length_map] at this
    exact this
  refine ⟨hmain.1, ?_⟩
  unfold getCsegCutoutList
  rw [hmain.1]
  cases hz : mapRes (fun k : Nat => m.getCsegCutout i k) (List.range l.length) with
  | error e => rfl
  | ok r =>
    simp only [Res.ok_bind]
    exact C35_split_inverts_stack (by omega) r (hmain.2 r hz)

/-- **C28** `interpolate_coadd_seg_mosaic` is the stack of the interpolated seg maps. -/
theorem C28_interpolated_mosaic (hr : m.cat.rows[i]? = some o) (hf : m.fits.find "seg_cutouts" = some (.image pix)) (hn : 0 < o.ncutout)
    (hbox : 0 < o.boxSize) (hslots : o.ncutout ≤ o.slots.length) (hs0 : o.slots[0]? = some s0) (hpos : 0 ≤ s0.startRow)
    (hfit : s0.startRow + o.boxSize ^ 2 * o.ncutout ≤ pix.length) (hc : ObjContig o) :
    m.interpolateCoaddSegMosaic i =
      (mapRes (fun k : Nat => m.interpolateCoaddSeg i k) (List.range o.ncutout.toNat) >>= fun l => Except.ok (vstack o.boxSize.toNat l)) := by
  obtain ⟨l, hlen, hmos, hcut, hl⟩ := stack_of_cutouts (t := "seg") hr (by decide) hf hn hbox hslots hs0 hpos hfit hc
  rw [← hlen]
  have hs : m.getCutout i 0 "seg" = .ok l[0] := hcut 0 _ (List.getElem?_eq_getElem (by omega))
  have h00 : l[0]? = some l[0] := List.getElem?_eq_getElem (by omega)
  unfold interpolateCoaddSegMosaic
  rw [hmos]; simp only [Res.ok_bind]
  refine (mosaic_loop (b := o.boxSize.toNat) (by omega) hl (f := m.interpolatePart i) (g := fun k : Nat => m.interpolateCoaddSeg i k) ?_ ?_).1
  · intro k x hx
    unfold interpolatePart
    dsimp only
    by_cases hk : k = 0
    · subst hk
      rw [if_pos rfl]
      unfold interpolateCoaddSeg
      rw [hs]
      rw [h00] at hx
      injection hx with hx
      rw [hx]
      rfl
    · rw [if_neg hk]
  · intro k x y hx hy
    obtain ⟨b1, b2, b3⟩ := hl _ (List.mem_of_getElem? h00)
    unfold interpolatePart at hy
    dsimp only at hy
    by_cases hk : k = 0
    · rw [if_pos hk] at hy
      injection hy with hy
      rw [← hy]
      exact hl x (List.mem_of_getElem? hx)
    · rw [if_neg hk] at hy
      unfold interpolateCoaddSeg at hy
      rw [hs] at hy; simp only [Res.ok_bind] at hy
      rw [if_neg (by omega)] at hy
      obtain ⟨_, _, hy⟩ := Res.bind_eq_ok.mp hy
      obtain ⟨_, _, hy⟩ := Res.bind_eq_ok.mp hy
      obtain ⟨a1, a2, a3⟩ := interpolateImage_shape hs hy
      exact ⟨by rw [a1, b1], by rw [a2, b2], a3⟩

end MEDS
end Meds
