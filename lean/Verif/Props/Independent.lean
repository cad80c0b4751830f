import Verif.Props.Mosaic
import Verif.Props.Access
import Verif.Props.Completion

/-!
# An object's epochs do not depend on the rest of the catalogue (C87)
-/

namespace Meds

namespace Spec

/-- Object `i` of `m` and object `j` of `m'` have the same epochs: as many of them, and every call that names an object and an existing epoch, or the whole object,
gives the same result. -/
structure SameEpochs (types : List String) (m : MEDS) (i : Nat) (m' : MEDS) (j : Nat) : Prop where
  count : ∃ o o', m.cat.rows[i]? = some o ∧ m'.cat.rows[j]? = some o' ∧ o.ncutout = o'.ncutout
  cutout : ∀ t ∈ types, ∀ k : Nat, m.getCutout i k t = m'.getCutout j k t
  mosaic : ∀ t ∈ types, m.getMosaic i t = m'.getMosaic j t
  list : ∀ t ∈ types, m.getCutoutList i t = m'.getCutoutList j t
  source : ∀ k : Nat, m.getSourceInfo i k = m'.getSourceInfo j k
  path : ∀ k : Nat, m.getSourcePath i k = m'.getSourcePath j k
  jacobian : ∀ k : Nat, m.getJacobian i k = m'.getJacobian j k
  jacobianList : m.getJacobianList i = m'.getJacobianList j
  rowcol : ∀ k : Nat, (∃ o, m.cat.rows[i]? = some o ∧ (k : Int) < o.ncutout) → m.getCutoutRowcol i k = m'.getCutoutRowcol j k
  matrix : ∀ k : Nat, (∃ o, m.cat.rows[i]? = some o ∧ (k : Int) < o.ncutout) → m.getJacobianMatrix i k = m'.getJacobianMatrix j k

end Spec

open Spec Maker

section
variable {cfg : MakerCfg} {images : List SrcImage} {psf : Option (List PsfModel)}
  {hn hn' : Bool} {objs objs' : List InputObj} {psfInfo psfInfo' : Option String} {md md' : String}
  {mk₁ mk₁' mk₂ mk₂' : Maker} {f₁ f₂ : Fits} {m₁ m₂ : MEDS}

/-- The geometry of epoch `k` in both files. -/
theorem same_slot (hi₁ : Maker.init cfg hn objs images psf psfInfo md = .ok mk₁) (hw₁ : mk₁.write = .ok (mk₁', f₁)) (ho₁ : MEDS.openFile f₁ = .ok m₁)
    (hi₂ : Maker.init cfg hn' objs' images psf psfInfo' md' = .ok mk₂) (hw₂ : mk₂.write = .ok (mk₂', f₂)) (ho₂ : MEDS.openFile f₂ = .ok m₂)
    {i j : Nat} {o o' : ObjRow} (hr : m₁.cat.rows[i]? = some o) (hr' : m₂.cat.rows[j]? = some o') (hsky : o.sky = o'.sky)
    (hbox : o.boxSize = o'.boxSize) :
    o.ncutout = o'.ncutout ∧ ∀ k : Nat, (k : Int) < o.ncutout → ∃ s s', Epoch m₁.cat.rows i k o s ∧ Epoch m₂.cat.rows j k o' s' ∧ s.fileId = s'.fileId ∧
      s.origRow = s'.origRow ∧ s.origCol = s'.origCol ∧ s.origStartRow = s'.origStartRow ∧ s.origStartCol = s'.origStartCol ∧
      s.cutoutRow = s'.cutoutRow ∧ s.cutoutCol = s'.cutoutCol ∧ s.dudrow = s'.dudrow ∧ s.dudcol = s'.dudcol ∧ s.dvdrow = s'.dvdrow ∧ s.dvdcol = s'.dvdcol := by
  obtain ⟨n1, c1, _, _⟩ := C04_epochs_are_covering_images hi₁ hw₁ ho₁ hr
  obtain ⟨n2, c2, _, _⟩ := C04_epochs_are_covering_images hi₂ hw₂ ho₂ hr'
  have hn : o.ncutout = o'.ncutout := by rw [n1, n2, hsky]
  refine ⟨hn, ?_⟩
  intro k hk
  obtain ⟨s, a, hs, ha, hf⟩ := c1 k hk
  obtain ⟨s', a', hs', ha', hf'⟩ := c2 k (by omega)
  have e1 : Epoch m₁.cat.rows i k o s := ⟨hr, hk, hs⟩
  have e2 : Epoch m₂.cat.rows j k o' s' := ⟨hr', by omega, hs'⟩
  have haa : a = a' := by
    rw [hsky, ha'] at ha; injection ha with ha; exact ha.symm
  obtain ⟨b, im, p1, p2, _, p3, p4, p5, p6, p7, p8, p9⟩ := C06_positions_recorded hi₁ hw₁ ho₁ e1
  obtain ⟨b', im', q1, q2, _, q3, q4, q5, q6, q7, q8, q9⟩ := C06_positions_recorded hi₂ hw₂ ho₂ e2
  have hbb : b = b' := by
    rw [hf] at p1; rw [hf'] at q1; omega
  subst hbb
  rw [p2] at q2; injection q2 with q2; subst q2
  rw [← hsky] at q3 q4 q5 q6 q9
  rw [← hbox] at q5 q6
  rw [← q9] at p9
  simp only [Prod.mk.injEq] at p9
  refine ⟨s, s', e1, e2, by rw [p1, q1], by rw [p3, q3], by rw [p4, q4], by rw [p5, q5], by rw [p6, q6], ?_, ?_, p9.2.1, p9.1, p9.2.2.2, p9.2.2.1⟩
  · rw [p7, q7, p3, q3, p5, q5]
  · rw [p8, q8, p4, q4, p6, q6]

/-- **C87** Two files made with the same settings, images and PSF models, but from different catalogues: objects with the same position (and colour) and the same
box size have the same epochs in both. -/
theorem C87_same_epochs (hi₁ : Maker.init cfg hn objs images psf psfInfo md = .ok mk₁) (hw₁ : mk₁.write = .ok (mk₁', f₁)) (ho₁ : MEDS.openFile f₁ = .ok m₁)
    (hi₂ : Maker.init cfg hn' objs' images psf psfInfo' md' = .ok mk₂) (hw₂ : mk₂.write = .ok (mk₂', f₂)) (ho₂ : MEDS.openFile f₂ = .ok m₂)
    {i j : Nat} {o o' : ObjRow} (hr : m₁.cat.rows[i]? = some o) (hr' : m₂.cat.rows[j]? = some o') (hsky : o.sky = o'.sky)
    (hbox : o.boxSize = o'.boxSize) (hpos : 0 < o.boxSize) :
    SameEpochs ("image" :: cfg.cutoutTypes) m₁ i m₂ j := by
  obtain ⟨hn, hslot⟩ := same_slot hi₁ hw₁ ho₁ hi₂ hw₂ ho₂ hr hr' hsky hbox
  have row1 : m₁.row (i : Int) = .ok o := pyGet_nat_some hr
  have row2 : m₂.row (j : Int) = .ok o' := pyGet_nat_some hr'
  have sl1 : ∀ {k : Nat} {s : Slot}, Epoch m₁.cat.rows i k o s → m₁.slot (i : Int) (k : Int) = .ok s := by
    intro k s h; unfold MEDS.slot; rw [row1]; exact pyGet_nat_some h.2.2
  have sl2 : ∀ {k : Nat} {s : Slot}, Epoch m₂.cat.rows j k o' s → m₂.slot (j : Int) (k : Int) = .ok s := by
    intro k s h; unfold MEDS.slot; rw [row2]; exact pyGet_nat_some h.2.2
  have bad1 : ∀ k : Nat, ¬ (k : Int) < o.ncutout → ¬ ValidEpoch m₁ i k := by
    rintro k hk ⟨_, _, _, x, hx, h⟩
    rw [Int.toNat_natCast, hr] at hx
    injection hx with hx
    subst hx
    exact hk h
  have bad2 : ∀ k : Nat, ¬ (k : Int) < o.ncutout → ¬ ValidEpoch m₂ j k := by
    rintro k hk ⟨_, _, _, x, hx, h⟩
    rw [Int.toNat_natCast, hr'] at hx
    injection hx with hx
    subst hx
    exact hk (by omega)
  have vals : ∀ t : String, t = "image" ∨ t ∈ cfg.cutoutTypes → ∀ k : Nat, m₁.getCutout i k t = m₂.getCutout j k t := by
    intro t ht k
    by_cases hk : (k : Int) < o.ncutout
    · obtain ⟨s, s', e1, e2, hf, _, _, hsr, hsc, _⟩ := hslot k hk
      rw [written_cutout hi₁ hw₁ ho₁ ht e1 hpos, written_cutout hi₂ hw₂ ho₂ ht e2 (by omega), ← hbox]
      have : content cfg images t o s = content cfg images t o' s' := by
        unfold content subImage
        rw [hf, hsr, hsc, hbox]
      rw [this]
    · rw [(C17_bad_indices_rejected_partial (by omega) (by omega) (bad1 k hk) t).1,
        (C17_bad_indices_rejected_partial (by omega) (by omega) (bad2 k hk) t).1]
  have chk : ∀ k : Nat, m₁.checkIndices i (some k) = m₂.checkIndices j (some k) := by
    intro k
    unfold MEDS.checkIndices MEDS.size
    rw [if_neg (by have := (List.getElem?_eq_some_iff.mp hr).1; omega), if_neg (by have := (List.getElem?_eq_some_iff.mp hr').1; omega), row1, row2]
    simp only [Res.ok_bind]
    rw [hn]
  have chkN : m₁.checkIndices i none = m₂.checkIndices j none := by
    unfold MEDS.checkIndices MEDS.size
    rw [if_neg (by have := (List.getElem?_eq_some_iff.mp hr).1; omega), if_neg (by have := (List.getElem?_eq_some_iff.mp hr').1; omega), row1, row2]
    simp only [Res.ok_bind]
    rw [hn]
  have hinfo : m₁.info = m₂.info := by
    obtain ⟨in0, w, W, rfl, _⟩ := opened_eq hi₁ hw₁ ho₁
    obtain ⟨in0', w', W', rfl, _⟩ := opened_eq hi₂ hw₂ ho₂
    show mk₁'.images.map (·.info) = mk₂'.images.map (·.info)
    rw [W.images_eq, W'.images_eq]
  have mos : ∀ t : String, t = "image" ∨ t ∈ cfg.cutoutTypes → m₁.getMosaic i t = m₂.getMosaic j t ∧ m₁.getCutoutList i t = m₂.getCutoutList j t := by
    intro t ht
    by_cases h0 : 0 < o.ncutout
    · obtain ⟨l, a1, a2, a3, a4⟩ := C02_written_mosaics hi₁ hw₁ ho₁ ht hr h0 hpos
      obtain ⟨l', b1, b2, b3, b4⟩ := C02_written_mosaics hi₂ hw₂ ho₂ ht hr' (by omega) (by omega)
      have hll : l = l' := by
        apply List.ext_getElem?
        intro k
        by_cases hk : (k : Int) < o.ncutout
        · obtain ⟨c, c1, c2⟩ := a2 k hk
          obtain ⟨c', d1, d2⟩ := b2 k (by omega)
          rw [c1, d1]
          rw [vals t ht k, d2] at c2
          injection c2 with c2
          rw [c2]
        · rw [List.getElem?_eq_none (by omega), List.getElem?_eq_none (by omega)]
      rw [a3, b3, a4, b4, hll, hbox]
      exact ⟨rfl, rfl⟩
    · have z1 : ∀ x, m₁.cat.rows[(i : Int).toNat]? = some x → x.ncutout = 0 := by
        intro x hx
        rw [Int.toNat_natCast, hr] at hx; injection hx with hx; subst hx
        have := (C04_epochs_are_covering_images hi₁ hw₁ ho₁ hr).1
        omega
      have z2 : ∀ x, m₂.cat.rows[(j : Int).toNat]? = some x → x.ncutout = 0 := by
        intro x hx
        rw [Int.toNat_natCast, hr'] at hx; injection hx with hx; subst hx
        have := (C04_epochs_are_covering_images hi₂ hw₂ ho₂ hr').1
        omega
      obtain ⟨a1, _, a2⟩ := C17_bad_object_rejected_partial (m := m₁) (i := i) (by omega) t z1
      obtain ⟨b1, _, b2⟩ := C17_bad_object_rejected_partial (m := m₂) (i := j) (by omega) t z2
      rw [a1, b1, a2 (type_ne_psf hi₁ ht), b2 (type_ne_psf hi₁ ht)]
      exact ⟨rfl, rfl⟩
  have hrc : ∀ k : Nat, (k : Int) < o.ncutout → m₁.getCutoutRowcol i k = m₂.getCutoutRowcol j k := by
    intro k hk
    obtain ⟨s, s', e1, e2, _, _, _, _, _, h1, h2, _⟩ := hslot k hk
    unfold MEDS.getCutoutRowcol
    rw [sl1 e1, sl2 e2]
    simp only [Res.ok_bind]
    rw [h1, h2]
  have hsrc : ∀ k : Nat, m₁.getSourceInfo i k = m₂.getSourceInfo j k := by
    intro k
    by_cases hk : (k : Int) < o.ncutout
    · obtain ⟨s, s', e1, e2, hf, _⟩ := hslot k hk
      unfold MEDS.getSourceInfo
      rw [chk, sl1 e1, sl2 e2, hinfo]
      simp only [Res.ok_bind]
      rw [hf]
    · rw [(C17_bad_indices_rejected_partial (by omega) (by omega) (bad1 k hk) "").2.2.2.1,
        (C17_bad_indices_rejected_partial (by omega) (by omega) (bad2 k hk) "").2.2.2.1]
  have hjac : ∀ k : Nat, m₁.getJacobian i k = m₂.getJacobian j k := by
    intro k
    by_cases hk : (k : Int) < o.ncutout
    · have hrck := hrc k hk
      obtain ⟨s, s', e1, e2, _, _, _, _, _, _, _, h1, h2, h3, h4⟩ := hslot k hk
      unfold MEDS.getJacobian
      rw [chk, hrck, sl1 e1, sl2 e2]
      simp only [Res.ok_bind]
      rw [h1, h2, h3, h4]
    · rw [(C17_bad_indices_rejected_partial (by omega) (by omega) (bad1 k hk) "").2.2.1,
        (C17_bad_indices_rejected_partial (by omega) (by omega) (bad2 k hk) "").2.2.1]
  refine ⟨⟨o, o', hr, hr', hn⟩, ?_, ?_, ?_, hsrc, ?_, hjac, ?_, ?_, ?_⟩
  · intro t ht; exact vals t (List.mem_cons.mp ht)
  · intro t ht; exact (mos t (List.mem_cons.mp ht)).1
  · intro t ht; exact (mos t (List.mem_cons.mp ht)).2
  · intro k; unfold MEDS.getSourcePath; rw [hsrc k]
  · unfold MEDS.getJacobianList
    rw [chkN, row1, row2]
    simp only [Res.ok_bind]
    rw [hn]
    cases m₂.checkIndices j none with
    | error e => rfl
    | ok _ => exact mapRes_congr fun k _ => hjac k
  · rintro k ⟨x, hx, hk⟩
    rw [hr] at hx; injection hx with hx; subst hx
    exact hrc k hk
  · rintro k ⟨x, hx, hk⟩
    rw [hr] at hx; injection hx with hx; subst hx
    obtain ⟨s, s', e1, e2, _, _, _, _, _, _, _, h1, h2, h3, h4⟩ := hslot k hk
    unfold MEDS.getJacobianMatrix
    rw [sl1 e1, sl2 e2]
    simp only [Res.ok_bind]
    rw [h1, h2, h3, h4]

/-- **C87** (PSFs) … and the same PSF images, if the PSF models return non-empty arrays of the stated shape. -/
theorem C87_same_psfs (hi₁ : Maker.init cfg hn objs images psf psfInfo md = .ok mk₁) (hw₁ : mk₁.write = .ok (mk₁', f₁)) (ho₁ : MEDS.openFile f₁ = .ok m₁)
    (hi₂ : Maker.init cfg hn' objs' images psf psfInfo' md' = .ok mk₂) (hw₂ : mk₂.write = .ok (mk₂', f₂)) (ho₂ : MEDS.openFile f₂ = .ok m₂)
    {ps : List PsfModel} (hps : psf = some ps) (hwf : ∀ p ∈ ps, ∀ sky r c, (p.getRec sky r c).WF)
    (hne : ∀ p ∈ ps, ∀ sky r c, 0 < (p.getRec sky r c).nr ∧ 0 < (p.getRec sky r c).nc)
    {i j : Nat} {o o' : ObjRow} (hr : m₁.cat.rows[i]? = some o) (hr' : m₂.cat.rows[j]? = some o') (hsky : o.sky = o'.sky)
    (hbox : o.boxSize = o'.boxSize) :
    (∀ k : Nat, m₁.getPsf i k = m₂.getPsf j k) ∧ m₁.getPsfList i = m₂.getPsfList j := by
  obtain ⟨hn, hslot⟩ := same_slot hi₁ hw₁ ho₁ hi₂ hw₂ ho₂ hr hr' hsky hbox
  have hg : ∀ k : Nat, m₁.getPsf i k = m₂.getPsf j k := by
    intro k
    by_cases hk : (k : Int) < o.ncutout
    · obtain ⟨s, s', e1, e2, hf, _⟩ := hslot k hk
      obtain ⟨b, im, p, a1, a2, a3, a4, a5, _, a6⟩ := C11_psf_read_back hi₁ hw₁ ho₁ hps hwf e1
      obtain ⟨b', im', p', b1, b2, b3, b4, b5, _, b6⟩ := C11_psf_read_back hi₂ hw₂ ho₂ hps hwf e2
      have hb : b = b' := by omega
      subst hb
      rw [a2] at b2; injection b2 with b2; subst b2
      rw [a3] at b3; injection b3 with b3; subst b3
      rw [← hsky] at b4 b5 b6
      obtain ⟨c1, c2⟩ := hne p (List.mem_of_getElem? a3) o.sky (rowIn im o.sky) (colIn im o.sky)
      have hpos : 0 < s.psfRowSize * s.psfColSize := by rw [← a4, ← a5]; exact Int.mul_pos (by omega) (by omega)
      have hpos' : 0 < s'.psfRowSize * s'.psfColSize := by rw [← b4, ← b5]; exact Int.mul_pos (by omega) (by omega)
      rw [a6 hpos, b6 hpos']
    · have bad1 : ¬ ValidEpoch m₁ i k := by
        rintro ⟨_, _, _, x, hx, h⟩
        rw [Int.toNat_natCast, hr] at hx
        injection hx with hx
        subst hx
        exact hk h
      have bad2 : ¬ ValidEpoch m₂ j k := by
        rintro ⟨_, _, _, x, hx, h⟩
        rw [Int.toNat_natCast, hr'] at hx
        injection hx with hx
        subst hx
        exact hk (by omega)
      rw [(C17_bad_indices_rejected_partial (by omega) (by omega) bad1 "").2.1,
        (C17_bad_indices_rejected_partial (by omega) (by omega) bad2 "").2.1]
  refine ⟨hg, ?_⟩
  unfold MEDS.getPsfList
  rw [show m₁.row (i : Int) = .ok o from pyGet_nat_some hr, show m₂.row (j : Int) = .ok o' from pyGet_nat_some hr']
  simp only [Res.ok_bind]
  rw [hn]
  exact mapRes_congr fun k _ => hg k

/-- **C87** (from the input) An object listed in both catalogues that got into one file got into the other, with the same epochs. -/
theorem C87_same_object (hi₁ : Maker.init cfg hn objs images psf psfInfo md = .ok mk₁) (hw₁ : mk₁.write = .ok (mk₁', f₁)) (ho₁ : MEDS.openFile f₁ = .ok m₁)
    (hi₂ : Maker.init cfg hn' objs' images psf psfInfo' md' = .ok mk₂) (hw₂ : mk₂.write = .ok (mk₂', f₂)) (ho₂ : MEDS.openFile f₂ = .ok m₂)
    {a : InputObj} (ha : a ∈ objs') (hpos : 0 < a.boxSize) {i : Nat} {o : ObjRow} (hr : m₁.cat.rows[i]? = some o) (hs : SameObject a o) :
    ∃ (j : Nat) (o' : ObjRow), m₂.cat.rows[j]? = some o' ∧ SameObject a o' ∧ SameEpochs ("image" :: cfg.cutoutTypes) m₁ i m₂ j := by
  have h1 := C05_catalogue_is_input hi₁ hw₁ ho₁
  have h2 := C05_catalogue_is_input hi₂ hw₂ ho₂
  have hb0 : 0 < o.boxSize := by rw [hs.2.2.2.2]; split <;> omega
  have hkept : kept cfg images a.sky = true := by
    obtain ⟨hlt, rfl⟩ := List.getElem?_eq_some_iff.mp hr
    have hl := h1.length_eq
    have hb := (List.forall₂_iff_get.mp h1).2 i (by omega) hlt
    simp only [List.get_eq_getElem] at hb
    have hm := (List.mem_filter.mp (List.getElem_mem (hl ▸ hlt))).2
    rw [← hb.2.1, hs.2.1] at hm
    exact hm
  obtain ⟨j, hj⟩ := List.mem_iff_getElem?.mp (List.mem_filter (p := fun a : InputObj => kept cfg images a.sky).mpr ⟨ha, hkept⟩)
  obtain ⟨hlt, hjj⟩ := List.getElem?_eq_some_iff.mp hj
  have hl := h2.length_eq
  have hb := (List.forall₂_iff_get.mp h2).2 j hlt (hl ▸ hlt)
  simp only [List.get_eq_getElem] at hb
  rw [hjj] at hb
  have hjr := List.getElem?_eq_getElem (hl ▸ hlt : j < m₂.cat.rows.length)
  refine ⟨j, _, hjr, hb, C87_same_epochs hi₁ hw₁ ho₁ hi₂ hw₂ ho₂ hr hjr ?_ ?_ hb0⟩
  · rw [hs.2.1, hb.2.1]
  · rw [hs.2.2.2.2, hb.2.2.2.2]

end

/-! ### Making a file in parts (C88) -/

/-- The pieces of each row, moved by `d`. -/
def shiftBy (d : Int) (L : List (List (Int × Int))) : List (List (Int × Int)) := L.map (fun l => l.map (fun r => (r.1 + d, r.2)))

theorem consec_shape_row {l l' : List (Int × Int)} {s s' e e' : Int} (hs : l.map Prod.snd = l'.map Prod.snd) (h : Consec s l e) (h' : Consec s' l' e') :
    l' = l.map (fun r => (r.1 + (s' - s), r.2)) ∧ e' - e = s' - s := by
  induction l generalizing l' s s' with
  | nil =>
    cases l' with
    | nil => simp only [Consec] at h h'; subst h h'; exact ⟨rfl, rfl⟩
    | cons b l' => cases hs
  | cons a l ih =>
    cases l' with
    | nil => cases hs
    | cons b l' =>
      simp only [List.map_cons, List.cons.injEq] at hs
      obtain ⟨a1, _, a3⟩ := h
      obtain ⟨b1, _, b3⟩ := h'
      obtain ⟨e1, e2⟩ := ih hs.2 a3 b3
      have ee : s' + b.2 - (s + a.2) = s' - s := by omega
      rw [ee] at e1 e2
      refine ⟨?_, e2⟩
      rw [List.map_cons, ← e1]
      congr 1
      exact Prod.ext (by dsimp only; omega) hs.1.symm

theorem consec_shape {L L' : List (List (Int × Int))} {s s' e e' : Int} (hs : L.map (List.map Prod.snd) = L'.map (List.map Prod.snd))
    (h : Consec s L.flatten e) (h' : Consec s' L'.flatten e') : L' = shiftBy (s' - s) L ∧ e' - e = s' - s := by
  induction L generalizing L' s s' with
  | nil =>
    cases L' with
    | nil => simp only [List.flatten_nil, Consec] at h h'; subst h h'; exact ⟨rfl, rfl⟩
    | cons b l' => cases hs
  | cons a L ih =>
    cases L' with
    | nil => cases hs
    | cons b L' =>
      simp only [List.map_cons, List.cons.injEq] at hs
      rw [List.flatten_cons] at h h'
      obtain ⟨q, a1, a2⟩ := Consec.sub h
      obtain ⟨q', b1, b2⟩ := Consec.sub h'
      obtain ⟨e1, e2⟩ := consec_shape_row hs.1 a1 b1
      obtain ⟨g1, g2⟩ := ih hs.2 a2 b2
      rw [e2] at g1 g2
      refine ⟨?_, g2⟩
      rw [g1, e1]
      rfl

/-- The stored pieces of each row. -/
def pieces (rows : List ObjRow) : List (List (Int × Int)) :=
  rows.map (fun o => (o.slots.take o.ncutout.toNat).map (fun s => (s.startRow, o.boxSize * o.boxSize)))

/-- The stored PSF pieces of each row. -/
def psfPieces (rows : List ObjRow) : List (List (Int × Int)) :=
  rows.map (fun o => (o.slots.take o.ncutout.toNat).map (fun s => (s.psfStartRow, s.psfRowSize * s.psfColSize)))

theorem pieces_flatten (rows : List ObjRow) : (pieces rows).flatten = regions rows := by
  unfold pieces regions; rw [List.flatMap_def]

theorem psfPieces_flatten (rows : List ObjRow) : (psfPieces rows).flatten = psfRegions rows := by
  unfold psfPieces psfRegions; rw [List.flatMap_def]

theorem forall₂_append_split {α β : Type} {R : α → β → Prop} {a b : List α} {c : List β} (h : List.Forall₂ R (a ++ b) c) :
    ∃ c1 c2, c = c1 ++ c2 ∧ List.Forall₂ R a c1 ∧ List.Forall₂ R b c2 := by
  induction a generalizing c with
  | nil => exact ⟨[], c, rfl, .nil, h⟩
  | cons x a ih =>
    rw [List.cons_append] at h
    cases h with
    | cons hxy h =>
      obtain ⟨c1, c2, rfl, h1, h2⟩ := ih h
      exact ⟨_ :: c1, c2, rfl, .cons hxy h1, h2⟩

theorem map_eq_of_forall₂ {α β γ : Type} {R : α → β → Prop} {g : α → γ} {g' : β → γ} {l : List α} {l' : List β} (h : List.Forall₂ R l l')
    (hg : ∀ a ∈ l, ∀ b ∈ l', R a b → g a = g' b) : l.map g = l'.map g' := by
  induction h with
  | nil => rfl
  | cons hab _ ih =>
    rw [List.map_cons, List.map_cons, hg _ (by simp) _ (by simp) hab, ih (fun a ha b hb => hg a (by simp [ha]) b (by simp [hb]))]

theorem forall₂_and_mem {α β : Type} {R S : α → β → Prop} {l : List α} {l' : List β} (h : List.Forall₂ R l l')
    (hg : ∀ a ∈ l, ∀ b ∈ l', R a b → S a b) : List.Forall₂ S l l' := by
  induction h with
  | nil => exact .nil
  | cons hab _ ih =>
    exact .cons (hg _ (by simp) _ (by simp) hab) (ih (fun a ha b hb => hg a (by simp [ha]) b (by simp [hb])))

theorem take_map_eq {γ : Type} {o o' : ObjRow} {g g' : Slot → γ} (hn : o.ncutout = o'.ncutout)
    (h : ∀ k : Nat, (k : Int) < o.ncutout → ∃ s s', o.slots[k]? = some s ∧ o'.slots[k]? = some s' ∧ g s = g' s') :
    (o.slots.take o.ncutout.toNat).map g = (o'.slots.take o'.ncutout.toNat).map g' := by
  apply List.ext_getElem?
  intro k
  rw [List.getElem?_map, List.getElem?_map, List.getElem?_take, List.getElem?_take, ← hn]
  by_cases hk : k < o.ncutout.toNat
  · rw [if_pos hk, if_pos hk]
    obtain ⟨s, s', h1, h2, h3⟩ := h k (by omega)
    rw [h1, h2]
    simp [h3]
  · rw [if_neg hk, if_neg hk]
    rfl

namespace Spec

/-- Two catalogue rows describe the same object: everything that comes from the input catalogue agrees. -/
def SameInput (o o' : ObjRow) : Prop := o.id = o'.id ∧ o.sky = o'.sky ∧ o.number = o'.number ∧ o.extra = o'.extra ∧ o.boxSize = o'.boxSize

end Spec

theorem forall₂_sameInput {K : List InputObj} {l l' : List ObjRow} (h : List.Forall₂ SameObject K l) (h' : List.Forall₂ SameObject K l') :
    List.Forall₂ SameInput l l' := by
  induction h generalizing l' with
  | nil => cases h'; exact .nil
  | cons hab _ ih =>
    cases h' with
    | cons hab' h' =>
      refine .cons ?_ (ih h')
      obtain ⟨a1, a2, a3, a4, a5⟩ := hab
      obtain ⟨b1, b2, b3, b4, b5⟩ := hab'
      exact ⟨by rw [a1, b1], by rw [a2, b2], by rw [a3, b3], by rw [a4, b4], by rw [a5, b5]⟩

section
variable {cfg : MakerCfg} {images : List SrcImage} {psf : Option (List PsfModel)}
  {hn hnA hnB : Bool} {A B : List InputObj} {psfInfo psfInfoA psfInfoB : Option String} {md mdA mdB : String}
  {mk mk' mkA mkA' mkB mkB' : Maker} {f fA fB : Fits} {m mA mB : MEDS}

theorem part_rows (hi : Maker.init cfg hn (A ++ B) images psf psfInfo md = .ok mk) (hw : mk.write = .ok (mk', f)) (ho : MEDS.openFile f = .ok m)
    (hiA : Maker.init cfg hnA A images psf psfInfoA mdA = .ok mkA) (hwA : mkA.write = .ok (mkA', fA)) (hoA : MEDS.openFile fA = .ok mA)
    (hiB : Maker.init cfg hnB B images psf psfInfoB mdB = .ok mkB) (hwB : mkB.write = .ok (mkB', fB)) (hoB : MEDS.openFile fB = .ok mB) :
    ∃ R1 R2, m.cat.rows = R1 ++ R2 ∧ List.Forall₂ SameInput R1 mA.cat.rows ∧ List.Forall₂ SameInput R2 mB.cat.rows := by
  have h := C05_catalogue_is_input hi hw ho
  rw [List.filter_append] at h
  obtain ⟨R1, R2, h1, h2, h3⟩ := forall₂_append_split h
  exact ⟨R1, R2, h1, forall₂_sameInput h2 (C05_catalogue_is_input hiA hwA hoA), forall₂_sameInput h3 (C05_catalogue_is_input hiB hwB hoB)⟩

theorem target_rows (cfg : MakerCfg) (images : List SrcImage) (t : String) (rows : List ObjRow) :
    target cfg images t rows = (rows.map (fun o => ((o.slots.take o.ncutout.toNat).map (content cfg images t o)).flatten)).flatten := by
  unfold target cells
  rw [List.map_flatMap, List.flatMap_def, List.flatten_flatten, List.map_map]
  congr 1
  apply List.map_congr_left
  intro o _
  simp [Function.comp_def]

theorem psfTarget_rows (cfg : MakerCfg) (ps : List PsfModel) (rows : List ObjRow) :
    psfTarget cfg ps rows = (rows.map (fun o => ((o.slots.take o.ncutout.toNat).map (psfContent cfg ps o)).flatten)).flatten := by
  unfold psfTarget cells
  rw [List.map_flatMap, List.flatMap_def, List.flatten_flatten, List.map_map]
  congr 1
  apply List.map_congr_left
  intro o _
  simp [Function.comp_def]

theorem written_target (hi : Maker.init cfg hn A images psf psfInfo md = .ok mk) (hw : mk.write = .ok (mk', f)) (ho : MEDS.openFile f = .ok m)
    {t : String} (ht : t = "image" ∨ t ∈ cfg.cutoutTypes) :
    m.fits.find (t ++ "_cutouts") = some (.image (target cfg images t m.cat.rows)) ∧
    Consec 0 (pieces m.cat.rows).flatten (target cfg images t m.cat.rows).length := by
  obtain ⟨in0, w, W, rfl, _⟩ := opened_eq hi hw ho
  have htt : t ∈ mk'.types := (mem_types W.types_ok t).mpr ht
  obtain ⟨_, _, _, h4, _⟩ := writeData_ok W.ready W.write_eq
  have hc := W.ready.tiled
  have hl := target_length (cfg := cfg) (images := images) (t := t) hc
  refine ⟨?_, ?_⟩
  · have := h4 t htt
    rw [W.cfg_eq, W.images_eq] at this
    exact this
  · rw [pieces_flatten]
    show Consec 0 (regions mk'.objs) ((target cfg images t mk'.objs).length : Int)
    rw [hl]
    exact hc

theorem same_blocks {hn₁ hn₂ : Bool} {objs₁ objs₂ : List InputObj} {pi₁ pi₂ : Option String} {md₁ md₂ : String} {mk₁ mk₁' mk₂ mk₂' : Maker}
    {f₁ f₂ : Fits} {m₁ m₂ : MEDS}
    (hi₁ : Maker.init cfg hn₁ objs₁ images psf pi₁ md₁ = .ok mk₁) (hw₁ : mk₁.write = .ok (mk₁', f₁)) (ho₁ : MEDS.openFile f₁ = .ok m₁)
    (hi₂ : Maker.init cfg hn₂ objs₂ images psf pi₂ md₂ = .ok mk₂) (hw₂ : mk₂.write = .ok (mk₂', f₂)) (ho₂ : MEDS.openFile f₂ = .ok m₂)
    (t : String) {o o' : ObjRow} (hr : o ∈ m₁.cat.rows) (hr' : o' ∈ m₂.cat.rows) (hs : SameInput o o') :
    o.ncutout = o'.ncutout ∧
    (o.slots.take o.ncutout.toNat).map (content cfg images t o) = (o'.slots.take o'.ncutout.toNat).map (content cfg images t o') ∧
    (o.slots.take o.ncutout.toNat).map (fun _ => o.boxSize * o.boxSize) = (o'.slots.take o'.ncutout.toNat).map (fun _ => o'.boxSize * o'.boxSize) := by
  obtain ⟨i, hr⟩ := List.mem_iff_getElem?.mp hr
  obtain ⟨j, hr'⟩ := List.mem_iff_getElem?.mp hr'
  obtain ⟨_, hsky, _, _, hbox⟩ := hs
  obtain ⟨hn, hslot⟩ := same_slot hi₁ hw₁ ho₁ hi₂ hw₂ ho₂ hr hr' hsky hbox
  refine ⟨hn, take_map_eq hn ?_, take_map_eq hn ?_⟩
  · intro k hk
    obtain ⟨s, s', e1, e2, hf, _, _, hsr, hsc, _⟩ := hslot k hk
    refine ⟨s, s', e1.2.2, e2.2.2, ?_⟩
    unfold content subImage
    rw [hf, hsr, hsc, hbox]
  · intro k hk
    obtain ⟨s, s', e1, e2, _⟩ := hslot k hk
    exact ⟨s, s', e1.2.2, e2.2.2, by rw [hbox]⟩

/-- From the shifted pieces to the start rows. -/
theorem pieces_start {rows rows' : List ObjRow} {d : Int} (h : pieces rows' = shiftBy d (pieces rows)) {i k : Nat} {o o' : ObjRow} {s s' : Slot}
    (e : Epoch rows i k o s) (e' : Epoch rows' i k o' s') : s'.startRow = s.startRow + d := by
  have h1 := congrArg (fun L => L[i]?) h
  simp only [pieces, shiftBy, List.getElem?_map, e.1, e'.1, Option.map_some, Option.some.injEq] at h1
  have h2 := congrArg (fun L => L[k]?) h1
  have k1 : k < o.ncutout.toNat := by have := e.2.1; omega
  have k2 : k < o'.ncutout.toNat := by have := e'.2.1; omega
  simp only [List.getElem?_map, List.getElem?_take, if_pos k1, if_pos k2, e.2.2, e'.2.2, Option.map_some, Option.some.injEq, Prod.mk.injEq] at h2
  exact h2.1

theorem psfPieces_start {rows rows' : List ObjRow} {d : Int} (h : psfPieces rows' = shiftBy d (psfPieces rows)) {i k : Nat} {o o' : ObjRow} {s s' : Slot}
    (e : Epoch rows i k o s) (e' : Epoch rows' i k o' s') : s'.psfStartRow = s.psfStartRow + d := by
  have h1 := congrArg (fun L => L[i]?) h
  simp only [psfPieces, shiftBy, List.getElem?_map, e.1, e'.1, Option.map_some, Option.some.injEq] at h1
  have h2 := congrArg (fun L => L[k]?) h1
  have k1 : k < o.ncutout.toNat := by have := e.2.1; omega
  have k2 : k < o'.ncutout.toNat := by have := e'.2.1; omega
  simp only [List.getElem?_map, List.getElem?_take, if_pos k1, if_pos k2, e.2.2, e'.2.2, Option.map_some, Option.some.injEq, Prod.mk.injEq] at h2
  exact h2.1

/-- Epochs of the first part of a catalogue. -/
theorem epoch_append_left {R1 R2 : List ObjRow} {i k : Nat} {o : ObjRow} {s : Slot} (hi : i < R1.length) :
    Epoch (R1 ++ R2) i k o s ↔ Epoch R1 i k o s := by
  unfold Epoch; rw [List.getElem?_append_left hi]

theorem epoch_append_right {R1 R2 : List ObjRow} {j k : Nat} {o : ObjRow} {s : Slot} :
    Epoch (R1 ++ R2) (R1.length + j) k o s ↔ Epoch R2 j k o s := by
  unfold Epoch; rw [List.getElem?_append_right (by omega), Nat.add_sub_cancel_left]

/-- **C88** A file made from the catalogue `A ++ B` is the file made from `A` followed by the file made from `B` (same settings, images and PSF models): the
catalogue rows in that order, the pixels of every cutout type one behind the other, and the start rows of the second part moved by the size of the first. -/
theorem C88_file_of_parts (hi : Maker.init cfg hn (A ++ B) images psf psfInfo md = .ok mk) (hw : mk.write = .ok (mk', f)) (ho : MEDS.openFile f = .ok m)
    (hiA : Maker.init cfg hnA A images psf psfInfoA mdA = .ok mkA) (hwA : mkA.write = .ok (mkA', fA)) (hoA : MEDS.openFile fA = .ok mA)
    (hiB : Maker.init cfg hnB B images psf psfInfoB mdB = .ok mkB) (hwB : mkB.write = .ok (mkB', fB)) (hoB : MEDS.openFile fB = .ok mB)
    {t : String} (ht : t = "image" ∨ t ∈ cfg.cutoutTypes) :
    List.Forall₂ (fun o o' => SameInput o o' ∧ o.ncutout = o'.ncutout) m.cat.rows (mA.cat.rows ++ mB.cat.rows) ∧
    ∃ pA pB, mA.fits.find (t ++ "_cutouts") = some (.image pA) ∧ mB.fits.find (t ++ "_cutouts") = some (.image pB) ∧
      m.fits.find (t ++ "_cutouts") = some (.image (pA ++ pB)) ∧
      (∀ i k o s o' s', Epoch mA.cat.rows i k o s → Epoch m.cat.rows i k o' s' → s'.startRow = s.startRow) ∧
      (∀ j k o s o' s', Epoch mB.cat.rows j k o s → Epoch m.cat.rows (mA.cat.rows.length + j) k o' s' → s'.startRow = s.startRow + pA.length) := by
  obtain ⟨R1, R2, hrows, f1, f2⟩ := part_rows hi hw ho hiA hwA hoA hiB hwB hoB
  obtain ⟨t1, c1⟩ := written_target hi hw ho ht
  obtain ⟨tA, cA⟩ := written_target hiA hwA hoA ht
  obtain ⟨tB, cB⟩ := written_target hiB hwB hoB ht
  have m1 : ∀ o ∈ R1, o ∈ m.cat.rows := fun o h => by rw [hrows]; simp [h]
  have m2 : ∀ o ∈ R2, o ∈ m.cat.rows := fun o h => by rw [hrows]; simp [h]
  have b1 := fun o (h : o ∈ R1) o' (h' : o' ∈ mA.cat.rows) hs => same_blocks hi hw ho hiA hwA hoA t (m1 o h) h' hs
  have b2 := fun o (h : o ∈ R2) o' (h' : o' ∈ mB.cat.rows) hs => same_blocks hi hw ho hiB hwB hoB t (m2 o h) h' hs
  have g1 : target cfg images t R1 = target cfg images t mA.cat.rows := by
    rw [target_rows, target_rows]
    exact congrArg _ (map_eq_of_forall₂ f1 fun o h o' h' hs => congrArg _ (b1 o h o' h' hs).2.1)
  have g2 : target cfg images t R2 = target cfg images t mB.cat.rows := by
    rw [target_rows, target_rows]
    exact congrArg _ (map_eq_of_forall₂ f2 fun o h o' h' hs => congrArg _ (b2 o h o' h' hs).2.1)
  have g : target cfg images t m.cat.rows = target cfg images t mA.cat.rows ++ target cfg images t mB.cat.rows := by
    rw [hrows, ← g1, ← g2, target_rows, target_rows, target_rows, List.map_append, List.flatten_append]
  have sz1 : (pieces mA.cat.rows).map (List.map Prod.snd) = (pieces R1).map (List.map Prod.snd) := by
    unfold pieces
    rw [List.map_map, List.map_map]
    refine (map_eq_of_forall₂ f1 fun o h o' h' hs => ?_).symm
    simp only [Function.comp, List.map_map]
    exact (b1 o h o' h' hs).2.2
  have sz2 : (pieces mB.cat.rows).map (List.map Prod.snd) = (pieces R2).map (List.map Prod.snd) := by
    unfold pieces
    rw [List.map_map, List.map_map]
    refine (map_eq_of_forall₂ f2 fun o h o' h' hs => ?_).symm
    simp only [Function.comp, List.map_map]
    exact (b2 o h o' h' hs).2.2
  have hp : pieces m.cat.rows = pieces R1 ++ pieces R2 := by rw [hrows]; simp [pieces]
  rw [hp, List.flatten_append] at c1
  obtain ⟨q, d1, d2⟩ := Consec.sub c1
  obtain ⟨e1, e2⟩ := consec_shape sz1 cA d1
  obtain ⟨e3, e4⟩ := consec_shape sz2 cB d2
  have hq : q = (target cfg images t mA.cat.rows).length := by omega
  have len1 := f1.length_eq
  refine ⟨?_, _, _, tA, tB, by rw [t1, g], ?_, ?_⟩
  · rw [hrows]
    refine List.rel_append ?_ ?_
    · exact forall₂_and_mem f1 fun o h o' h' hs => ⟨hs, (b1 o h o' h' hs).1⟩
    · exact forall₂_and_mem f2 fun o h o' h' hs => ⟨hs, (b2 o h o' h' hs).1⟩
  · intro i k o s o' s' hA hm
    have hlt : i < R1.length := by rw [len1]; exact (List.getElem?_eq_some_iff.mp hA.1).1
    rw [hrows, epoch_append_left hlt] at hm
    have := pieces_start e1 hA hm
    omega
  · intro j k o s o' s' hB hm
    rw [hrows, ← len1, epoch_append_right] at hm
    have := pieces_start e3 hB hm
    omega

theorem same_psf_blocks {hn₁ hn₂ : Bool} {objs₁ objs₂ : List InputObj} {pi₁ pi₂ : Option String} {md₁ md₂ : String} {mk₁ mk₁' mk₂ mk₂' : Maker}
    {f₁ f₂ : Fits} {m₁ m₂ : MEDS}
    (hi₁ : Maker.init cfg hn₁ objs₁ images psf pi₁ md₁ = .ok mk₁) (hw₁ : mk₁.write = .ok (mk₁', f₁)) (ho₁ : MEDS.openFile f₁ = .ok m₁)
    (hi₂ : Maker.init cfg hn₂ objs₂ images psf pi₂ md₂ = .ok mk₂) (hw₂ : mk₂.write = .ok (mk₂', f₂)) (ho₂ : MEDS.openFile f₂ = .ok m₂)
    {ps : List PsfModel} (hps : psf = some ps) (hwf : ∀ p ∈ ps, ∀ sky r c, (p.getRec sky r c).WF)
    {o o' : ObjRow} (hr : o ∈ m₁.cat.rows) (hr' : o' ∈ m₂.cat.rows) (hs : SameInput o o') :
    (o.slots.take o.ncutout.toNat).map (psfContent cfg ps o) = (o'.slots.take o'.ncutout.toNat).map (psfContent cfg ps o') ∧
    (o.slots.take o.ncutout.toNat).map (fun s => s.psfRowSize * s.psfColSize) = (o'.slots.take o'.ncutout.toNat).map (fun s => s.psfRowSize * s.psfColSize) := by
  obtain ⟨i, hr⟩ := List.mem_iff_getElem?.mp hr
  obtain ⟨j, hr'⟩ := List.mem_iff_getElem?.mp hr'
  obtain ⟨_, hsky, _, _, hbox⟩ := hs
  obtain ⟨hn, hslot⟩ := same_slot hi₁ hw₁ ho₁ hi₂ hw₂ ho₂ hr hr' hsky hbox
  refine ⟨take_map_eq hn ?_, take_map_eq hn ?_⟩
  · intro k hk
    obtain ⟨s, s', e1, e2, hf, h1, h2, _⟩ := hslot k hk
    refine ⟨s, s', e1.2.2, e2.2.2, ?_⟩
    unfold psfContent
    rw [hf, h1, h2, hsky]
  · intro k hk
    obtain ⟨s, s', e1, e2, hf, _⟩ := hslot k hk
    obtain ⟨b, im, p, a1, a2, a3, a4, a5, _⟩ := C11_psf_read_back hi₁ hw₁ ho₁ hps hwf e1
    obtain ⟨b', im', p', b1, b2, b3, b4, b5, _⟩ := C11_psf_read_back hi₂ hw₂ ho₂ hps hwf e2
    have hb : b = b' := by omega
    subst hb
    rw [a2] at b2; injection b2 with b2; subst b2
    rw [a3] at b3; injection b3 with b3; subst b3
    rw [← hsky] at b4 b5
    exact ⟨s, s', e1.2.2, e2.2.2, by rw [← a4, ← a5, ← b4, ← b5]⟩

/-- **C88** (PSFs) The same for the PSF images. -/
theorem C88_psfs_of_parts (hi : Maker.init cfg hn (A ++ B) images psf psfInfo md = .ok mk) (hw : mk.write = .ok (mk', f)) (ho : MEDS.openFile f = .ok m)
    (hiA : Maker.init cfg hnA A images psf psfInfoA mdA = .ok mkA) (hwA : mkA.write = .ok (mkA', fA)) (hoA : MEDS.openFile fA = .ok mA)
    (hiB : Maker.init cfg hnB B images psf psfInfoB mdB = .ok mkB) (hwB : mkB.write = .ok (mkB', fB)) (hoB : MEDS.openFile fB = .ok mB)
    {ps : List PsfModel} (hps : psf = some ps) (hwf : ∀ p ∈ ps, ∀ sky r c, (p.getRec sky r c).WF) :
    ∃ pA pB, mA.fits.find "psf" = some (.image pA) ∧ mB.fits.find "psf" = some (.image pB) ∧ m.fits.find "psf" = some (.image (pA ++ pB)) ∧
      (∀ i k o s o' s', Epoch mA.cat.rows i k o s → Epoch m.cat.rows i k o' s' → s'.psfStartRow = s.psfStartRow) ∧
      (∀ j k o s o' s', Epoch mB.cat.rows j k o s → Epoch m.cat.rows (mA.cat.rows.length + j) k o' s' → s'.psfStartRow = s.psfStartRow + pA.length) := by
  obtain ⟨R1, R2, hrows, f1, f2⟩ := part_rows hi hw ho hiA hwA hoA hiB hwB hoB
  obtain ⟨t1, _, c1, _⟩ := written_psf hi hw ho hps hwf
  obtain ⟨tA, _, cA, _⟩ := written_psf hiA hwA hoA hps hwf
  obtain ⟨tB, _, cB, _⟩ := written_psf hiB hwB hoB hps hwf
  rw [← psfPieces_flatten] at c1 cA cB
  have m1 : ∀ o ∈ R1, o ∈ m.cat.rows := fun o h => by rw [hrows]; simp [h]
  have m2 : ∀ o ∈ R2, o ∈ m.cat.rows := fun o h => by rw [hrows]; simp [h]
  have b1 := fun o (h : o ∈ R1) o' (h' : o' ∈ mA.cat.rows) hs => same_psf_blocks hi hw ho hiA hwA hoA hps hwf (m1 o h) h' hs
  have b2 := fun o (h : o ∈ R2) o' (h' : o' ∈ mB.cat.rows) hs => same_psf_blocks hi hw ho hiB hwB hoB hps hwf (m2 o h) h' hs
  have g1 : psfTarget cfg ps R1 = psfTarget cfg ps mA.cat.rows := by
    rw [psfTarget_rows, psfTarget_rows]
    exact congrArg _ (map_eq_of_forall₂ f1 fun o h o' h' hs => congrArg _ (b1 o h o' h' hs).1)
  have g2 : psfTarget cfg ps R2 = psfTarget cfg ps mB.cat.rows := by
    rw [psfTarget_rows, psfTarget_rows]
    exact congrArg _ (map_eq_of_forall₂ f2 fun o h o' h' hs => congrArg _ (b2 o h o' h' hs).1)
  have g : psfTarget cfg ps m.cat.rows = psfTarget cfg ps mA.cat.rows ++ psfTarget cfg ps mB.cat.rows := by
    rw [hrows, ← g1, ← g2, psfTarget_rows, psfTarget_rows, psfTarget_rows, List.map_append, List.flatten_append]
  have sz1 : (psfPieces mA.cat.rows).map (List.map Prod.snd) = (psfPieces R1).map (List.map Prod.snd) := by
    unfold psfPieces
    rw [List.map_map, List.map_map]
    refine (map_eq_of_forall₂ f1 fun o h o' h' hs => ?_).symm
    simp only [Function.comp, List.map_map]
    exact (b1 o h o' h' hs).2
  have sz2 : (psfPieces mB.cat.rows).map (List.map Prod.snd) = (psfPieces R2).map (List.map Prod.snd) := by
    unfold psfPieces
    rw [List.map_map, List.map_map]
    refine (map_eq_of_forall₂ f2 fun o h o' h' hs => ?_).symm
    simp only [Function.comp, List.map_map]
    exact (b2 o h o' h' hs).2
  have hp : psfPieces m.cat.rows = psfPieces R1 ++ psfPieces R2 := by rw [hrows]; simp [psfPieces]
  rw [hp, List.flatten_append] at c1
  obtain ⟨q, d1, d2⟩ := Consec.sub c1
  obtain ⟨e1, e2⟩ := consec_shape sz1 cA d1
  obtain ⟨e3, e4⟩ := consec_shape sz2 cB d2
  have hq : q = (psfTarget cfg ps mA.cat.rows).length := by omega
  have len1 := f1.length_eq
  refine ⟨_, _, tA, tB, by rw [t1, g], ?_, ?_⟩
  · intro i k o s o' s' hA hm
    have hlt : i < R1.length := by rw [len1]; exact (List.getElem?_eq_some_iff.mp hA.1).1
    rw [hrows, epoch_append_left hlt] at hm
    have := psfPieces_start e1 hA hm
    omega
  · intro j k o s o' s' hB hm
    rw [hrows, ← len1, epoch_append_right] at hm
    have := psfPieces_start e3 hB hm
    omega

/-- **C87** Objects can be left out: when a catalogue can be written, so can any other one made of some of its objects (in any order), as long as one of them stays
after trimming and, when positions are forced onto the coadd, one is on the coadd. -/
theorem C87_fewer_objects_complete {hn hn' : Bool} {objs objs' : List InputObj} {psfInfo psfInfo' : Option String} {md md' : String}
    {mk₁ mk₁' : Maker} {f₁ : Fits} 
    (hwf : ∀ ps, psf = some ps → ∀ p ∈ ps, ∀ sky r c, (p.getRec sky r c).WF)
    (hi : Maker.init cfg hn objs images psf psfInfo md = .ok mk₁) (hw : mk₁.write = .ok (mk₁', f₁))
    (hsub : ∀ a ∈ objs', a ∈ objs) (hkept : ∃ a ∈ objs', kept cfg images a.sky = true)
    (hforced : cfg.firstImageIsCoadd = true → cfg.forceIntoCoaddBounds = true →
      ∀ im rest, images = im :: rest → ∃ a ∈ objs', kept cfg images a.sky = true ∧ Covers cfg 0 im a.sky) :
    ∃ mk mk' f, Maker.init cfg hn' objs' images psf psfInfo' md' = .ok mk ∧ mk.write = .ok (mk', f) := by
  have v := (C15_completes_iff hwf hn psfInfo md).mp ⟨_, _, _, hi, hw⟩
  exact (C15_completes_iff hwf hn' psfInfo' md').mpr
    { types := v.types, psfCount := v.psfCount, nonempty := hkept, forced := hforced,
      inCoadd := fun h1 h2 im rest him a ha => v.inCoadd h1 h2 im rest him a (hsub a ha),
      room := fun a ha => v.room a (hsub a ha), planes := v.planes, boxes := fun a ha => v.boxes a (hsub a ha),
      fills := fun a ha => v.fills a (hsub a ha), psfShapes := fun ps hps a ha => v.psfShapes ps hps a (hsub a ha) }

/-- **C88** When two catalogues can be written, the one that lists the objects of the first and then those of the second can be written too. -/
theorem C88_parts_complete {hn hn' : Bool} {objs objs' : List InputObj} {psfInfo psfInfo' : Option String} {md md' : String}
    {mk₁ mk₁' : Maker} {f₁ : Fits} {mk₂ mk₂' : Maker} {f₂ : Fits}
    (hwf : ∀ ps, psf = some ps → ∀ p ∈ ps, ∀ sky r c, (p.getRec sky r c).WF)
    (hi₁ : Maker.init cfg hn objs images psf psfInfo md = .ok mk₁) (hw₁ : mk₁.write = .ok (mk₁', f₁))
    (hi₂ : Maker.init cfg hn' objs' images psf psfInfo' md' = .ok mk₂) (hw₂ : mk₂.write = .ok (mk₂', f₂)) (hn'' : Bool) (psfInfo'' : Option String) (md'' : String) :
    ∃ mk mk' f, Maker.init cfg hn'' (objs ++ objs') images psf psfInfo'' md'' = .ok mk ∧ mk.write = .ok (mk', f) := by
  have v := (C15_completes_iff hwf hn psfInfo md).mp ⟨_, _, _, hi₁, hw₁⟩
  have v' := (C15_completes_iff hwf hn' psfInfo' md').mp ⟨_, _, _, hi₂, hw₂⟩
  obtain ⟨a, ha, hk⟩ := v.nonempty
  exact (C15_completes_iff hwf hn'' psfInfo'' md'').mpr
    { types := v.types, psfCount := v.psfCount, nonempty := ⟨a, List.mem_append_left _ ha, hk⟩,
      forced := fun h1 h2 im rest him => by
        obtain ⟨b, hb, h⟩ := v.forced h1 h2 im rest him
        exact ⟨b, List.mem_append_left _ hb, h⟩
      inCoadd := fun h1 h2 im rest him a ha => (List.mem_append.mp ha).elim (v.inCoadd h1 h2 im rest him a) (v'.inCoadd h1 h2 im rest him a),
      room := fun a ha => (List.mem_append.mp ha).elim (v.room a) (v'.room a), planes := v.planes,
      boxes := fun a ha => (List.mem_append.mp ha).elim (v.boxes a) (v'.boxes a),
      fills := fun a ha => (List.mem_append.mp ha).elim (v.fills a) (v'.fills a),
      psfShapes := fun ps hps a ha => (List.mem_append.mp ha).elim (v.psfShapes ps hps a) (v'.psfShapes ps hps a) }

end

/-- Non-vacuity: the two example objects, together and one by one.  The second object is row 1 of the common file and row 0 of its own; the first one has 2 epochs of
16 pixels, so the second starts at pixel 32 there.  (The first object alone gives columns of width 2, the second of width 3.) -/
def Ex.parts (p : MEDS → MEDS → MEDS → Bool) : Bool :=
  match Ex.run Ex.cfg Ex.objs Ex.images (some Ex.psfs), Ex.run Ex.cfg (Ex.objs.take 1) Ex.images (some Ex.psfs), Ex.run Ex.cfg (Ex.objs.drop 1) Ex.images (some Ex.psfs) with
  | .ok (_, f), .ok (_, fA), .ok (_, fB) =>
    match MEDS.openFile f, MEDS.openFile fA, MEDS.openFile fB with
    | .ok m, .ok mA, .ok mB => p m mA mB
    | _, _, _ => false
  | _, _, _ => false

example : Ex.parts (fun m _ mB =>
    decide (m.cat.rows.map (·.ncutout) = [2, 3]) && decide (m.getMosaic 1 "image" = mB.getMosaic 0 "image") && decide (m.getPsf 1 2 = mB.getPsf 0 2) &&
    decide (m.getMosaic 1 "image" = .ok ⟨6, 2, [112, 113, 122, 123, 424, 0, 444, 0, 310, 311, 320, 321]⟩) &&
    decide (m.getMosaic 0 "image" ≠ mB.getMosaic 0 "image")) = true := by decide +kernel

example : Ex.parts (fun m mA mB =>
    decide (m.fits.find "image_cutouts" = (match mA.fits.find "image_cutouts", mB.fits.find "image_cutouts" with
      | some (.image a), some (.image b) => some (.image (a ++ b))
      | _, _ => none)) &&
    decide (m.cat.rows.map (fun o => o.slots.map (·.startRow)) = [[0, 16, -9999], [32, 36, 40]]) &&
    decide (mB.cat.rows.map (fun o => o.slots.map (·.startRow)) = [[0, 4, 8]])) = true := by decide +kernel

end Meds
