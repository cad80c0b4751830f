import Verif.Props.CoaddFile
import Verif.Props.RangeTotal
import Verif.Props.NumberExtract

/-!
# Subsets of a coadd file (C78)
-/

namespace Meds.Coadd
open Spec Maker Extract

/-- The setting of C45: `f` was written by a `MEDSCoaddMaker` for the objects `lo, ..., hi - 1` of `m`; every coadd has the box size of its object. -/
structure _root_.Meds.Spec.CoaddWritten (k k' : CMaker) (lo hi : Nat) (m : MEDS) (f : Fits) : Prop where
  init : ∃ req np md, CMaker.init req k.cast k.coadder np md m = .ok k
  write : k.write lo hi = .ok (k', f)
  inside : hi ≤ m.cat.rows.length
  good : ∀ i o obs, lo ≤ i → i < hi → m.cat.rows[i]? = some o → Coadded k.coadder i obs → GoodStamp o.boxSize.toNat obs
  pos : ∀ o ∈ m.cat.rows, 0 < o.boxSize

/-- The epochs of a coadd file: at most one per object. -/
theorem coadd_epochs {k k' : CMaker} {lo hi : Nat} {m : MEDS} {f : Fits} (h : CoaddWritten k k' lo hi m f) :
    ∃ m', MEDS.openFile f = .ok m' ∧ m'.cat.dtype = outDtype ∧ m'.cat.rows.length = m.cat.rows.length ∧ (∀ t ∈ k.types ++ ["psf"], ∃ pix, f.find (hduName t) = some (.image pix)) ∧
      f.hdus.map Prod.fst = k.reserved.map Prod.fst ++ ["object_data"] ∧
      (∀ o ∈ m'.cat.rows, (o.ncutout = 0 ∨ o.ncutout = 1) ∧ o.ncutout ≤ o.slots.length ∧ 0 < o.boxSize) ∧
      (∀ (i j : Nat) (o : ObjRow) (s : Slot), Epoch m'.cat.rows i j o s → j = 0 ∧ 0 ≤ s.startRow ∧ 0 ≤ s.psfStartRow ∧ 0 < o.psfBoxSize1) ∧
      (∀ (i j : Nat) (o : ObjRow) (s : Slot) (i' j' : Nat) (o' : ObjRow) (s' : Slot), Epoch m'.cat.rows i j o s → Epoch m'.cat.rows i' j' o' s' → i < i' →
        s.startRow + o.boxSize * o.boxSize ≤ s'.startRow ∧ s.psfStartRow + o.psfBoxSize1 * o.psfBoxSize1 ≤ s'.psfStartRow) := by
  obtain ⟨req, np, md, hinit⟩ := h.init
  obtain ⟨m', h1, h2, h3, h4, h5, hnm, h6⟩ := written_coadd hinit h.write h.inside h.good h.pos
  have hrow : ∀ (i : Nat) (o : ObjRow), m'.cat.rows[i]? = some o → (o.ncutout = 0 ∨ ∃ s, o.ncutout = 1 ∧ o.slots[0]? = some s ∧ 0 ≤ s.startRow ∧ 0 ≤ s.psfStartRow ∧ 0 < o.psfBoxSize1) ∧ 0 < o.boxSize := by
    intro i o ho
    have hlt : i < m.cat.rows.length := by have := (List.getElem?_eq_some_iff.mp ho).1; omega
    obtain ⟨c, c1, _, _, c2, c3, c4⟩ := h6 i _ (List.getElem?_eq_getElem hlt)
    rw [h2, List.getElem?_map, c1] at ho
    injection ho with ho
    subst ho
    refine ⟨?_, by rw [c2]; exact h.pos _ (List.getElem_mem hlt)⟩
    by_cases hr : lo ≤ i ∧ i < hi
    · rcases c4 hr.1 hr.2 with ⟨_, _, h0, _⟩ | ⟨obs, fl, s, g1, n1, _, _, hs, st, ps, _, psz, _⟩
      · exact .inl h0
      · refine .inr ⟨s, n1, hs, ?_, ?_, ?_⟩
        · rw [st]
          have := before_nonneg (size := stampPixels k.coadder (fun i => ((m.cat.rows[i]?).map (·.boxSize)).getD 1)) (lo := lo) (i - lo) (fun a _ _ => stampPixels_nonneg _ _ a)
          rwa [show lo + (i - lo) = i by omega] at this
        · rw [ps]
          have := before_nonneg (size := psfStampPixels k.coadder) (lo := lo) (i - lo) (fun a _ _ => psfStampPixels_nonneg _ a)
          rwa [show lo + (i - lo) = i by omega] at this
        · rw [psz]
          exact_mod_cast (h.good i _ obs hr.1 hr.2 (List.getElem?_eq_getElem hlt) ⟨fl, g1⟩).psfPos
    · exact .inl (c3 hr).1
  have hep : ∀ (i j : Nat) (o : ObjRow) (s : Slot), Epoch m'.cat.rows i j o s → j = 0 ∧ o.ncutout = 1 ∧ 0 ≤ s.startRow ∧ 0 ≤ s.psfStartRow ∧ 0 < o.psfBoxSize1 := by
    intro i j o s he
    obtain ⟨e1, e2, e3⟩ := he
    rcases (hrow i o e1).1 with h0 | ⟨s', n1, hs, a1, a2, a3⟩
    · omega
    · have : j = 0 := by omega
      subst this
      rw [e3] at hs
      injection hs with hs
      subst hs
      exact ⟨rfl, n1, a1, a2, a3⟩
  refine ⟨m', h1, h4, h3, h5, hnm, ?_, ?_, ?_⟩
  · intro o ho
    obtain ⟨i, hi⟩ := List.mem_iff_getElem?.mp ho
    obtain ⟨h7, h8⟩ := hrow i o hi
    rcases h7 with h0 | ⟨s', n1, hs, _⟩
    · exact ⟨.inl h0, by omega, h8⟩
    · have := (List.getElem?_eq_some_iff.mp hs).1
      exact ⟨.inr n1, by omega, h8⟩
  · intro i j o s he
    obtain ⟨a, _, b⟩ := hep i j o s he
    exact ⟨a, b⟩
  · intro i j o s i' j' o' s' he he' hlt
    obtain ⟨a, n, _⟩ := hep i j o s he
    obtain ⟨a', n', _⟩ := hep i' j' o' s' he'
    subst a a'
    obtain ⟨e1, _, e3⟩ := he
    obtain ⟨e1', _, e3'⟩ := he'
    rw [h2, List.getElem?_map] at e1 e1'
    cases q : k'.rows[i]? with
    | none => rw [q] at e1; cases e1
    | some c =>
      cases q' : k'.rows[i']? with
      | none => rw [q'] at e1'; cases e1'
      | some c' =>
        rw [q] at e1
        rw [q'] at e1'
        injection e1 with e1
        injection e1' with e1'
        subst e1 e1'
        obtain ⟨_, d1, _, d2⟩ := C45_disjoint hinit h.write h.inside h.good h.pos hlt q q' n n' e3 e3'
        exact ⟨d1, d2⟩

/-- **C78 (hypotheses)** A coadd file stores its stamps and its PSF images in catalogue order. -/
theorem C78_coadd_in_order {k k' : CMaker} {lo hi : Nat} {m m' : MEDS} {f : Fits} (h : CoaddWritten k k' lo hi m f) (ho : MEDS.openFile f = .ok m') :
    CutoutsInOrder m'.cat.rows ∧ PsfInOrder m'.cat := by
  obtain ⟨m'', h1, h2, h3, h4, _, h5, h6, h7⟩ := coadd_epochs h
  rw [ho] at h1
  injection h1 with h1
  subst h1
  have hno : ∀ {i j o s i' j' o' s'}, Epoch m'.cat.rows i j o s → Epoch m'.cat.rows i' j' o' s' → (i < i' ∨ (i = i' ∧ j < j')) → i < i' := by
    intro i j o s i' j' o' s' he he' hlt
    rcases hlt with hlt | ⟨_, hlt⟩
    · exact hlt
    · have := (h6 _ _ _ _ he').1
      omega
  have hpp : ∀ o s, psfPixels m'.cat.dtype o s = o.psfBoxSize1 ^ 2 := fun o s => by unfold psfPixels; rw [h2]; rfl
  refine ⟨⟨fun o hm => ⟨by have := (h5 o hm).1; omega, (h5 o hm).2.1⟩, ⟨fun i k o s he => (h6 _ _ _ _ he).2.1, fun _ _ _ _ _ => sq_nonneg _, ?_⟩, ?_⟩,
    ⟨⟨fun i k o s he => (h6 _ _ _ _ he).2.2.1, fun _ _ o s _ => by rw [hpp]; exact sq_nonneg _, ?_⟩, by rw [h2]; exact .inr rfl⟩⟩
  · intro i j o s i' j' o' s' he he' hlt
    have := (h7 _ _ _ _ _ _ _ _ he he' (hno he he' hlt)).1
    rw [sq]
    exact this
  · intro o hm j s s0 hj hs hs0
    have hn := (h5 o hm).1
    have : j = 0 := by omega
    subst this
    rw [hs] at hs0
    injection hs0 with hs0
    subst hs0
    simp
  · intro i j o s i' j' o' s' he he' hlt
    have := (h7 _ _ _ _ _ _ _ _ he he' (hno he he' hlt)).2
    show s.psfStartRow + psfPixels m'.cat.dtype o s ≤ s'.psfStartRow
    rw [hpp, sq]
    exact this

/-- **C78** (partial: every type but `ormask`) A range of objects cut out of a coadd file: if the extraction completes, then object `i` of the new file is object
`a + i` of the coadd file, with the same stamp in every type the range extractor copies, the same PSF image, jacobian and source, and the same catalogue entries
apart from the places of the pixels.  Missing: the `ormask` plane every coadd file has, see `C78_ormask_lost`. -/
theorem C78_range_partial {k k' : CMaker} {lo hi : Nat} {m m' : MEDS} {f g : Fits} {a b : Int} {copyAll : Bool} (h : CoaddWritten k k' lo hi m f)
    (ho : MEDS.openFile f = .ok m') (hx : extractRange f a b copyAll = .ok g) :
    ∃ mg, MEDS.openFile g = .ok mg ∧ mg.cat.dtype = m'.cat.dtype ∧ mg.info = m'.info ∧ mg.metaData = m'.metaData ∧
      (mg.size : Int) = min (b + 1) m'.size - a ∧ 0 ≤ a ∧ a ≤ b ∧
      ∀ i : Nat, i < mg.size → SameView ["image", "weight", "seg", "bmask", "noise"] mg i m' (a.toNat + i) ∧
        ∃ o o', m'.cat.rows[a.toNat + i]? = some o ∧ mg.cat.rows[i]? = some o' ∧ SameButStarts o o' := by
  obtain ⟨h1, h2⟩ := C78_coadd_in_order h ho
  exact C18_range_preserves_objects ho h1 (fun _ => h2) hx

theorem mem_names {f : Fits} {n : String} (h : f.has n = true) : n ∈ f.hdus.map Prod.fst := by
  unfold Fits.has Fits.find at h
  generalize f.hdus = l at h
  induction l with
  | nil => cases h
  | cons a l ih =>
    obtain ⟨x, y⟩ := a
    unfold Fits.lookup at h
    rw [List.map_cons]
    split at h
    · rename_i e
      simp [e]
    · exact List.mem_cons_of_mem _ (ih h)

/-- **C78** Cutting a range of objects out of a coadd file completes, when weight and seg were among the types asked for. -/
theorem C78_range_completes {k k' : CMaker} {lo hi : Nat} {m m' : MEDS} {f : Fits} {a b : Int} (copyAll : Bool) (h : CoaddWritten k k' lo hi m f)
    (ho : MEDS.openFile f = .ok m') (ha : 0 ≤ a) (hab : a ≤ b) (has : a < m'.size) (hwt : "weight" ∈ k.types) (hsg : "seg" ∈ k.types) :
    ∃ g, extractRange f a b copyAll = .ok g := by
  obtain ⟨h1, h2⟩ := C78_coadd_in_order h ho
  obtain ⟨m'', e1, e2, e3, e4, enm, e5, e6, e7⟩ := coadd_epochs h
  rw [ho] at e1
  injection e1 with e1
  subst e1
  obtain ⟨req, np, md, hinit⟩ := h.init
  obtain ⟨_, _, _, _, _, et, _⟩ := init_rows hinit
  obtain ⟨hty, hor, hno, him⟩ := loadTypes_supported et
  have key : ∀ t ∈ k.types ++ ["psf"], ∀ n, hduName t = n → ∃ pix, f.find n = some (.image pix) := by
    intro t ht n hn
    rw [← hn]
    exact e4 t ht
  refine C18_extraction_completes copyAll ho h1 (fun _ => h2) ha hab has ?_ ?_ ?_ ?_ ?_
  · intro n hn
    simp only [List.mem_cons, List.not_mem_nil, or_false] at hn
    rcases hn with rfl | rfl | rfl
    · exact key "image" (by simp [him]) _ rfl
    · exact key "weight" (by simp [hwt]) _ rfl
    · exact key "seg" (by simp [hsg]) _ rfl
  · intro n hn hf
    have hmem : n ∈ f.hdus.map Prod.fst := mem_names hf
    rw [enm] at hmem
    simp only [CMaker.reserved, List.map_append, List.map_map, List.map_cons, List.map_nil, List.mem_append, List.mem_cons, List.mem_map, List.not_mem_nil, or_false] at hmem
    have hd : n ≠ "image_info" ∧ n ≠ "metadata" ∧ n ≠ "object_data" := by
      simp only [List.mem_cons, List.not_mem_nil, or_false] at hn
      rcases hn with rfl | rfl | rfl <;> decide
    rcases hmem with ((h' | h') | ⟨t, ht, h'⟩ | h') | h'
    · exact absurd h' hd.1
    · exact absurd h' hd.2.1
    · refine key t (by simp [ht]) n ?_
      have : t ≠ "psf" := fun e => by
        have := hty t ht
        rw [e] at this
        revert this
        decide
      unfold hduName
      rw [if_neg this]
      exact h'
    · exact key "psf" (by simp) n h'.symm
    · exact absurd h' hd.2.2
  · intro i j o s he
    have := (e5 o (List.mem_of_getElem? he.1)).2.2
    omega
  · intro _ i j o s he
    unfold psfPixels
    rw [e2]
    have := (e6 _ _ _ _ he).2.2.2
    exact pow_ne_zero _ this.ne'
  · intro _
    rw [e2]
    exact .inl (by decide)

/-- **C78 (limits)** The `ormask` plane, which every coadd file has, is not in the subset: reading it raises. -/
theorem C78_ormask_lost {k k' : CMaker} {lo hi : Nat} {m m' mg : MEDS} {f g : Fits} {a b : Int} (h : CoaddWritten k k' lo hi m f) (ho : MEDS.openFile f = .ok m')
    (hx : extractRange f a b false = .ok g) (hg : MEDS.openFile g = .ok mg) : f.has "ormask_cutouts" = true ∧ ∀ i j im, mg.getCutout i j "ormask" ≠ .ok im := by
  obtain ⟨m'', e1, e2, e3, e4, enm, e5, e6, e7⟩ := coadd_epochs h
  obtain ⟨req, np, md, hinit⟩ := h.init
  obtain ⟨_, _, _, _, _, et, _⟩ := init_rows hinit
  obtain ⟨hty, hor, hno, him⟩ := loadTypes_supported et
  obtain ⟨pix, hp⟩ := e4 "ormask" (by simp [hor])
  refine ⟨by unfold Fits.has; rw [show "ormask_cutouts" = hduName "ormask" by decide, hp]; rfl, ?_⟩
  intro i j im hc
  obtain ⟨t, rows, r, psf, info, md', cuts, hr⟩ := ranged_iff.mp hx
  have hcut : Fits.lookup cuts "ormask_cutouts" = none := by
    have hcu := hr.cuts_eq
    unfold rangeCutouts at hcu
    split at hcu
    · injection hcu with hcu
      rw [← hcu]
      decide
    · obtain ⟨cs, h1, hcu⟩ := Res.bind_eq_ok.mp hcu
      obtain ⟨p, h2, hcu⟩ := Res.bind_eq_ok.mp hcu
      injection hcu with hcu
      rw [← hcu, lookup_append, (lookup_mapRes sliceExt_name h1 "ormask_cutouts").2 (by
        unfold rangeExts
        simp)]
      unfold psfHdu at h2
      split at h2
      · injection h2 with h2
        rw [← h2]
        rfl
      · obtain ⟨q, _, h2⟩ := Res.bind_eq_ok.mp h2
        injection h2 with h2
        rw [← h2]
        rfl
  have hgf : g.has "ormask_cutouts" = false := by
    rw [hr.out]
    unfold Fits.has Fits.find extras
    dsimp only
    rw [lookup_append, lookup_append, hcut]
    rfl
  obtain ⟨p1, _⟩ := opened_parts hg
  unfold MEDS.getCutout at hc
  rw [if_neg (by decide)] at hc
  obtain ⟨_, _, hc⟩ := Res.bind_eq_ok.mp hc
  obtain ⟨_, _, hc⟩ := Res.bind_eq_ok.mp hc
  obtain ⟨_, _, hc⟩ := Res.bind_eq_ok.mp hc
  obtain ⟨_, hc, _⟩ := Res.bind_eq_ok.mp hc
  unfold MEDS.extensionName at hc
  rw [p1, show "ormask" ++ "_cutouts" = "ormask_cutouts" by decide] at hc
  dsimp only at hc
  rw [hgf] at hc
  cases hc

/-- **C78 (limits)** Extraction by number never completes on a coadd file, as soon as one of the numbers asked for belongs to an object with a coadd. -/
theorem C78_numbers_fail {k k' : CMaker} {lo hi : Nat} {m m' : MEDS} {f : Fits} {sorts : Bool} {numbers : List Int} {n : Int} (h : CoaddWritten k k' lo hi m f)
    (ho : MEDS.openFile f = .ok m') (hn : n ∈ numbers) (hob : ∀ o ∈ m'.cat.rows, o.number = n → o.ncutout = 1) : ∀ g, extractNumbers sorts f numbers ≠ .ok g := by
  intro g hx
  obtain ⟨m'', e1, e2, e3, e4, enm, e5, e6, e7⟩ := coadd_epochs h
  rw [ho] at e1
  injection e1 with e1
  subst e1
  have hps : f.has "psf" = true := by
    obtain ⟨pix, hp⟩ := e4 "psf" (by simp)
    unfold Fits.has
    rw [show hduName "psf" = "psf" by decide] at hp
    rw [hp]
    rfl
  unfold extractNumbers at hx
  split at hx
  swap
  · cases hx
  split at hx
  · cases hx
  obtain ⟨t, inds, rows, rs, rows1, p, info, md, cuts, hN⟩ := numbered_iff.mp hx
  obtain ⟨p1, p2, _, _⟩ := opened_parts ho
  have htc : t = m'.cat := by have := hN.objects; rw [p2] at this; simpa using this.symm
  subst htc
  obtain ⟨_, hnum, _⟩ := numberInds_ok hN.inds_eq
  obtain ⟨inds', hperm, _, _, hlen, hget, hmap⟩ := takeRows_ok hN.rows_eq
  have hin : n ∈ rows.map (·.number) := by
    rw [hmap, (hperm.map _).mem_iff, hnum, List.mem_insertionSort]
    exact hn
  have hsub : ∀ o ∈ rows, o ∈ m'.cat.rows := by
    intro o hm
    obtain ⟨i, hi⟩ := List.mem_iff_getElem?.mp hm
    have hil : i < inds'.length := by rw [← hlen]; exact (List.getElem?_eq_some_iff.mp hi).1
    obtain ⟨o', q1, q2⟩ := hget i _ (List.getElem?_eq_getElem hil)
    rw [hi] at q1
    injection q1 with q1
    subst q1
    exact List.mem_of_getElem? q2
  obtain ⟨o, hom, hon⟩ := List.mem_map.mp hin
  have ho1 : o.ncutout = 1 := hob o (hsub o hom) hon
  have hrel := (Numbered.rows_rel hN).1
  have hpe := hN.psf_eq
  unfold numberPsf at hpe
  rw [if_pos hps] at hpe
  obtain ⟨prs, hp1, hpe⟩ := Res.bind_eq_ok.mp hpe
  obtain ⟨rows', hp2, _⟩ := Res.bind_eq_ok.mp hpe
  have hst : ∀ o1 ∈ rows1, 0 < o1.ncutout → ∀ r, psfRowRange m'.cat.dtype [o1] = .ok r → r.1 ≠ -1 := by
    intro o1 hm1 hn1 r hr
    obtain ⟨i, hi⟩ := List.mem_iff_getElem?.mp hm1
    have hl := hrel.length_eq
    have hil := (List.getElem?_eq_some_iff.mp hi).1
    have hsp := (List.forall₂_iff_get.mp hrel).2 i (by omega) hil
    simp only [List.get_eq_getElem] at hsp
    rw [(List.getElem?_eq_some_iff.mp hi).2] at hsp
    have hmo : rows[i] ∈ m'.cat.rows := hsub _ (List.getElem_mem _)
    obtain ⟨l, hl'⟩ := List.mem_iff_getElem?.mp hmo
    have hw : withCutouts [o1] = [o1] := by unfold withCutouts; rw [List.filter_cons_of_pos (by simpa using hn1)]; rfl
    unfold psfRowRange at hr
    rw [hw] at hr
    simp only [List.head?_cons, List.getLast?_singleton] at hr
    obtain ⟨s0, h0, hr⟩ := Res.bind_eq_ok.mp hr
    obtain ⟨_, _, hr⟩ := Res.bind_eq_ok.mp hr
    obtain ⟨_, _, hr⟩ := Res.bind_eq_ok.mp hr
    injection hr with hr
    have h0' := pyGet_ok_nonneg h0 (by omega)
    have hc := (e5 _ hmo).2.1
    rw [hsp.ncut] at hn1
    have hz : rows[i].slots[0]? = some (rows[i].slots[0]'(by omega)) := List.getElem?_eq_getElem _
    obtain ⟨s', q1, q2⟩ := hsp.slot hz
    have := (e6 l 0 _ _ ⟨hl', by push_cast; omega, hz⟩).2.2.1
    rw [show ((0 : Int)).toNat = 0 by rfl] at h0'
    rw [h0'] at q1
    injection q1 with q1
    rw [← hr, q1, q2]
    dsimp only
    omega
  have hne : firstStart prs ≠ -1 := by
    obtain ⟨i, hi⟩ := List.mem_iff_getElem?.mp hom
    have hl := hrel.length_eq
    obtain ⟨hil, hie⟩ := List.getElem?_eq_some_iff.mp hi
    have hsp := (List.forall₂_iff_get.mp hrel).2 i hil (by omega)
    simp only [List.get_eq_getElem, hie] at hsp
    have hpos1 : 0 < (rows1[i]'(by omega)).ncutout := by rw [hsp.ncut, ho1]; norm_num
    unfold psfRowRanges at hp1
    cases hw : withCutouts rows1 with
    | nil =>
      have := withCutouts_nil.mp hw _ (List.getElem_mem (by omega : i < rows1.length))
      omega
    | cons x l =>
      rw [hw] at hp1
      obtain ⟨r, l', hr1, _, rfl⟩ := List.forall₂_cons_left_iff.mp (mapRes_ok_iff.mp hp1)
      have hx := mem_withCutouts.mp (show x ∈ withCutouts rows1 by rw [hw]; exact List.mem_cons_self)
      exact hst x hx.1 hx.2 r hr1
  unfold newPsfStarts at hp2
  rw [if_pos hne, e2] at hp2
  cases hp2

/-! ### The example -/

/-- The conditions of `GoodStamp`, as a test. -/
def goodTest (b : Nat) (obs : CoaddObs) : Bool :=
  ([obs.stamp.image, obs.stamp.weight, obs.stamp.noise, obs.seg, obs.bmask, obs.ormask].all (fun im => decide (im.nr = b) && decide (im.nc = b) && decide (im.flat.length = im.nr * im.nc))) &&
    decide (obs.stamp.psf.nc = obs.stamp.psf.nr) && decide (obs.stamp.psf.flat.length = obs.stamp.psf.nr * obs.stamp.psf.nc) && decide (0 < obs.stamp.psf.nr)

theorem goodTest_ok {b : Nat} {obs : CoaddObs} (h : goodTest b obs = true) : GoodStamp b obs := by
  unfold goodTest at h
  simp only [List.all_cons, List.all_nil, Bool.and_true, Bool.and_eq_true, decide_eq_true_eq] at h
  obtain ⟨⟨⟨⟨h1, h2, h3, h4, h5, h6⟩, h7⟩, h8⟩, h9⟩ := h
  exact ⟨⟨h1.1.1, h1.1.2, h1.2⟩, ⟨h2.1.1, h2.1.2, h2.2⟩, ⟨h3.1.1, h3.1.2, h3.2⟩, ⟨h4.1.1, h4.1.2, h4.2⟩, ⟨h5.1.1, h5.1.2, h5.2⟩, ⟨h6.1.1, h6.1.2, h6.2⟩, ⟨rfl, h7, h8⟩, h9⟩

/-- Test on the three-object coadd file of the examples, and its reader. -/
theorem exTest {test : CMaker → Fits → MEDS → Bool} (h : (match Ex.coaddMaker with
    | .error _ => false
    | .ok k => match k.write 0 3 with
      | .error _ => false
      | .ok (_, f) => match MEDS.openFile f with
        | .error _ => false
        | .ok m' => test k f m') = true) :
    ∃ k k' f m', CoaddWritten k k' 0 3 Ex.stampsMed f ∧ MEDS.openFile f = .ok m' ∧ test k f m' = true := by
  cases hk : Ex.coaddMaker with
  | error e => rw [hk] at h; cases h
  | ok k =>
    rw [hk] at h
    dsimp only at h
    cases hw : k.write 0 3 with
    | error e => rw [hw] at h; cases h
    | ok r =>
      rw [hw] at h
      dsimp only at h
      cases ho : MEDS.openFile r.2 with
      | error e => rw [ho] at h; cases h
      | ok m' =>
        rw [ho] at h
        have hk' := hk
        unfold Ex.coaddMaker at hk'
        obtain ⟨hc, hcd, _⟩ := init_rows hk'
        refine ⟨k, r.1, r.2, m', ⟨⟨["weight", "seg", "bmask"], 100, "", by rw [hc, hcd]; exact hk'⟩, hw, by decide +kernel, ?_, by decide +kernel⟩, ho, h⟩
        intro i o obs _ hi hio hco
        rw [hcd] at hco
        obtain ⟨fl, hco⟩ := hco
        apply goodTest_ok
        have key : (List.range 3).all (fun i => match Ex.stampsMed.cat.rows[i]?, Ex.coadder i with
          | some o, .ok (some obs, _) => goodTest o.boxSize.toNat obs
          | _, _ => true) = true := by decide +kernel
        have := List.all_eq_true.mp key i (List.mem_range.mpr hi)
        rw [hio, hco] at this
        exact this

/-- Cutting the last two objects (one without, one with a coadd) out of the example file: both complete, and the stamp is the same. -/
example : ∃ k k' f m', CoaddWritten k k' 0 3 Ex.stampsMed f ∧ MEDS.openFile f = .ok m' ∧
    (match extractRange f 1 2 false with
      | .error _ => false
      | .ok g => match MEDS.openFile g with
        | .error _ => false
        | .ok mg => (mg.getCutout 1 0 "image").toBool && decide (mg.getCutout 1 0 "image" = m'.getCutout 2 0 "image") && decide (mg.getPsf 1 0 = m'.getPsf 2 0) && (mg.getPsf 1 0).toBool) = true :=
  exTest (test := fun _ f m' => _) (by decide +kernel)

/-- The hypotheses of `C78_range_completes` and `C78_numbers_fail` are met: object number 1 has a coadd. -/
example : ∃ k k' f m', CoaddWritten k k' 0 3 Ex.stampsMed f ∧ MEDS.openFile f = .ok m' ∧
    (decide ("weight" ∈ k.types ∧ "seg" ∈ k.types) && decide (∀ o ∈ m'.cat.rows, o.number = (m'.cat.rows.map (·.number)).headD 0 → o.ncutout = 1)) = true :=
  exTest (test := fun k _ m' => _) (by decide +kernel)

/-- **C78** The full claim - every plane of every object of a subset of a coadd file is as in the coadd file - is false: the `ormask` stamp can be read in the coadd
file but not in the subset; and extraction by number of that same object fails. -/
theorem C78_counterexample : ∃ k k' f m' g mg, CoaddWritten k k' 0 3 Ex.stampsMed f ∧ MEDS.openFile f = .ok m' ∧ extractRange f 0 0 false = .ok g ∧ MEDS.openFile g = .ok mg ∧
    (∃ im, m'.getCutout 0 0 "ormask" = .ok im) ∧ mg.getCutout 0 0 "ormask" = .error .valueError ∧ ∃ n o, m'.cat.rows[0]? = some o ∧ o.number = n ∧
      ∀ sorts g', extractNumbers sorts f [n] ≠ .ok g' := by
  obtain ⟨k, k', f, m', h1, h2, h3⟩ := exTest (test := fun k f m' => match extractRange f 0 0 false with
    | .error _ => false
    | .ok g => match MEDS.openFile g with
      | .error _ => false
      | .ok mg => (m'.getCutout 0 0 "ormask").toBool && decide (mg.getCutout 0 0 "ormask" = .error .valueError) &&
        decide (∀ o ∈ m'.cat.rows, o.number = (m'.cat.rows.map (·.number)).headD 0 → o.ncutout = 1) && decide (0 < m'.cat.rows.length)) (by decide +kernel)
  cases hg : extractRange f 0 0 false with
  | error e => rw [hg] at h3; cases h3
  | ok g =>
    rw [hg] at h3
    dsimp only at h3
    cases hm : MEDS.openFile g with
    | error e => rw [hm] at h3; cases h3
    | ok mg =>
      rw [hm] at h3
      simp only [Bool.and_eq_true, decide_eq_true_eq] at h3
      obtain ⟨⟨⟨q1, q2⟩, q3⟩, q4⟩ := h3
      refine ⟨k, k', f, m', g, mg, h1, h2, hg, hm, ?_, q2, _, m'.cat.rows[0], List.getElem?_eq_getElem q4, rfl, ?_⟩
      · cases hc : m'.getCutout 0 0 "ormask" with
        | error e => rw [hc] at q1; cases q1
        | ok im => exact ⟨im, rfl⟩
      · intro sorts g'
        refine C78_numbers_fail h1 h2 (List.mem_singleton.mpr rfl) ?_ g'
        intro o ho hn
        apply q3 o ho
        rw [hn]
        have : ∀ (l : List ObjRow) (hl : 0 < l.length), l[0].number = (l.map (·.number)).headD 0 := by
          intro l hl
          cases l with
          | nil => cases hl
          | cons x l => rfl
        exact this _ q4

end Meds.Coadd
