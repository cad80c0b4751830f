import Verif.Props.CoaddExtract
import Verif.Props.ExtractedC

/-!
# Coadd files in the C library (C111)
-/

namespace Meds.Coadd
open Spec Maker C

/-- What every row and the `image_info` of a coadd file look like, whatever has been coadded. -/
def Kept (info : List InfoRow) (rows : List CRow) (hdus : List (String × Hdu)) : Prop :=
  (∀ c ∈ rows, c.row.slots.length = 2 ∧ (∀ s ∈ c.row.slots, s.fileId = 0) ∧ (c.row.ncutout = 0 ∨ c.row.ncutout = 1)) ∧
    Fits.lookup hdus "image_info" = some (.info info) ∧ Fits.lookup hdus "object_data" = none

theorem kept_cutouts {info : List InfoRow} {cast : String → ℚ → ℚ} {obs : CoaddObs} {a b : Int} {types : List String} (hty : ∀ t ∈ types, t ∈ "psf" :: supportedTypes)
    {h h' : List (String × Hdu)} (hw : foldRes (writeCutout cast obs a b) h types = .ok h')
    (hk : Fits.lookup h "image_info" = some (.info info) ∧ Fits.lookup h "object_data" = none) :
    Fits.lookup h' "image_info" = some (.info info) ∧ Fits.lookup h' "object_data" = none := by
  refine foldRes_inv (P := fun h => Fits.lookup h "image_info" = some (.info info) ∧ Fits.lookup h "object_data" = none) hk ?_ hw
  intro t t' x hx ht he
  unfold writeCutout at he
  obtain ⟨p, _, he⟩ := Res.bind_eq_ok.mp he
  obtain ⟨_, hr, _⟩ := modifyImage_ok he
  obtain ⟨n1, n2, _⟩ := hduName_ne (hty x hx)
  rw [hr _ n2.symm, hr _ n1.symm]
  exact ht

theorem kept_object {info : List InfoRow} {types : List String} {cast : String → ℚ → ℚ} {coadder : Nat → Res (Option CoaddObs × Int)}
    (hty : ∀ t ∈ types, t ∈ supportedTypes) {st st' : WState} {i : Nat} (hk : Kept info st.rows st.hdus)
    (hw : writeObject types cast coadder st i = .ok st') : Kept info st'.rows st'.hdus := by
  unfold writeObject at hw
  obtain ⟨r, _, hw⟩ := Res.bind_eq_ok.mp hw
  obtain ⟨c, hc, hw⟩ := Res.bind_eq_ok.mp hw
  have hcm : c ∈ st.rows := List.mem_of_getElem? (pyGet_ok_nonneg hc (by omega))
  obtain ⟨k1, k2⟩ := hk
  obtain ⟨q1, q2, q3⟩ := k1 c hcm
  split at hw
  · injection hw with hw
    subst hw
    refine ⟨?_, k2⟩
    intro d hd
    rcases List.mem_or_eq_of_mem_set hd with hd | hd
    · exact k1 d hd
    · subst hd; exact ⟨q1, q2, q3⟩
  · rename_i obs _
    split at hw
    · cases hw
    split at hw
    · cases hw
    obtain ⟨h, hh, hw⟩ := Res.bind_eq_ok.mp hw
    injection hw with hw
    subst hw
    refine ⟨?_, kept_cutouts (fun t ht => ?_) hh k2⟩
    · intro d hd
      rcases List.mem_or_eq_of_mem_set hd with hd | hd
      · exact k1 d hd
      · subst hd
        refine ⟨by simpa [fillRow] using q1, ?_, .inr rfl⟩
        obtain ⟨x, y, e⟩ : ∃ x y, c.row.slots = [x, y] := List.length_eq_two.mp q1
        intro s hs
        simp only [fillRow, e, List.modify_zero_cons, List.mem_cons, List.not_mem_nil, or_false] at hs
        rcases hs with hs | hs
        · rw [hs]; exact q2 x (by simp [e])
        · rw [hs]; exact q2 y (by simp [e])
    · rcases List.mem_append.mp ht with ht | ht
      · exact List.mem_cons_of_mem _ (hty t ht)
      · rw [List.mem_singleton.mp ht]; simp

variable {cols : List String} {k k' : CMaker} {lo hi : Nat} {m m' : MEDS} {f : Fits}

/-- The parts of a coadd file that the C library looks at first. -/
theorem coadd_kept (h : CoaddWritten k k' lo hi m f) (hm : MEDS.openFile f = .ok m') :
    m'.info = m.info.take 1 ∧ ∀ r ∈ m'.cat.rows, r.slots.length = 2 ∧ (∀ s ∈ r.slots, s.fileId = 0) ∧ (r.ncutout = 0 ∨ r.ncutout = 1) := by
  obtain ⟨req, np, md, hinit⟩ := h.init
  obtain ⟨_, _, _, ei, _, et, _⟩ := init_rows hinit
  obtain ⟨hty, _⟩ := loadTypes_supported et
  have hw := h.write
  unfold CMaker.write at hw
  obtain ⟨st, hst, hw⟩ := Res.bind_eq_ok.mp hw
  injection hw with hw
  injection hw with hk' hf
  have h0 : Kept k.info k.rows k.reserved := by
    refine ⟨?_, rfl, ?_⟩
    · intro c hc
      unfold CMaker.init at hinit
      obtain ⟨ts, _, hinit⟩ := Res.bind_eq_ok.mp hinit
      obtain ⟨rows, h2, hinit⟩ := Res.bind_eq_ok.mp hinit
      injection hinit with hinit
      have er : k.rows = rows := by rw [← hinit]
      rw [er] at hc
      unfold setObjData at h2
      obtain ⟨mx, _, h2⟩ := Res.bind_eq_ok.mp h2
      split at h2
      · obtain ⟨i, hi⟩ := List.mem_iff_getElem?.mp hc
        have hlt : i < m.cat.rows.length := by
          have := (List.getElem?_eq_some_iff.mp hi).1
          have := mapRes_length h2
          omega
        obtain ⟨c', hc', hn⟩ := mapRes_getElem? h2 (List.getElem?_eq_getElem hlt)
        rw [hi] at hc'
        injection hc' with hc'
        subst hc'
        unfold newRow at hn
        obtain ⟨s, _, hn⟩ := Res.bind_eq_ok.mp hn
        injection hn with hn
        subst hn
        exact ⟨rfl, by simp, .inl rfl⟩
      · cases h2
    · unfold CMaker.reserved
      rw [lookup_append, lookup_append, lookup_reserved_none (fun t ht => (cutouts_ne (hty t ht)).1.symm)]
      rfl
  have hk : Kept k.info st.rows st.hdus := foldRes_inv (P := fun st : WState => Kept k.info st.rows st.hdus) h0
    (fun t t' x _ ht he => kept_object hty ht he) hst
  obtain ⟨k1, k2, k3⟩ := hk
  obtain ⟨_, p2, p3, _⟩ := opened_parts hm
  have fobj : f.find "object_data" = some (.objects ⟨outDtype, st.rows.map (·.row)⟩) := by
    rw [← hf]; show Fits.lookup (st.hdus ++ _) _ = _
    rw [lookup_append, k3]; rfl
  have finf : f.find "image_info" = some (.info k.info) := by
    rw [← hf]; show Fits.lookup (st.hdus ++ _) _ = _
    rw [lookup_append, k2]; rfl
  rw [finf] at p3
  rw [fobj] at p2
  injection p3 with p3
  injection p3 with p3
  injection p2 with p2
  injection p2 with p2
  refine ⟨by rw [← p3, ei], ?_⟩
  intro r hr
  rw [← p2] at hr
  obtain ⟨c, hc, rfl⟩ := List.mem_map.mp hr
  exact k1 c hc

/-- **C111** The C library opens every coadd file with at least one object whose original file has at least one image and the columns that `load_image_info`
asks for; it sees as many objects as the original file has. -/
theorem C111_opens (h : CoaddWritten k k' lo hi m f) (hm : MEDS.openFile f = .ok m') (hobj : 0 < m.size) (him : m.info ≠ [])
    (hcols : ∀ c ∈ ["image_id", "image_flags", "image_path", "wcs_path", "sky_path", "seg_path", "magzp", "scale"], c ∈ cols) :
    OneWidth m'.cat ∧ ∃ hc, medsOpen cols f = .ok hc ∧ hc.cat.length = m.size := by
  obtain ⟨hinfo, hall⟩ := coadd_kept h hm
  obtain ⟨m'', e1, _, elen, _⟩ := coadd_epochs h
  rw [hm] at e1
  injection e1 with e1
  subst e1
  have hone : OneWidth m'.cat := fun r hr r' hr' => by rw [(hall r hr).1, (hall r' hr').1]
  obtain ⟨p1, p2, p3, p4⟩ := opened_parts hm
  have hpos : 0 < m'.cat.rows.length := by unfold MEDS.size at hobj; omega
  have hmax : ncutoutMax m'.cat = 2 := by
    have hr : m'.cat.rows[0] ∈ m'.cat.rows := List.getElem_mem hpos
    rw [← width_eq hone hr, (hall _ hr).1]
  obtain ⟨l, hl⟩ : ∃ l, mapRes (loadRow (ncutoutMax m'.cat)) m'.cat.rows = .ok l := by
    apply mapRes_of_forall
    intro r hr
    obtain ⟨_, _, e2⟩ := hall r hr
    unfold loadRow
    rw [if_pos (by rw [hmax]; push_cast; omega)]
    exact ⟨_, rfl⟩
  refine ⟨hone, ⟨f, l, m'.info⟩, ?_, by show l.length = _; rw [mapRes_length hl, elen]; rfl⟩
  have hcg : readObjects f = .ok l := by
    unfold readObjects
    rw [p2]
    dsimp only
    rw [if_neg (by omega)]
    exact hl
  have hig : readInfo cols f = .ok m'.info := by
    unfold readInfo
    rw [p3]
    dsimp only
    rw [if_neg (by rw [hinfo]; cases hi : m.info with | nil => exact absurd hi him | cons a b => simp), if_pos]
    rw [List.all_eq_true]
    intro c hc
    exact decide_eq_true (hcols c hc)
  unfold medsOpen
  rw [hcg, hig]
  simp only [Res.ok_bind]
  rw [p4]

/-- The row of a coadded object. -/
theorem coadd_row (h : CoaddWritten k k' lo hi m f) (hm : MEDS.openFile f = .ok m') {i : Nat} (h1 : lo ≤ i) (h2 : i < hi) {obs : CoaddObs} {fl : Int}
    (hco : k.coadder i = .ok (some obs, fl)) :
    ∃ r s, m'.cat.rows[i]? = some r ∧ r.ncutout = 1 ∧ r.slots[0]? = some s ∧ CoaddView k.types k.cast m' i obs := by
  obtain ⟨req, np, md, hinit⟩ := h.init
  obtain ⟨m'', e1, e2, e3, _, _, _, e6⟩ := written_coadd hinit h.write h.inside h.good h.pos
  rw [hm] at e1
  injection e1 with e1
  subst e1
  have hin := h.inside
  obtain ⟨c, c1, _, _, _, _, c4⟩ := e6 i _ (List.getElem?_eq_getElem (by omega))
  rcases c4 h1 h2 with ⟨fl', g, _⟩ | ⟨obs', fl', s, g, n1, _, _, hs, _, _, _, _, v⟩
  · rw [hco] at g; cases g
  · rw [hco] at g
    injection g with g
    injection g with g g'
    injection g with g
    subst g
    exact ⟨c.row, s, by rw [e2, List.getElem?_map, c1]; rfl, n1, hs, v⟩

/-- The row of an object without coadd. -/
theorem bare_row (h : CoaddWritten k k' lo hi m f) (hm : MEDS.openFile f = .ok m') {i : Nat} (hlt : i < m.size)
    (hno : lo ≤ i → i < hi → ∃ fl, k.coadder i = .ok (none, fl)) :
    ∃ r, m'.cat.rows[i]? = some r ∧ r.ncutout = 0 := by
  obtain ⟨req, np, md, hinit⟩ := h.init
  obtain ⟨m'', e1, e2, e3, _, _, _, e6⟩ := written_coadd hinit h.write h.inside h.good h.pos
  rw [hm] at e1
  injection e1 with e1
  subst e1
  unfold MEDS.size at hlt
  obtain ⟨c, c1, _, _, _, c3, c4⟩ := e6 i _ (List.getElem?_eq_getElem hlt)
  refine ⟨c.row, by rw [e2, List.getElem?_map, c1]; rfl, ?_⟩
  by_cases hr : lo ≤ i ∧ i < hi
  · obtain ⟨fl, hfl⟩ := hno hr.1 hr.2
    rcases c4 hr.1 hr.2 with ⟨_, _, n0, _⟩ | ⟨obs', fl', s, g, _⟩
    · exact n0
    · rw [hfl] at g; cases g
  · exact (c3 hr).1

variable {hc : Handle}

/-- **C111** What the C library reads of a coadded object: one cutout, which is the coadded image; the coadded weight map, and the labels when they are whole
numbers, if these types were asked for; the centre and the derivatives of the coadd's own jacobian; the first row of the original `image_info` as its source. -/
theorem C111_coadded (h : CoaddWritten k k' lo hi m f) (ho : medsOpen cols f = .ok hc) {i : Nat} (h1 : lo ≤ i) (h2 : i < hi) {obs : CoaddObs} {fl : Int}
    (hco : k.coadder i = .ok (some obs, fl)) (him : m.info ≠ []) :
    getNcutout hc i = .ok 1 ∧
    (∃ c, getCutout hc i 0 = .ok c ∧ SameImage c (obs.stamp.image.map (k.cast "image"))) ∧
    (∃ c, getMosaic hc i = .ok c ∧ SameImage c (obs.stamp.image.map (k.cast "image"))) ∧
    ("weight" ∈ k.types → ∃ c, getWeightCutout hc i 0 = .ok c ∧ SameImage c (obs.stamp.weight.map (k.cast "weight"))) ∧
    ("seg" ∈ k.types → (∀ v ∈ (obs.seg.map (k.cast "seg")).flat, ∃ n : Int, v = n) → ∃ c, getSegCutout hc i 0 = .ok c ∧ SameImage c (obs.seg.map (k.cast "seg"))) ∧
    getCutoutCen hc i 0 = .ok (obs.stamp.jac.row0, obs.stamp.jac.col0) ∧
    getDistortion hc i 0 = .ok ⟨obs.stamp.jac.dudrow, obs.stamp.jac.dudcol, obs.stamp.jac.dvdrow, obs.stamp.jac.dvdcol⟩ ∧
    (∃ r, m.info[0]? = some r ∧ getSourceInfo hc i 0 = .ok r ∧ getSourcePath hc i 0 = .ok r.imagePath) := by
  obtain ⟨m', hm, _⟩ := coadd_epochs h
  obtain ⟨hinfo, hall⟩ := coadd_kept h hm
  have hone : OneWidth m'.cat := fun r hr r' hr' => by rw [(hall r hr).1, (hall r' hr').1]
  obtain ⟨r, s, hr, hn, hs, hv⟩ := coadd_row h hm h1 h2 hco
  obtain ⟨req, np, md, hinit⟩ := h.init
  obtain ⟨_, _, _, himg⟩ := loadTypes_supported (init_rows hinit).2.2.2.2.2.1
  have vp : ValidPair m'.cat.rows i 0 := ⟨by omega, by omega, r, by rw [Int.toNat_natCast]; exact hr, by omega⟩
  have vp' : ValidPair m'.cat.rows i ((0 : Nat) : Int) := vp
  obtain ⟨x, hx⟩ : ∃ x, m.info[0]? = some x := by
    cases hi : m.info with
    | nil => exact absurd hi him
    | cons a b => exact ⟨a, rfl⟩
  have hx' : m'.info[0]? = some x := by rw [hinfo, List.getElem?_take]; simpa using hx
  have hl : 0 < m'.info.length := (List.getElem?_eq_some_iff.mp hx').1
  have hmem := List.mem_of_getElem? hr
  have hs0 := (hall r hmem).2.1 s (List.mem_of_getElem? hs)
  obtain ⟨a1, a2, a3⟩ := C39_accessors_agree_partial ho hm hone vp' (fun r hr s hs => by rw [(hall r hr).2.1 s hs]; exact_mod_cast hl)
  have hep : Epoch m'.cat.rows i 0 r s := ⟨hr, by omega, hs⟩
  have hslot : m'.slot i ((0 : Nat) : Int) = .ok s := MEDS.Epoch.slot hep
  obtain ⟨b1, b2⟩ := a3 s hslot (by omega)
  obtain ⟨c1, c2, _, _⟩ := C39_cutouts_agree_partial ho hm hone vp'
  have hjac := hv.jacobian
  have hsi : m'.getSourceInfo i ((0 : Nat) : Int) = .ok x := by
    unfold MEDS.getSourceInfo
    rw [MEDS.checkIndices_some hr (by omega), hslot]
    simp only [Res.ok_bind]
    rw [hs0]
    exact pyGet_nat_some (k := 0) hx'
  obtain ⟨p, p1, p2⟩ := hv.cutout "image" himg
  simp [stampPlanes] at p1
  subst p1
  obtain ⟨c, d1, d2⟩ := c1 _ p2
  have hmos : getMosaic hc i = getCutout hc i 0 := by
    obtain ⟨o, l1, _, _, l4, l5, _⟩ := loaded ho hm hone hr
    have hck : checkIobjIcutout hc (i : Int) 0 = .ok o := by
      unfold checkIobjIcutout
      rw [getObj_nat l1]
      simp only [Res.ok_bind]
      rw [if_neg (by omega)]
    show mosaic _ hc i = cutout _ hc i 0
    unfold mosaic cutout mosaicp cutoutp
    rw [hck]
    simp only [Res.ok_bind]
    rw [l4, hn, mul_one]
    cases index o.arrays 0 with
    | error e => rfl
    | ok sl =>
      simp only [Res.ok_bind]
      cases readPix hc "image_cutouts" sl.startRow (o.boxSize * o.boxSize) with
      | error e => rfl
      | ok px => rfl
  obtain ⟨j, j1, j2⟩ := C41_epoch_zero_partial ho hm hone vp'
  rw [hjac] at j1
  injection j1 with j1
  have hcen : m'.getCutoutRowcol i ((0 : Nat) : Int) = .ok (obs.stamp.jac.row0, obs.stamp.jac.col0) := by
    unfold MEDS.getJacobian at hjac
    obtain ⟨_, _, hjac⟩ := Res.bind_eq_ok.mp hjac
    obtain ⟨rc, hrc, hjac⟩ := Res.bind_eq_ok.mp hjac
    obtain ⟨_, _, hjac⟩ := Res.bind_eq_ok.mp hjac
    injection hjac with hjac
    rw [← hjac]
    exact hrc
  refine ⟨by rw [a2 r hr, hn], ⟨c, d1, d2⟩, ⟨c, by rw [hmos]; exact d1, d2⟩, ?_, ?_, a1.trans hcen, by rw [j1]; exact j2, x, hx, b1.trans hsi, ?_⟩
  · intro hw
    obtain ⟨p, p1, p2⟩ := hv.cutout "weight" hw
    simp [stampPlanes] at p1
    subst p1
    exact c2 _ p2
  · intro hw hl
    obtain ⟨p, p1, p2⟩ := hv.cutout "seg" hw
    simp [stampPlanes] at p1
    subst p1
    exact C39_seg_agrees_partial ho hm hone vp' p2 hl
  · refine b2.trans ?_
    unfold MEDS.getSourcePath
    rw [hsi]
    rfl

/-- **C111** An object without coadd - outside the range, or all of whose epochs were refused - has no cutouts in C, and every accessor of one refuses it. -/
theorem C111_not_coadded (h : CoaddWritten k k' lo hi m f) (ho : medsOpen cols f = .ok hc) {i : Nat} (hlt : i < m.size)
    (hno : lo ≤ i → i < hi → ∃ fl, k.coadder i = .ok (none, fl)) :
    getNcutout hc i = .ok 0 ∧ getMosaic hc i = .error .nullResult ∧ ∀ n : Int, getCutout hc i n = .error .nullResult ∧ getWeightCutout hc i n = .error .nullResult ∧
      getSegCutout hc i n = .error .nullResult ∧ getDistortion hc i n = .error .nullResult ∧ getSourcePath hc i n = .error .nullResult := by
  obtain ⟨m', hm, _⟩ := coadd_epochs h
  obtain ⟨_, hall⟩ := coadd_kept h hm
  have hone : OneWidth m'.cat := fun r hr r' hr' => by rw [(hall r hr).1, (hall r' hr').1]
  obtain ⟨r, hr, hn⟩ := bare_row h hm hlt hno
  have hv : ∀ n : Int, ¬ ValidPair m'.cat.rows i n := by
    rintro n ⟨_, h0, r', hr', hlt'⟩
    rw [Int.toNat_natCast, hr] at hr'
    injection hr' with hr'
    subst hr'
    omega
  refine ⟨?_, ((C40_bad_objects ho hm hone i).2 (hv 0)).1, ?_⟩
  · obtain ⟨o, l1, _, _, l4, _⟩ := loaded ho hm hone hr
    unfold getNcutout
    rw [getObj_nat l1]
    show Except.ok o.ncutout = _
    rw [l4, hn]
  · intro n
    obtain ⟨_, _, _, q1, q2, q3, q4, q5⟩ := C40_bad_indices ho hm hone (hv n)
    exact ⟨q3, q4, q5, q2, q1⟩

/-- **C111** Subsets: the C library opens what is extracted from a coadd file as a range of objects, and sees in object `i` of it object `a + i` of the coadd file. -/
theorem C111_extracted (h : CoaddWritten k k' lo hi m f) (hm : MEDS.openFile f = .ok m') (ho : medsOpen cols f = .ok hc) {a b : Int} {copyAll : Bool} {g : Fits} (ha : a < m.size)
    (hx : Extract.extractRange f a b copyAll = .ok g) :
    ∃ hg, medsOpen cols g = .ok hg ∧ (hg.cat.length : Int) = min (b + 1) m.size - a ∧ ∀ i : Nat, i < hg.cat.length → SameInC hg i hc (a.toNat + i) := by
  obtain ⟨h1, h2⟩ := C78_coadd_in_order h hm
  obtain ⟨_, hall⟩ := coadd_kept h hm
  obtain ⟨m'', e1, _, elen, _⟩ := coadd_epochs h
  rw [hm] at e1
  injection e1 with e1
  subst e1
  have hsz : m'.size = m.size := elen
  have hone : OneWidth m'.cat := fun r hr r' hr' => by rw [(hall r hr).1, (hall r' hr').1]
  obtain ⟨hg, e1, e2, e3⟩ := C108_range ho hm hone h1 (fun _ => h2) (by omega) hx
  exact ⟨hg, e1, by rw [e2, hsz], fun i hi => (e3 i hi).1⟩

/-- The coadd file of the examples in C: two objects with one cutout each, which is the image Python reads, and one object, all of whose epochs were refused,
without cutouts. -/
def exInC (k : CMaker) (f : Fits) (m' : MEDS) : Bool :=
  decide ("weight" ∈ k.types ∧ "seg" ∈ k.types) && match medsOpen infoColumns f with
    | .error _ => false
    | .ok hc => decide ((List.range 3).map (fun i : Nat => (getNcutout hc i).toOption) = [some 1, some 0, some 1]) &&
      [0, 2].all (fun i : Nat => match getCutout hc i 0, m'.getCutout i 0 "image" with
        | .ok c, .ok im => decide (c.pix = im.flat) && decide (im.flat.length = 4) && decide (getMosaic hc i = .ok c)
        | _, _ => false) && decide ((k.coadder 1).toOption.map (fun r => r.1.isSome) = some false)

/-- The hypotheses are met and the conclusions are not empty. -/
example : ∃ k k' f m', CoaddWritten k k' 0 3 Ex.stampsMed f ∧ MEDS.openFile f = .ok m' ∧ (0 < Ex.stampsMed.size ∧ Ex.stampsMed.info ≠ []) ∧ exInC k f m' = true := by
  obtain ⟨k, k', f, m', h1, h2, h3⟩ := exTest (test := exInC) (by decide +kernel)
  exact ⟨k, k', f, m', h1, h2, by decide +kernel, h3⟩

end Meds.Coadd
