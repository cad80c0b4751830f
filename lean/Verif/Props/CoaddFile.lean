import Verif.Lemmas.CoaddFile
import Verif.Lemmas.Total
import Verif.Examples.Coadd
import Verif.Props.CoaddObs

/-!
# The coadd file (C45)
-/

namespace Meds.Coadd
open Spec Maker

theorem loadTypes_supported {req types : List String} (h : loadTypes req = .ok types) : (∀ t ∈ types, t ∈ supportedTypes) ∧ "ormask" ∈ types ∧ "noise" ∈ types ∧ "image" ∈ types := by
  unfold loadTypes at h
  obtain ⟨ts, h1, h⟩ := Res.bind_eq_ok.mp h
  injection h with h
  obtain ⟨e, hs⟩ := setCutoutTypes_ok h1
  have him : "image" ∈ ts := by rw [e]; simp
  subst h
  simp only [List.foldl_cons, List.foldl_nil]
  have key : ∀ (x : String) (l : List String), x ∈ supportedTypes → (∀ t ∈ l, t ∈ supportedTypes) →
      (∀ t ∈ (if x ∈ l then l else l ++ [x]), t ∈ supportedTypes) ∧ x ∈ (if x ∈ l then l else l ++ [x]) ∧ ∀ t ∈ l, t ∈ (if x ∈ l then l else l ++ [x]) := by
    intro x l hx hl
    split
    · exact ⟨hl, ‹_›, fun t h => h⟩
    · refine ⟨?_, by simp, fun t h => by simp [h]⟩
      intro t ht
      rcases List.mem_append.mp ht with ht | ht
      · exact hl t ht
      · rw [List.mem_singleton.mp ht]; exact hx
  obtain ⟨a1, a2, a3⟩ := key "ormask" ts (by decide) hs
  obtain ⟨b1, b2, b3⟩ := key "noise" _ (by decide) a1
  exact ⟨b1, b3 _ a2, b2, b3 _ (a3 _ him)⟩

/-- The row of an object before the coaddition. -/
theorem init_rows {req : List String} {cast : String → ℚ → ℚ} {coadder : Nat → Res (Option CoaddObs × Int)} {np : Int} {md : String} {m : MEDS} {k : CMaker}
    (h : CMaker.init req cast coadder np md m = .ok k) :
    k.cast = cast ∧ k.coadder = coadder ∧ k.psfPixels = np ∧ k.info = m.info.take 1 ∧ k.metaData = md ∧ loadTypes req = .ok k.types ∧
    k.totalPixels = (m.cat.rows.map (fun o => o.boxSize * o.boxSize)).sum ∧
    k.rows.length = m.cat.rows.length ∧ ∀ (i : Nat) o, m.cat.rows[i]? = some o → ∃ c s, k.rows[i]? = some c ∧ o.slots[0]? = some s ∧ c.row.id = o.id ∧
      c.row.boxSize = o.boxSize ∧ c.row.number = o.number ∧ c.row.sky.ra = o.sky.ra ∧ c.row.sky.dec = o.sky.dec ∧ c.row.ncutout = 0 ∧ c.coaddFlags = 0 ∧ c.ncoadd = 0 ∧ c.origNcutout = o.ncutout - 1 ∧
      ∃ a b, c.row.slots = [a, b] ∧ a.fileId = 0 ∧ a.origRow = s.origRow ∧ a.origCol = s.origCol := by
  unfold CMaker.init at h
  obtain ⟨ts, h1, h⟩ := Res.bind_eq_ok.mp h
  obtain ⟨rows, h2, h⟩ := Res.bind_eq_ok.mp h
  injection h with h
  subst h
  unfold setObjData at h2
  obtain ⟨mx, h3, h2⟩ := Res.bind_eq_ok.mp h2
  split at h2
  · refine ⟨rfl, rfl, rfl, rfl, rfl, h1, rfl, mapRes_length h2, ?_⟩
    intro i o ho
    obtain ⟨c, hc, hn⟩ := mapRes_getElem? h2 ho
    refine ⟨c, ?_⟩
    unfold newRow at hn
    obtain ⟨s, hs, hn⟩ := Res.bind_eq_ok.mp hn
    injection hn with hn
    subst hn
    exact ⟨s, hc, pyGet_ok_nonneg hs (by omega), rfl, rfl, rfl, rfl, rfl, rfl, rfl, rfl, rfl, _, _, rfl, rfl, rfl, rfl⟩
  · cases h2

/-- What is written for a type is the plane of that name. -/
theorem plane_mem {obs : CoaddObs} {t : String} {p : Img ℚ} (ht : t ≠ "psf") (h : plane obs t = .ok p) : (t, p) ∈ stampPlanes obs := by
  unfold plane at h
  rw [if_neg ht] at h
  unfold stampPlanes
  split at h
  · rename_i e; injection h with h; subst h e; simp
  split at h
  · rename_i e; injection h with h; subst h e; simp
  split at h
  · rename_i e; injection h with h; subst h e; simp
  split at h
  · rename_i e; injection h with h; subst h e; simp
  split at h
  · rename_i e; injection h with h; subst h e; simp
  split at h
  · rename_i e; injection h with h; subst h e; simp
  · cases h

/-- What a reader sees of object `i` of the output. -/
structure _root_.Meds.Spec.CoaddView (types : List String) (cast : String → ℚ → ℚ) (m' : MEDS) (i : Nat) (obs : CoaddObs) : Prop where
  cutout : ∀ t ∈ types, ∃ p, (t, p) ∈ stampPlanes obs ∧ m'.getCutout i 0 t = .ok (p.map (cast t))
  psf : m'.getPsf i 0 = .ok (obs.stamp.psf.map (cast "psf"))
  jacobian : m'.getJacobian i 0 = .ok obs.stamp.jac

/-- The file of the next theorem, with the parts a reader does not see. -/
theorem written_coadd {req : List String} {cast : String → ℚ → ℚ} {coadder : Nat → Res (Option CoaddObs × Int)} {np : Int} {md : String} {m : MEDS} {k k' : CMaker} {f : Fits}
    {lo hi : Nat} (hinit : CMaker.init req cast coadder np md m = .ok k) (hw : k.write lo hi = .ok (k', f)) (hhi : hi ≤ m.cat.rows.length)
    (hgood : ∀ i o obs, lo ≤ i → i < hi → m.cat.rows[i]? = some o → Coadded coadder i obs → GoodStamp o.boxSize.toNat obs) (hpos : ∀ o ∈ m.cat.rows, 0 < o.boxSize) :
    ∃ m', MEDS.openFile f = .ok m' ∧ m'.cat.rows = k'.rows.map (·.row) ∧ m'.cat.rows.length = m.cat.rows.length ∧
      m'.cat.dtype = outDtype ∧ (∀ t ∈ k.types ++ ["psf"], ∃ pix, f.find (hduName t) = some (.image pix)) ∧
      f.hdus.map Prod.fst = k.reserved.map Prod.fst ++ ["object_data"] ∧
      ∀ i o, m.cat.rows[i]? = some o → ∃ c, k'.rows[i]? = some c ∧ c.row.id = o.id ∧ c.row.number = o.number ∧ c.row.boxSize = o.boxSize ∧
        (¬ (lo ≤ i ∧ i < hi) → c.row.ncutout = 0 ∧ c.coaddFlags = 0 ∧ c.ncoadd = 0) ∧
        (lo ≤ i → i < hi →
          (∃ fl, coadder i = .ok (none, fl) ∧ c.row.ncutout = 0 ∧ c.coaddFlags = fl ∧ c.ncoadd = 0) ∨
          ∃ obs fl s, coadder i = .ok (some obs, fl) ∧ c.row.ncutout = 1 ∧ c.coaddFlags = fl ∧ c.ncoadd = obs.ncoadd ∧ c.row.slots[0]? = some s ∧
            s.startRow = before (stampPixels coadder (fun i => ((m.cat.rows[i]?).map (·.boxSize)).getD 1)) lo i ∧
            s.psfStartRow = before (psfStampPixels coadder) lo i ∧ s.startRow + o.boxSize * o.boxSize ≤ (k.totalPixels.toNat : Int) ∧
            c.row.psfBoxSize1 = ((obs.stamp.psf.nr : Nat) : Int) ∧ CoaddView k.types cast m' i obs) := by
  obtain ⟨ec, ed, ep, ei, em, et, etot, elen, erows⟩ := init_rows hinit
  obtain ⟨hty, hor, hno, him⟩ := loadTypes_supported et
  subst ec ed ep
  set box : Nat → Int := fun i => ((m.cat.rows[i]?).map (·.boxSize)).getD 1 with hbox
  have hboxrow : ∀ i o, m.cat.rows[i]? = some o → box i = o.boxSize := fun i o h => by simp [hbox, h]
  unfold CMaker.write at hw
  obtain ⟨st, hst, hw⟩ := Res.bind_eq_ok.mp hw
  injection hw with hw
  injection hw with hk' hf
  unfold CMaker.writeCutouts at hst
  have hrowsome : ∀ i, i < hi → ∃ o, m.cat.rows[i]? = some o := fun i h => ⟨m.cat.rows[i], List.getElem?_eq_getElem (by omega)⟩
  have inv := writeCutouts_inv (box := box) hty (by
      intro i c hc
      have : i < k.rows.length := (List.getElem?_eq_some_iff.mp hc).1
      obtain ⟨c', s, h1, _, _, h2, _⟩ := erows i m.cat.rows[i] (List.getElem?_eq_getElem (by omega))
      rw [hc] at h1
      injection h1 with h1
      subst h1
      rw [h2, hboxrow i _ (List.getElem?_eq_getElem (by omega))]) (hi - lo) (by
      intro i h1 h2 obs hco
      obtain ⟨o, ho⟩ := hrowsome i (by omega)
      rw [hboxrow i o ho]
      exact hgood i o obs h1 (by omega) ho hco) (by
      intro i h1 h2
      obtain ⟨o, ho⟩ := hrowsome i (by omega)
      rw [hboxrow i o ho]
      exact hpos o (List.mem_of_getElem? ho)) hst
  have hres : ∀ nm, (∀ t ∈ "psf" :: supportedTypes, nm ≠ hduName t) → Fits.lookup st.hdus nm = Fits.lookup k.reserved nm := by
    intro nm h
    apply inv.rest
    intro t ht
    apply h
    rcases List.mem_append.mp ht with ht | ht
    · exact List.mem_cons_of_mem _ (hty t ht)
    · rw [List.mem_singleton.mp ht]; simp
  have hobj : Fits.lookup st.hdus "object_data" = none := by
    rw [hres _ (fun t ht => (hduName_ne ht).1.symm)]
    unfold CMaker.reserved
    rw [lookup_append, lookup_append, lookup_reserved_none (fun t ht => (cutouts_ne (hty t ht)).1.symm)]
    rfl
  have hinfo : Fits.lookup st.hdus "image_info" = some (.info k.info) := by
    rw [hres _ (fun t ht => (hduName_ne ht).2.1.symm)]
    rfl
  have hmeta : Fits.lookup st.hdus "metadata" = some (.metadata k.metaData) := by
    rw [hres _ (fun t ht => (hduName_ne ht).2.2.symm)]
    rfl
  have fobj : f.find "object_data" = some (.objects ⟨outDtype, st.rows.map (·.row)⟩) := by
    rw [← hf]; show Fits.lookup (st.hdus ++ _) _ = _
    rw [lookup_append, hobj]; rfl
  have fold : ∀ nm h, Fits.lookup st.hdus nm = some h → f.find nm = some h := by
    intro nm h hh
    rw [← hf]; show Fits.lookup (st.hdus ++ _) _ = _
    rw [lookup_append, hh]; rfl
  have hopen : MEDS.openFile f = .ok ⟨f, ⟨outDtype, st.rows.map (·.row)⟩, k.info, k.metaData⟩ := by
    unfold MEDS.openFile
    rw [fobj, fold _ _ hinfo, fold _ _ hmeta]
  have hkr : k'.rows = st.rows := by rw [← hk']
  refine ⟨_, hopen, by rw [hkr], by simp [inv.len, elen], rfl, fun t ht => (inv.bufs t ht).imp fun buf hb => fold _ _ hb.1, by rw [← hf, List.map_append, inv.names]; rfl, ?_⟩
  intro i o ho
  obtain ⟨c, s0, hc, hs0, q1, q2, q3, _, _, q4, q5, q6, _, a, b, q7, q8, _⟩ := erows i o ho
  by_cases hr : lo ≤ i ∧ i < hi
  · obtain ⟨c', hc', hcase⟩ := inv.done i hr.1 (by omega)
    rw [hc] at hc'
    injection hc' with hc'
    subst hc'
    rcases hcase with ⟨fl, g1, g2⟩ | ⟨obs, fl, g1, g0, g2⟩
    · rw [← hkr] at g2
      exact ⟨_, g2, q1, q3, q2, fun hn => absurd hr hn, fun _ _ => .inl ⟨fl, g1, q4, rfl, q6⟩⟩
    · have hco : Coadded k.coadder i obs := ⟨fl, g1⟩
      have hg := hgood i o obs hr.1 hr.2 ho hco
      have hp0 := hpos o (List.mem_of_getElem? ho)
      have hn0 : 0 ≤ before (stampPixels k.coadder box) lo i := by
        have := before_nonneg (size := stampPixels k.coadder box) (lo := lo) (i - lo) (fun a _ _ => stampPixels_nonneg _ _ a)
        rwa [show lo + (i - lo) = i by omega] at this
      have hpn0 : 0 ≤ before (psfStampPixels k.coadder) lo i := by
        have := before_nonneg (size := psfStampPixels k.coadder) (lo := lo) (i - lo) (fun a _ _ => psfStampPixels_nonneg _ a)
        rwa [show lo + (i - lo) = i by omega] at this
      have hrow : (st.rows.map (·.row))[i]? = some (fillRow c obs fl (before (stampPixels k.coadder box) lo i) (before (psfStampPixels k.coadder) lo i)).row := by
        rw [List.getElem?_map, g2]; rfl
      have hslot : (fillRow c obs fl (before (stampPixels k.coadder box) lo i) (before (psfStampPixels k.coadder) lo i)).row.slots[0]? =
          some { a with startRow := before (stampPixels k.coadder box) lo i, psfStartRow := before (psfStampPixels k.coadder) lo i, cutoutRow := obs.stamp.jac.row0, cutoutCol := obs.stamp.jac.col0,
                        dudrow := obs.stamp.jac.dudrow, dudcol := obs.stamp.jac.dudcol, dvdrow := obs.stamp.jac.dvdrow, dvdcol := obs.stamp.jac.dvdcol,
                        psfCutoutRow := obs.stamp.psfRow, psfCutoutCol := obs.stamp.psfCol } := by
        unfold fillRow
        simp only [q7]
        rfl
      have hep : Epoch (st.rows.map (·.row)) i 0 _ _ := ⟨hrow, by show (0 : Int) < 1; norm_num, hslot⟩
      have hbuf : ∀ t ∈ k.types ++ ["psf"], ∃ buf p, f.find (hduName t) = some (.image buf) ∧ buf.length = (if t = "psf" then k.psfPixels.toNat else k.totalPixels.toNat) ∧ plane obs t = .ok p ∧
          (if t = "psf" then before (psfStampPixels k.coadder) lo i else before (stampPixels k.coadder box) lo i) + p.flat.length ≤ buf.length ∧
          AgreesWith buf (if t = "psf" then before (psfStampPixels k.coadder) lo i else before (stampPixels k.coadder box) lo i) (p.flat.map (k.cast t)) := by
        intro t ht
        obtain ⟨buf, b1, b2, b3⟩ := inv.bufs t ht
        obtain ⟨p, p1, p2, p3⟩ := b3 i hr.1 (by omega) obs hco
        exact ⟨buf, p, fold _ _ b1, b2, p1, p2, p3⟩
      have hnpsf : ∀ t ∈ k.types, t ≠ "psf" := fun t ht e => by
        have := hty t ht
        rw [e] at this
        revert this
        decide
      have hbl : ((o.boxSize.toNat * o.boxSize.toNat : Nat) : Int) = o.boxSize * o.boxSize := by push_cast; rw [Int.toNat_of_nonneg hp0.le]
      rw [← hkr] at g2
      refine ⟨_, g2, q1, q3, q2, fun hn => absurd hr hn, fun _ _ => .inr ⟨obs, fl, _, g1, rfl, rfl, rfl, hslot, rfl, rfl, ?_, rfl, ?_, ?_, ?_⟩⟩
      · obtain ⟨buf, p, b1, b2, p1, p2, p3⟩ := hbuf "image" (by simp [him])
        have plen := plane_length hg p1
        simp only [show ("image" : String) ≠ "psf" by decide, if_false] at *
        rw [plen, b2] at p2
        rw [← hbl]
        exact p2
      · intro t ht
        obtain ⟨buf, p, b1, b2, p1, p2, p3⟩ := hbuf t (by simp [ht])
        have hne := hnpsf t ht
        have plen := plane_length hg p1
        obtain ⟨_, psz⟩ := plane_size hg p1
        rw [if_neg hne] at *
        unfold hduName at b1
        rw [if_neg hne] at b1
        refine ⟨p, plane_mem hne p1, ?_⟩
        have hlen : (((p.flat.map (k.cast t)).length : Nat) : Int) = (fillRow c obs fl (before (stampPixels k.coadder box) lo i) (before (psfStampPixels k.coadder) lo i)).row.boxSize *
            (fillRow c obs fl (before (stampPixels k.coadder box) lo i) (before (psfStampPixels k.coadder) lo i)).row.boxSize := by
          rw [List.length_map, plen, hbl]; show _ = c.row.boxSize * c.row.boxSize; rw [q2]
        have := MEDS.getCutout_eq (m := ⟨f, ⟨outDtype, st.rows.map (·.row)⟩, k.info, k.metaData⟩) (t := t) (b := p.flat.map (k.cast t)) hep hne b1 (by show 0 < c.row.boxSize; omega) hn0 hlen (by rw [List.length_map]; exact p2) p3
        rw [Nat.cast_zero] at this
        rw [this]
        show Except.ok (Img.mk c.row.boxSize.toNat c.row.boxSize.toNat _) = Except.ok (Img.mk p.nr p.nc _)
        rw [q2, psz.1, psz.2]
      · obtain ⟨buf, p, b1, b2, p1, p2, p3⟩ := hbuf "psf" (by simp)
        have hpp : p = obs.stamp.psf := by
          unfold plane at p1
          rw [if_pos rfl] at p1
          injection p1 with p1
          exact p1.symm
        subst hpp
        simp only [if_true] at p2 p3 b2
        rw [show hduName "psf" = "psf" by rfl] at b1
        unfold MEDS.getPsf MEDS.hasPsf Fits.has
        simp only
        rw [b1]
        simp only [Option.isSome_some, if_true]
        have hck := MEDS.checkIndices_some (m := ⟨f, ⟨outDtype, st.rows.map (·.row)⟩, k.info, k.metaData⟩) (i := i) (k := 0) hrow (by show (0 : Int) < 1; norm_num)
        rw [Nat.cast_zero] at hck
        rw [hck]
        simp only [Res.ok_bind]
        have hsh : MEDS.psfShape ⟨f, ⟨outDtype, st.rows.map (·.row)⟩, k.info, k.metaData⟩ (i : Int) 0 = .ok ((obs.stamp.psf.nr : Int), (obs.stamp.psf.nr : Int)) := by
          unfold MEDS.psfShape
          simp only [outDtype]
          rw [show MEDS.row ⟨f, ⟨⟨true, .absent, .perObj⟩, st.rows.map (·.row)⟩, k.info, k.metaData⟩ (i : Int) = .ok _ from pyGet_nat_some hrow]
          rfl
        have hsl := MEDS.Epoch.slot (m := ⟨f, ⟨outDtype, st.rows.map (·.row)⟩, k.info, k.metaData⟩) hep
        rw [Nat.cast_zero] at hsl
        rw [hsh, hsl]
        simp only [Res.ok_bind]
        have hfl : obs.stamp.psf.flat.length = obs.stamp.psf.nr * obs.stamp.psf.nr := by
          have h1 : obs.stamp.psf.flat.length = _ := hg.psf.2.2
          rw [h1, hg.psf.2.1]
        rw [MEDS.imageSlice_eq (b := obs.stamp.psf.flat.map (k.cast "psf")) b1 hpn0 (by rw [List.length_map]; exact p2) (by rw [List.length_map, hfl]; push_cast; rfl)
          (by have := hg.psfPos; positivity) p3]
        simp only [Res.ok_bind]
        rw [reshape_nat (by rw [List.length_map, hfl])]
        show Except.ok (Img.mk _ _ _) = Except.ok (Img.mk _ obs.stamp.psf.nc _)
        rw [hg.psf.2.1]
      · unfold MEDS.getJacobian
        have hck := MEDS.checkIndices_some (m := ⟨f, ⟨outDtype, st.rows.map (·.row)⟩, k.info, k.metaData⟩) (i := i) (k := 0) hrow (by show (0 : Int) < 1; norm_num)
        have hsl := MEDS.Epoch.slot (m := ⟨f, ⟨outDtype, st.rows.map (·.row)⟩, k.info, k.metaData⟩) hep
        rw [Nat.cast_zero] at hsl hck
        unfold MEDS.getCutoutRowcol
        rw [hck, hsl]
        rfl
  · refine ⟨c, by rw [hkr, inv.others i (by omega)]; exact hc, q1, q3, q2, fun _ => ⟨q4, q5, q6⟩, fun h1 h2 => absurd ⟨h1, h2⟩ hr⟩

/-- **C45** The catalogue and the pixels of a file written by `MEDSCoaddMaker`, for any object range and any outcome of each coaddition:
each object has 0 or 1 cutouts; a coadded object reads back exactly as its stamp, in every type, with its PSF image and its jacobian; the stamps are stored one
after the other in catalogue order, without gap or overlap, inside the extension; an object without coadd has no cutout and the coadder's flag; objects outside the
range have no cutout. -/
theorem C45_file {req : List String} {cast : String → ℚ → ℚ} {coadder : Nat → Res (Option CoaddObs × Int)} {np : Int} {md : String} {m : MEDS} {k k' : CMaker} {f : Fits}
    {lo hi : Nat} (hinit : CMaker.init req cast coadder np md m = .ok k) (hw : k.write lo hi = .ok (k', f)) (hhi : hi ≤ m.cat.rows.length)
    (hgood : ∀ i o obs, lo ≤ i → i < hi → m.cat.rows[i]? = some o → Coadded coadder i obs → GoodStamp o.boxSize.toNat obs) (hpos : ∀ o ∈ m.cat.rows, 0 < o.boxSize) :
    ∃ m', MEDS.openFile f = .ok m' ∧ m'.cat.rows = k'.rows.map (·.row) ∧ m'.cat.rows.length = m.cat.rows.length ∧
      ∀ i o, m.cat.rows[i]? = some o → ∃ c, k'.rows[i]? = some c ∧ c.row.id = o.id ∧ c.row.number = o.number ∧ c.row.boxSize = o.boxSize ∧
        (¬ (lo ≤ i ∧ i < hi) → c.row.ncutout = 0 ∧ c.coaddFlags = 0 ∧ c.ncoadd = 0) ∧
        (lo ≤ i → i < hi →
          (∃ fl, coadder i = .ok (none, fl) ∧ c.row.ncutout = 0 ∧ c.coaddFlags = fl ∧ c.ncoadd = 0) ∨
          ∃ obs fl s, coadder i = .ok (some obs, fl) ∧ c.row.ncutout = 1 ∧ c.coaddFlags = fl ∧ c.ncoadd = obs.ncoadd ∧ c.row.slots[0]? = some s ∧
            s.startRow = before (stampPixels coadder (fun i => ((m.cat.rows[i]?).map (·.boxSize)).getD 1)) lo i ∧
            s.psfStartRow = before (psfStampPixels coadder) lo i ∧ s.startRow + o.boxSize * o.boxSize ≤ (k.totalPixels.toNat : Int) ∧
            c.row.psfBoxSize1 = ((obs.stamp.psf.nr : Nat) : Int) ∧ CoaddView k.types cast m' i obs) := by
  obtain ⟨m', h1, h2, h3, _, _, _, h4⟩ := written_coadd hinit hw hhi hgood hpos
  exact ⟨m', h1, h2, h3, h4⟩

/-- **C45** The coadded objects' pixel ranges are ordered and disjoint: the range of an object ends before the range of any later one begins; the same for the PSF images. -/
theorem C45_disjoint {req : List String} {cast : String → ℚ → ℚ} {coadder : Nat → Res (Option CoaddObs × Int)} {np : Int} {md : String} {m : MEDS} {k k' : CMaker} {f : Fits}
    {lo hi : Nat} (hinit : CMaker.init req cast coadder np md m = .ok k) (hw : k.write lo hi = .ok (k', f)) (hhi : hi ≤ m.cat.rows.length)
    (hgood : ∀ i o obs, lo ≤ i → i < hi → m.cat.rows[i]? = some o → Coadded coadder i obs → GoodStamp o.boxSize.toNat obs) (hpos : ∀ o ∈ m.cat.rows, 0 < o.boxSize)
    {i j : Nat} {ci cj : CRow} {si sj : Slot} (hij : i < j) (hi' : k'.rows[i]? = some ci) (hj : k'.rows[j]? = some cj) (ni : ci.row.ncutout = 1) (nj : cj.row.ncutout = 1)
    (hsi : ci.row.slots[0]? = some si) (hsj : cj.row.slots[0]? = some sj) :
    0 ≤ si.startRow ∧ si.startRow + ci.row.boxSize * ci.row.boxSize ≤ sj.startRow ∧
    0 ≤ si.psfStartRow ∧ si.psfStartRow + ci.row.psfBoxSize1 * ci.row.psfBoxSize1 ≤ sj.psfStartRow := by
  obtain ⟨m', hopen, hrows, hlen, hall⟩ := C45_file hinit hw hhi hgood hpos
  have hl : k'.rows.length = m.cat.rows.length := by rw [hrows, List.length_map] at hlen; exact hlen
  have bi : i < m.cat.rows.length := by have := (List.getElem?_eq_some_iff.mp hi').1; omega
  have bj : j < m.cat.rows.length := by have := (List.getElem?_eq_some_iff.mp hj).1; omega
  obtain ⟨c1, e1, _, _, hb1, hout1, hin1⟩ := hall i _ (List.getElem?_eq_getElem bi)
  obtain ⟨c2, e2, _, _, hb2, hout2, hin2⟩ := hall j _ (List.getElem?_eq_getElem bj)
  rw [hi'] at e1
  rw [hj] at e2
  injection e1 with e1
  injection e2 with e2
  subst e1 e2
  have ri : lo ≤ i ∧ i < hi := by
    by_contra hn
    have := (hout1 hn).1
    omega
  have rj : lo ≤ j ∧ j < hi := by
    by_contra hn
    have := (hout2 hn).1
    omega
  rcases hin1 ri.1 ri.2 with ⟨_, _, h0, _⟩ | ⟨o1, f1, s1, g1, _, _, _, hs1, st1, ps1, _, psz, _⟩
  · omega
  rcases hin2 rj.1 rj.2 with ⟨_, _, h0, _⟩ | ⟨o2, f2, s2, g2, _, _, _, hs2, st2, ps2, _, _⟩
  · omega
  rw [hsi] at hs1
  rw [hsj] at hs2
  injection hs1 with hs1
  injection hs2 with hs2
  subst hs1 hs2
  have a1 := before_mono (size := stampPixels coadder (fun i => ((m.cat.rows[i]?).map (·.boxSize)).getD 1)) ri.1 hij (fun a _ _ => stampPixels_nonneg _ _ a)
  have a2 := before_mono (size := psfStampPixels coadder) ri.1 hij (fun a _ _ => psfStampPixels_nonneg _ a)
  have a3 := before_nonneg (size := stampPixels coadder (fun i => ((m.cat.rows[i]?).map (·.boxSize)).getD 1)) (lo := lo) (i - lo) (fun a _ _ => stampPixels_nonneg _ _ a)
  have a4 := before_nonneg (size := psfStampPixels coadder) (lo := lo) (i - lo) (fun a _ _ => psfStampPixels_nonneg _ a)
  rw [show lo + (i - lo) = i by omega] at a3 a4
  rw [st1, st2, ps1, ps2, psz, hb1]
  have z1 : stampPixels coadder (fun i => ((m.cat.rows[i]?).map (·.boxSize)).getD 1) i = m.cat.rows[i].boxSize * m.cat.rows[i].boxSize := by
    unfold stampPixels
    rw [g1]
    simp only [List.getElem?_eq_getElem bi, Option.map_some, Option.getD_some]
  have z2 : psfStampPixels coadder i = (o1.stamp.psf.nr : Int) * o1.stamp.psf.nr := by
    unfold psfStampPixels
    rw [g1]
  rw [z1] at a1
  rw [z2] at a2
  exact ⟨a3, a1, a4, a2⟩

/-- **C45** The coadder's own flag: no coadd exactly when the flag is not zero. -/
theorem C45_flag {ext : Ext} {cfg : Cfg} {combine : List Obs → Stamp} {jm : MEDS.Mat2} {m : MEDS} {iobj : Int} {r : Option CoaddObs} {fl : Int}
    (h : getCoaddObs ext cfg combine jm m iobj = .ok (r, fl)) : r = none ↔ fl ≠ 0 := by
  unfold getCoaddObs at h
  obtain ⟨q, _, h⟩ := Res.bind_eq_ok.mp h
  cases q1 : q.1 with
  | nil =>
    rw [q1] at h
    injection h with h
    injection h with h1 h2
    subst h1 h2
    simp [NO_GOOD_CUTOUTS]
  | cons o os =>
    rw [q1] at h
    obtain ⟨seg, _, h⟩ := Res.bind_eq_ok.mp h
    injection h with h
    injection h with h1 h2
    subst h1 h2
    simp

/-- **C45** An object without any cutout in the input is not flagged: the coadder raises on it, and with it the whole `write`. -/
theorem C45_no_cutouts {ext : Ext} {cfg : Cfg} {combine : List Obs → Stamp} {jm : MEDS.Mat2} {m : MEDS} {k : CMaker} {lo hi i : Nat} {o : ObjRow}
    (hk : ∀ i, k.coadder i = getCoaddObs ext cfg combine jm m i) (ho : m.cat.rows[i]? = some o) (hn : o.ncutout = 0) (h1 : lo ≤ i) (h2 : i < hi) :
    ∀ r, k.write lo hi ≠ .ok r := by
  intro r h
  unfold CMaker.write at h
  obtain ⟨st, h, _⟩ := Res.bind_eq_ok.mp h
  unfold CMaker.writeCutouts at h
  rw [show hi - lo = (i - lo) + (hi - i) by omega, ← List.range'_append_1, foldRes_append] at h
  obtain ⟨st1, _, h⟩ := Res.bind_eq_ok.mp h
  rw [show hi - i = (hi - i - 1) + 1 by omega, List.range'_succ] at h
  obtain ⟨st2, h, _⟩ := foldRes_cons_ok.mp h
  unfold writeObject at h
  obtain ⟨r1, h, _⟩ := Res.bind_eq_ok.mp h
  rw [hk] at h
  unfold getCoaddObs at h
  obtain ⟨q, h, _⟩ := Res.bind_eq_ok.mp h
  unfold getObslist at h
  obtain ⟨ims, h, _⟩ := Res.bind_eq_ok.mp h
  rw [show lo + (i - lo) = i by omega] at h
  unfold MEDS.getCutoutList at h
  rw [if_neg (by decide)] at h
  obtain ⟨mos, h, _⟩ := Res.bind_eq_ok.mp h
  unfold MEDS.getMosaic at h
  obtain ⟨_, h, _⟩ := Res.bind_eq_ok.mp h
  have hlt := (List.getElem?_eq_some_iff.mp ho).1
  unfold MEDS.checkIndices MEDS.size at h
  rw [if_neg (by omega), show m.row (i : Int) = .ok o from pyGet_nat_some ho] at h
  simp only [Res.ok_bind] at h
  rw [if_pos hn] at h
  cases h

theorem sum_map_nonneg {l : List Nat} {f : Nat → Int} (h : ∀ x ∈ l, 0 ≤ f x) : 0 ≤ (l.map f).sum := by
  induction l with
  | nil => simp
  | cons a l ih =>
    rw [List.map_cons, List.sum_cons]
    have h1 := h a (by simp)
    have h2 := ih (fun x hx => h x (by simp [hx]))
    omega

theorem sum_map_le {l : List Nat} {f g : Nat → Int} (h : ∀ x ∈ l, f x ≤ g x) : (l.map f).sum ≤ (l.map g).sum := by
  induction l with
  | nil => simp
  | cons a l ih =>
    rw [List.map_cons, List.map_cons, List.sum_cons, List.sum_cons]
    have h1 := h a (by simp)
    have h2 := ih (fun x hx => h x (by simp [hx]))
    omega

/-- What some of the objects take is at most what all of them take. -/
theorem before_le_total {rows : List ObjRow} {size : Nat → Int} {lo j : Nat} (hlo : lo ≤ j) (hj : j ≤ rows.length)
    (hs : ∀ i o, rows[i]? = some o → size i ≤ o.boxSize * o.boxSize) : before size lo j ≤ (rows.map (fun o => o.boxSize * o.boxSize)).sum := by
  have e : (rows.map (fun o => o.boxSize * o.boxSize)).sum = ((List.range' 0 rows.length).map (fun i => ((rows[i]?).map (fun o : ObjRow => o.boxSize * o.boxSize)).getD 0)).sum := by
    congr 1
    apply List.ext_getElem?
    intro i
    rw [List.getElem?_map, List.getElem?_map]
    by_cases hi : i < rows.length
    · rw [List.getElem?_range' (by omega)]
      simp [hi]
    · rw [List.getElem?_eq_none (by omega), List.getElem?_eq_none (by simp; omega)]
      rfl
  have nn : ∀ i : Nat, 0 ≤ ((rows[i]?).map (fun o : ObjRow => o.boxSize * o.boxSize)).getD 0 := by
    intro i
    cases rows[i]? with
    | none => simp
    | some o => exact mul_self_nonneg _
  rw [e, show rows.length = lo + ((j - lo) + (rows.length - j)) by omega, ← List.range'_append_1, ← List.range'_append_1, List.map_append, List.map_append, List.sum_append, List.sum_append,
    Nat.zero_add, show lo + (j - lo) = j by omega]
  have h1 := sum_map_nonneg (l := List.range' 0 lo) (fun x _ => nn x)
  have h2 := sum_map_nonneg (l := List.range' j (rows.length - j)) (fun x _ => nn x)
  have h3 : before size lo j ≤ ((List.range' lo (j - lo)).map (fun i => ((rows[i]?).map (fun o : ObjRow => o.boxSize * o.boxSize)).getD 0)).sum := by
    apply sum_map_le
    intro x hx
    rw [List.mem_range'_1] at hx
    rw [List.getElem?_eq_getElem (show x < rows.length by omega)]
    exact hs x _ (List.getElem?_eq_getElem (by omega))
  omega

theorem plane_total {obs : CoaddObs} {t : String} (ht : t ∈ "psf" :: supportedTypes) : ∃ p, plane obs t = .ok p := by
  revert t
  unfold supportedTypes plane
  simp only [List.mem_cons, List.not_mem_nil, or_false]
  rintro t (rfl | rfl | rfl | rfl | rfl | rfl | rfl) <;> exact ⟨_, rfl⟩

theorem fold_writeCutout_total {types : List String} (hty : ∀ t ∈ types, t ∈ supportedTypes) {cast : String → ℚ → ℚ} {obs : CoaddObs} {start psfStart : Int} {b tot np : Nat}
    (hg : GoodStamp b obs) (h0 : 0 ≤ start) (h1 : start + ((b * b : Nat) : Int) ≤ tot) (h2 : 0 ≤ psfStart) (h3 : psfStart + (obs.stamp.psf.nr : Int) * obs.stamp.psf.nr ≤ np)
    {h : List (String × Hdu)} (hb : ∀ t ∈ types ++ ["psf"], ∃ buf, Fits.lookup h (hduName t) = some (.image buf) ∧ buf.length = (if t = "psf" then np else tot)) :
    ∃ h', foldRes (writeCutout cast obs start psfStart) h (types ++ ["psf"]) = .ok h' := by
  have hts : ∀ t ∈ types ++ ["psf"], t ∈ "psf" :: supportedTypes := by
    intro t ht
    rcases List.mem_append.mp ht with ht | ht
    · exact List.mem_cons_of_mem _ (hty t ht)
    · rw [List.mem_singleton.mp ht]; simp
  obtain ⟨h', e, _⟩ := foldRes_total (f := writeCutout cast obs start psfStart) (l := types ++ ["psf"]) (P := fun h => ∀ t ∈ types ++ ["psf"], ∃ buf, Fits.lookup h (hduName t) = some (.image buf) ∧ buf.length = (if t = "psf" then np else tot)) hb (by
    intro h t ht hP
    obtain ⟨buf, l1, l2⟩ := hP t ht
    obtain ⟨p, hp⟩ := plane_total (obs := obs) (hts t ht)
    have plen := plane_length hg hp
    have : ∃ buf', overwrite buf (if t = "psf" then psfStart else start) (p.flat.map (cast t)) = .ok buf' := by
      apply overwrite_isOk
      · split <;> assumption
      · rw [List.length_map]
        by_cases e : t = "psf"
        · rw [if_pos e] at *
          have : p = obs.stamp.psf := by
            unfold plane at hp
            rw [if_pos e] at hp
            injection hp with hp
            exact hp.symm
          have h4 : obs.stamp.psf.flat.length = _ := hg.psf.2.2
          rw [this, h4, hg.psf.2.1, l2]
          push_cast
          exact h3
        · rw [if_neg e] at *
          rw [plen, l2]
          exact h1
    obtain ⟨buf', ho⟩ := this
    obtain ⟨h'', hm⟩ := modifyImage_total (g := fun buf => overwrite buf (if t = "psf" then psfStart else start) (p.flat.map (cast t))) l1 ho
    refine ⟨h'', by unfold writeCutout; rw [hp]; exact hm, ?_⟩
    obtain ⟨⟨x, x', q1, q2, q3⟩, q4, _⟩ := modifyImage_ok hm
    rw [l1] at q1
    injection q1 with q1
    injection q1 with q1
    subst q1
    intro t' ht'
    by_cases e : t' = t
    · subst e
      exact ⟨x', q3, by rw [(overwrite_ok q2).2.2.1, l2]⟩
    · rw [q4 _ (fun hh => e (hduName_inj (hts t' ht') (hts t ht) hh))]
      exact hP t' ht')
  exact ⟨h', e⟩

/-- **C45** The file gets written: when no coaddition raises, stamps have the object's box size and the reserved PSF space is enough. -/
theorem C45_completes {req : List String} {cast : String → ℚ → ℚ} {coadder : Nat → Res (Option CoaddObs × Int)} {np : Int} {md : String} {m : MEDS} {k : CMaker}
    {lo hi : Nat} (hinit : CMaker.init req cast coadder np md m = .ok k) (hlo : lo ≤ hi) (hhi : hi ≤ m.cat.rows.length)
    (hgood : ∀ i o obs, lo ≤ i → i < hi → m.cat.rows[i]? = some o → Coadded coadder i obs → GoodStamp o.boxSize.toNat obs) (hpos : ∀ o ∈ m.cat.rows, 0 < o.boxSize)
    (hout : ∀ i, lo ≤ i → i < hi → ∃ r, coadder i = .ok r) (hfl : ∀ i c obs, k.rows[i]? = some c → Coadded coadder i obs → obs.imflags.length ≤ c.origFlags.length)
    (hpsf : before (psfStampPixels coadder) lo hi ≤ np) : ∃ r, k.write lo hi = .ok r := by
  obtain ⟨ec, ed, ep, ei, em, et, etot, elen, erows⟩ := init_rows hinit
  obtain ⟨hty, hor, hno, him⟩ := loadTypes_supported et
  subst ec ed ep
  set box : Nat → Int := fun i => ((m.cat.rows[i]?).map (·.boxSize)).getD 1 with hbox
  have hboxrow : ∀ i o, m.cat.rows[i]? = some o → box i = o.boxSize := fun i o h => by simp [hbox, h]
  have hrowsome : ∀ i, i < hi → ∃ o, m.cat.rows[i]? = some o := fun i h => ⟨m.cat.rows[i], List.getElem?_eq_getElem (by omega)⟩
  have hkbox : ∀ i c, k.rows[i]? = some c → c.row.boxSize = box i := by
    intro i c hc
    have : i < k.rows.length := (List.getElem?_eq_some_iff.mp hc).1
    obtain ⟨c', s, h1, _, _, h2, _⟩ := erows i m.cat.rows[i] (List.getElem?_eq_getElem (by omega))
    rw [hc] at h1
    injection h1 with h1
    subst h1
    rw [h2, hboxrow i _ (List.getElem?_eq_getElem (by omega))]
  have hgood' : ∀ n, lo + n ≤ hi → ∀ i, lo ≤ i → i < lo + n → ∀ obs, Coadded k.coadder i obs → GoodStamp (box i).toNat obs := by
    intro n hn i h1 h2 obs hco
    obtain ⟨o, ho⟩ := hrowsome i (by omega)
    rw [hboxrow i o ho]
    exact hgood i o obs h1 (by omega) ho hco
  have hpos' : ∀ n, lo + n ≤ hi → ∀ i, lo ≤ i → i < lo + n → 0 < box i := by
    intro n hn i h1 h2
    obtain ⟨o, ho⟩ := hrowsome i (by omega)
    rw [hboxrow i o ho]
    exact hpos o (List.mem_of_getElem? ho)
  have key : ∀ n, lo + n ≤ hi → ∃ st, foldRes (writeObject k.types k.cast k.coadder) ⟨k.rows, k.reserved, 0, 0, 0, 0⟩ (List.range' lo n) = .ok st := by
    intro n
    induction n with
    | zero => exact fun _ => ⟨_, rfl⟩
    | succ n ih =>
      intro hn
      obtain ⟨st, hst⟩ := ih (by omega)
      have inv := writeCutouts_inv (box := box) hty hkbox n (hgood' n (by omega)) (hpos' n (by omega)) hst
      rw [List.range'_1_concat, foldRes_append, hst]
      simp only [Res.ok_bind]
      suffices ∃ st', writeObject k.types k.cast k.coadder st (lo + n) = .ok st' by
        obtain ⟨st', e⟩ := this
        exact ⟨st', foldRes_cons_ok.mpr ⟨st', e, rfl⟩⟩
      obtain ⟨r, hr⟩ := hout (lo + n) (by omega) (by omega)
      obtain ⟨o, ho⟩ := hrowsome (lo + n) (by omega)
      obtain ⟨c, s, hc, _⟩ := erows _ o ho
      have hcs : st.rows[lo + n]? = some c := by rw [inv.others _ (by omega)]; exact hc
      unfold writeObject
      rw [hr]
      simp only [Res.ok_bind]
      rw [pyGet_nat_some hcs]
      simp only [Res.ok_bind]
      obtain ⟨r1, r2⟩ := r
      cases r1 with
      | none => exact ⟨_, rfl⟩
      | some obs =>
        have hco : Coadded k.coadder (lo + n) obs := ⟨r2, hr⟩
        have hg := hgood' (n + 1) (by omega) (lo + n) (by omega) (by omega) obs hco
        have hb0 := hpos' (n + 1) (by omega) (lo + n) (by omega) (by omega)
        simp only
        rw [if_neg (by rw [hkbox _ c hc, hg.image.1]; omega), if_neg (by have := hfl _ c obs hc hco; omega)]
        have hz : stampPixels k.coadder box (lo + n) = box (lo + n) * box (lo + n) := by unfold stampPixels; rw [hr]
        have hz2 : psfStampPixels k.coadder (lo + n) = (obs.stamp.psf.nr : Int) * obs.stamp.psf.nr := by unfold psfStampPixels; rw [hr]
        have hle := before_le_total (rows := m.cat.rows) (size := stampPixels k.coadder box) (lo := lo) (j := lo + n + 1) (by omega) (by omega) (by
          intro i o ho
          unfold stampPixels
          rw [hboxrow i o ho]
          split
          · exact le_refl _
          · exact mul_self_nonneg _)
        rw [before_succ, hz, ← etot] at hle
        have hple : before (psfStampPixels k.coadder) lo (lo + n + 1) ≤ k.psfPixels := by
          rcases Nat.lt_or_ge (lo + n + 1) hi with hlt | hge
          · have := before_mono (size := psfStampPixels k.coadder) (lo := lo) (i := lo + n + 1) (j := hi) (by omega) hlt (fun a _ _ => psfStampPixels_nonneg _ a)
            have h2 := psfStampPixels_nonneg k.coadder (lo + n + 1)
            omega
          · rw [show lo + n + 1 = hi by omega]; exact hpsf
        rw [before_succ, hz2] at hple
        have n1 := before_nonneg (size := stampPixels k.coadder box) (lo := lo) n (fun a _ _ => stampPixels_nonneg _ _ a)
        have n2 := before_nonneg (size := psfStampPixels k.coadder) (lo := lo) n (fun a _ _ => psfStampPixels_nonneg _ a)
        obtain ⟨h', hh⟩ := fold_writeCutout_total (types := k.types) (cast := k.cast) (start := st.lastRowStart + st.lastSize) (psfStart := st.lastPsfRowStart + st.lastPsfSize)
          (tot := k.totalPixels.toNat) (np := k.psfPixels.toNat) (h := st.hdus) hty hg (by rw [inv.cur]; exact n1)
          (by
            rw [inv.cur]
            push_cast
            rw [Int.toNat_of_nonneg hb0.le]
            omega) (by rw [inv.psfCur]; exact n2) (by rw [inv.psfCur]; omega) (by
            intro t ht
            obtain ⟨buf, b1, b2, _⟩ := inv.bufs t ht
            exact ⟨buf, b1, b2⟩)
        rw [hh]
        exact ⟨_, rfl⟩
  obtain ⟨st, hst⟩ := key (hi - lo) (by omega)
  unfold CMaker.write CMaker.writeCutouts
  rw [hst]
  exact ⟨_, rfl⟩

/-- Test on the file of all three objects of the example. -/
def fileTest (test : CMaker → MEDS → Bool) : Bool :=
  match Ex.coaddMaker with
  | .error _ => false
  | .ok k =>
    match k.write 0 3 with
    | .error _ => false
    | .ok (k', f) =>
      match MEDS.openFile f with
      | .error _ => false
      | .ok m => test k' m

/-- Objects 0 and 2 are coadded, object 1 is not; the second stamp follows the first. -/
example : fileTest (fun k m =>
    k.rows.map (fun c => (c.row.ncutout, c.coaddFlags, c.ncoadd)) == [(1, 0, 2), (0, 1, 0), (1, 0, 2)] &&
    k.rows.map (fun c => c.row.slots.map (fun s => (s.startRow, s.psfStartRow))) == [[(0, 0), (-9999, -9999)], [(-9999, -9999), (-9999, -9999)], [(4, 4), (-9999, -9999)]] &&
    (m.getCutout 2 0 "image").toBool && decide (m.getCutout 1 0 "image" = .error .valueError) && decide (m.getCutout 0 0 "image" ≠ m.getCutout 2 0 "image")) = true := by decide +kernel

end Meds.Coadd
