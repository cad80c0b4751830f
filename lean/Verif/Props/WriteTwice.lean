import Verif.Props.Completion

/-!
# Calling `write` twice on one maker (C14)
-/

namespace Meds
open Spec Maker

/-- The images accepted for a sky position; acceptance looks at nothing else of a row. -/
theorem accepted_sky {cfg : MakerCfg} {i : Nat} {im : SrcImage} {o o' : ObjRow} (h : o'.sky = o.sky) :
    accepted cfg i im o' = accepted cfg i im o := by
  unfold accepted objPos
  rw [h]

theorem acceptedIn_sky {cfg : MakerCfg} {L : List (Nat × SrcImage)} {o o' : ObjRow} (h : o'.sky = o.sky) :
    acceptedIn cfg o' L = acceptedIn cfg o L := by
  unfold acceptedIn
  apply List.filter_congr
  intro fi _
  exact accepted_sky h

theorem addEpoch_counts {cfg : MakerCfg} {i : Nat} {im : SrcImage} {o o' : ObjRow} (h : addEpoch cfg i im o = .ok o') :
    o'.ncutout = o.ncutout + 1 ∧ o'.sky = o.sky := by
  unfold addEpoch at h
  obtain ⟨k, _, h⟩ := Res.bind_eq_ok.mp h
  obtain ⟨old, _, h⟩ := Res.bind_eq_ok.mp h
  injection h with h
  subst h
  exact ⟨rfl, rfl⟩

theorem fold_stepObj_counts {cfg : MakerCfg} {L : List (Nat × SrcImage)} {o o' : ObjRow} (h : foldRes (stepObj cfg) o L = .ok o') :
    o'.ncutout = o.ncutout + (acceptedIn cfg o L).length ∧ o'.sky = o.sky := by
  induction L generalizing o with
  | nil =>
    simp only [foldRes] at h
    injection h with h
    subst h
    simp [acceptedIn]
  | cons x xs ih =>
    obtain ⟨t, ht, h⟩ := foldRes_cons_ok.mp h
    obtain ⟨g1, g2⟩ := ih h
    unfold stepObj at ht
    split at ht
    · rename_i ha
      obtain ⟨k1, k2⟩ := addEpoch_counts ht
      refine ⟨?_, by rw [g2, k2]⟩
      rw [g1, acceptedIn_sky k2, k1]
      unfold acceptedIn
      rw [List.filter_cons_of_pos (by simpa using ha), List.length_cons]
      push_cast
      ring
    · rename_i ha
      injection ht with ht
      subst ht
      refine ⟨?_, g2⟩
      rw [g1]
      unfold acceptedIn
      rw [List.filter_cons_of_neg (by simpa using ha)]

/-- What a layout run does to the counters of any catalogue, fresh or not. -/
theorem buildLayout_counts {mk mk' : Maker} (h : mk.buildLayout = .ok mk') :
    ∃ objs0, trim mk.cfg mk.images mk.objs = .ok objs0 ∧
      List.Forall₂ (fun o o' : ObjRow => o'.ncutout = o.ncutout + (acceptedIn mk.cfg o (numbered mk.images)).length ∧ o'.sky = o.sky) objs0 mk'.objs ∧
      mk'.cfg = mk.cfg ∧ mk'.images = mk.images ∧ mk'.types = mk.types := by
  unfold buildLayout at h
  obtain ⟨objs0, h0, h⟩ := Res.bind_eq_ok.mp h
  obtain ⟨objs1, h1, h⟩ := Res.bind_eq_ok.mp h
  obtain ⟨objs2, h2, h⟩ := Res.bind_eq_ok.mp h
  obtain ⟨⟨objs3, e⟩, h3, h⟩ := Res.bind_eq_ok.mp h
  split at h
  · cases h
  have f1 := (fold_layoutFile h1).imp (fun a b hab => fold_stepObj_counts hab)
  obtain ⟨w, _, _, _, f2⟩ := resize_ok h2
  obtain ⟨f3, _⟩ := setStartRows_ok h3
  have f13 := forall₂_trans (forall₂_trans f1 f2 (T := fun o o' : ObjRow =>
      o'.ncutout = o.ncutout + (acceptedIn mk.cfg o (numbered mk.images)).length ∧ o'.sky = o.sky)
      (fun a b c hab hbc => by rw [hbc.2]; exact hab)) f3 (T := fun o o' : ObjRow =>
      o'.ncutout = o.ncutout + (acceptedIn mk.cfg o (numbered mk.images)).length ∧ o'.sky = o.sky)
      (fun a b c hab hbc => by rw [hbc.1]; exact hab)
  cases hpsf : mk.psf with
  | none =>
    rw [hpsf] at h
    injection h with h
    subst h
    exact ⟨objs0, h0, f13, rfl, rfl, rfl⟩
  | some psf =>
    rw [hpsf] at h
    obtain ⟨⟨objs4, e'⟩, h4, h⟩ := Res.bind_eq_ok.mp h
    injection h with h
    subst h
    obtain ⟨p1, _⟩ := setPsfLayout_ok h4
    exact ⟨objs0, h0, forall₂_trans f13 p1 (fun a b c hab hbc => by rw [hbc.1]; exact hab), rfl, rfl, rfl⟩

theorem modifyImage_head {name n : String} {h : Hdu} {g : List ℚ → Res (List ℚ)} {tl hs' : List (String × Hdu)} (hne : name ≠ n)
    (hm : modifyImage name g ((n, h) :: tl) = .ok hs') : ∃ tl', hs' = (n, h) :: tl' := by
  unfold modifyImage at hm
  rw [if_neg (fun e => hne e.symm)] at hm
  obtain ⟨t', _, hm⟩ := Res.bind_eq_ok.mp hm
  injection hm with hm
  exact ⟨t', hm.symm⟩

/-- The first extension of a written file is the catalogue of the maker. -/
theorem writeData_catalogue {mk : Maker} {f : Fits} (hs : ∀ t ∈ mk.types, t ∈ supportedTypes) (h : mk.writeData = .ok f) :
    f.find "object_data" = some (.objects { dtype := mk.dtype, rows := mk.objs }) := by
  unfold writeData at h
  dsimp only at h
  obtain ⟨h1, g1, h⟩ := Res.bind_eq_ok.mp h
  obtain ⟨h2, g2, h⟩ := Res.bind_eq_ok.mp h
  injection h with h
  have key : ∀ (ts : List String) (tl hs' : List (String × Hdu)) (x : Hdu), (∀ t ∈ ts, t ∈ supportedTypes) →
      foldRes (fun h t => modifyImage (t ++ "_cutouts") (mk.writeCutouts t) h) (("object_data", x) :: tl) ts = .ok hs' →
      ∃ tl', hs' = ("object_data", x) :: tl' := by
    intro ts
    induction ts with
    | nil => intro tl hs' x _ h; simp only [foldRes] at h; injection h with h; exact ⟨tl, h.symm⟩
    | cons t ts ih =>
      intro tl hs' x hts h
      obtain ⟨mid, a, b⟩ := foldRes_cons_ok.mp h
      obtain ⟨tl', rfl⟩ := modifyImage_head (cutouts_ne (hts t (by simp))).1 a
      exact ih tl' hs' x (fun t ht => hts t (by simp [ht])) b
  obtain ⟨tl1, rfl⟩ := key mk.types _ h1 _ hs (show foldRes _ (("object_data", _) :: _) _ = _ from g1)
  have : ∃ tl2, h2 = ("object_data", Hdu.objects { dtype := mk.dtype, rows := mk.objs }) :: tl2 := by
    split at g2
    · exact modifyImage_head (by decide) g2
    · injection g2 with g2
      exact ⟨tl1, g2.symm⟩
  obtain ⟨tl2, rfl⟩ := this
  subst h
  simp [Fits.find, Fits.lookup]

/-- Trimming a catalogue that was trimmed already changes nothing. -/
theorem trim_again {cfg : MakerCfg} {images : List SrcImage} {objs objs0 objs' : List ObjRow} (h : trim cfg images objs = .ok objs0)
    (hs : List.Forall₂ (fun o o' : ObjRow => o'.sky = o.sky) objs0 objs') : trim cfg images objs' = .ok objs' := by
  unfold trim at h ⊢
  split
  · rename_i hc
    rw [if_pos hc] at h
    cases images with
    | nil => cases h
    | cons im rest =>
      dsimp only at h ⊢
      split at h
      · cases h
      · rename_i hl
        injection h with h
        subst h
        have hall : ∀ o' ∈ objs', accepted cfg 0 im o' = true := by
          intro o' ho'
          obtain ⟨i, hi, rfl⟩ := List.mem_iff_getElem.mp ho'
          have hlen := hs.length_eq
          have hi2 : i < (objs.filter (accepted cfg 0 im)).length := by omega
          have := (List.forall₂_iff_get.mp hs).2 i hi2 hi
          simp only [List.get_eq_getElem] at this
          rw [accepted_sky this]
          exact (List.mem_filter.mp (List.getElem_mem hi2)).2
        have hf : objs'.filter (accepted cfg 0 im) = objs' := List.filter_eq_self.mpr hall
        rw [hf, if_neg]
        rw [← hs.length_eq]
        exact hl
  · rfl

section
variable {cfg : MakerCfg} {hn : Bool} {objs : List InputObj} {images : List SrcImage} {psf : Option (List PsfModel)}
  {psfInfo : Option String} {md : String} {mk mk' mk'' : Maker} {f f' : Fits} {m m' : MEDS}

/-- **C14** (what really happens) If a second `write` of the same maker completes at all, it doubles the number of cutouts of every object. -/
theorem C14_second_write_doubles (hi : Maker.init cfg hn objs images psf psfInfo md = .ok mk) (hw : mk.write = .ok (mk', f))
    (hw' : mk'.write = .ok (mk'', f')) (ho : MEDS.openFile f = .ok m) (ho' : MEDS.openFile f' = .ok m') :
    m'.cat.rows.map (·.ncutout) = m.cat.rows.map (fun o => 2 * o.ncutout) := by
  obtain ⟨e1, e2, e3, e4, e5, e6, e7, e8, e9⟩ := init_ok hi
  obtain ⟨hb, hd⟩ := write_ok hw
  obtain ⟨hb', hd'⟩ := write_ok hw'
  obtain ⟨o0, t0, c0, q1, q2, q3⟩ := buildLayout_counts hb
  obtain ⟨o1, t1, c1, r1, r2, r3⟩ := buildLayout_counts hb'
  have hsup : ∀ t ∈ mk'.types, t ∈ supportedTypes := by
    rw [q3]; exact (setCutoutTypes_ok e6).2
  have hrows : m.cat.rows = mk'.objs := by
    have := writeData_catalogue hsup hd
    unfold MEDS.openFile at ho
    rw [this] at ho
    dsimp only at ho
    split at ho
    · split at ho
      · injection ho with ho; rw [← ho]
      · cases ho
    · cases ho
  have hrows' : m'.cat.rows = mk''.objs := by
    have := writeData_catalogue (by rw [r3]; exact hsup) hd'
    unfold MEDS.openFile at ho'
    rw [this] at ho'
    dsimp only at ho'
    split at ho'
    · split at ho'
      · injection ho' with ho'; rw [← ho']
      · cases ho'
    · cases ho'
  have hagain : trim mk'.cfg mk'.images mk'.objs = .ok mk'.objs := by
    rw [q1, q2]
    exact trim_again t0 (c0.imp (fun a b h => h.2))
  rw [hagain] at t1
  injection t1 with t1
  subst t1
  rw [hrows, hrows']
  have hz : ∀ o ∈ o0, o.ncutout = 0 := by
    intro o hoo
    have : o ∈ mk.objs := by
      unfold trim at t0
      split at t0
      · split at t0
        · cases t0
        · dsimp only at t0
          split at t0
          · cases t0
          · injection t0 with t0
            subst t0
            exact (List.mem_filter.mp hoo).1
      · injection t0 with t0
        subst t0; exact hoo
    rw [e8] at this
    obtain ⟨a, ha, rfl⟩ := List.mem_map.mp this
    obtain ⟨b, hb, rfl⟩ := List.mem_map.mp ha
    rw [(forceEven_fresh _).1]
    rfl
  rw [q1, q2] at c1
  have c0' := forall₂_and_left c0 hz
  have : ∀ (A B C : List ObjRow),
      List.Forall₂ (fun o o' : ObjRow => o.ncutout = 0 ∧ o'.ncutout = o.ncutout + (acceptedIn mk.cfg o (numbered mk.images)).length ∧ o'.sky = o.sky) A B →
      List.Forall₂ (fun o o' : ObjRow => o'.ncutout = o.ncutout + (acceptedIn mk.cfg o (numbered mk.images)).length ∧ o'.sky = o.sky) B C →
      C.map (·.ncutout) = B.map (fun o => 2 * o.ncutout) := by
    intro A B C h1
    induction h1 generalizing C with
    | nil => intro h2; cases h2; rfl
    | cons hab _ ih =>
      intro h2
      obtain ⟨c, u, hc, hu, rfl⟩ := List.forall₂_cons_left_iff.mp h2
      rw [List.map_cons, List.map_cons, ih u hu, hc.1, acceptedIn_sky hab.2.2]
      congr 1
      have := hab.2.1
      have := hab.1
      omega
  exact this _ _ _ c0' c1

/-- **C14** is false: with any stored cutout the second file always differs from the first. -/
theorem C14_second_write_differs (hi : Maker.init cfg hn objs images psf psfInfo md = .ok mk) (hw : mk.write = .ok (mk', f))
    (hw' : mk'.write = .ok (mk'', f')) (ho : MEDS.openFile f = .ok m) (hne : ∃ o ∈ m.cat.rows, o.ncutout ≠ 0) : f' ≠ f := by
  rintro rfl
  have := C14_second_write_doubles hi hw hw' ho ho
  obtain ⟨o, hoo, hnz⟩ := hne
  have h := List.map_inj_left.mp this o hoo
  omega

/-! When no object has a cutout, the second write does reproduce the file. -/

theorem mapRes_id {α : Type} {g : α → Res α} {l : List α} (h : ∀ a ∈ l, g a = .ok a) : mapRes g l = .ok l := by
  induction l with
  | nil => rfl
  | cons a l ih =>
    unfold mapRes
    rw [h a (by simp)]
    dsimp only
    rw [ih (fun b hb => h b (by simp [hb]))]

theorem foldRes_id {σ α : Type} {g : σ → α → Res σ} {b : σ} {l : List α} (h : ∀ a ∈ l, g b a = .ok b) : foldRes g b l = .ok b := by
  induction l with
  | nil => rfl
  | cons a l ih => exact foldRes_cons_ok.mpr ⟨b, h a (by simp), ih (fun x hx => h x (by simp [hx]))⟩

theorem setStartRows_zero {objs : List ObjRow} {cur : Int} (h : ∀ o ∈ objs, o.ncutout = 0) : setStartRows cur objs = .ok (objs, cur) := by
  induction objs with
  | nil => rfl
  | cons o os ih =>
    unfold setStartRows
    rw [show o.ncutout.toNat = 0 by rw [h o (by simp)]; rfl]
    simp only [setStarts, Res.ok_bind]
    rw [ih (fun x hx => h x (by simp [hx]))]
    rfl

theorem setPsfLayout_zero {psf : List PsfModel} {objs : List ObjRow} {cur : Int} (h : ∀ o ∈ objs, o.ncutout = 0) :
    setPsfLayout psf cur objs = .ok (objs, cur) := by
  induction objs with
  | nil => rfl
  | cons o os ih =>
    unfold setPsfLayout
    rw [show o.ncutout.toNat = 0 by rw [h o (by simp)]; rfl]
    simp only [setPsfSlots, Res.ok_bind]
    rw [ih (fun x hx => h x (by simp [hx]))]
    rfl

theorem pixelSum_zero {objs : List ObjRow} (h : ∀ o ∈ objs, o.ncutout = 0) : pixelSum objs = 0 := by
  unfold pixelSum
  apply List.sum_eq_zero
  intro x hx
  obtain ⟨o, ho, rfl⟩ := List.mem_map.mp hx
  rw [h o ho]; ring

theorem regions_zero {objs : List ObjRow} (h : ∀ o ∈ objs, o.ncutout = 0) : regions objs = [] ∧ psfRegions objs = [] := by
  unfold regions psfRegions
  constructor <;>
  · rw [List.flatMap_eq_nil_iff]
    intro o ho
    rw [h o ho]
    rfl

/-- **C14** (as far as it holds) If no image covers any object, a second write returns the same file and leaves the maker as it is. -/
theorem C14_no_epochs_partial (hi : Maker.init cfg hn objs images psf psfInfo md = .ok mk) (hw : mk.write = .ok (mk', f))
    (ho : MEDS.openFile f = .ok m) (hz : ∀ o ∈ m.cat.rows, o.ncutout = 0) : mk'.write = .ok (mk', f) := by
  obtain ⟨in0, w, W, rfl, htrim⟩ := opened_eq hi hw ho
  have hz : ∀ o ∈ mk'.objs, o.ncutout = 0 := hz
  obtain ⟨hb, hd⟩ := write_ok hw
  obtain ⟨e1, e2, e3, _, _, e6, _, e8, _⟩ := init_ok hi
  obtain ⟨o0, t0, c0, q1, q2, q3⟩ := buildLayout_counts hb
  have hagain : trim mk'.cfg mk'.images mk'.objs = .ok mk'.objs := by
    rw [q1, q2]
    exact trim_again t0 (c0.imp (fun a b h => h.2))
  have hw2 : w = 2 := by
    rcases W.wmax with h | ⟨o, ho, h⟩
    · exact h
    · have := hz o ho; have := W.w2; omega
  have hlen : ∀ o ∈ mk'.objs, o.slots.length = 2 := by
    intro o ho
    obtain ⟨i, hi⟩ := List.mem_iff_getElem?.mp ho
    have := (laidOut_slots W.laid hi).2.2.1
    omega
  have hfr : ∀ o ∈ mk.objs, o.ncutout = 0 := by
    intro o hoo
    rw [e8] at hoo
    obtain ⟨a, ha, rfl⟩ := List.mem_map.mp hoo
    obtain ⟨b, hb, rfl⟩ := List.mem_map.mp ha
    rw [(forceEven_fresh _).1]
    rfl
  have hsub : ∀ o ∈ o0, o ∈ mk.objs := by
    intro o hoo
    unfold trim at t0
    split at t0
    · split at t0
      · cases t0
      · dsimp only at t0
        split at t0
        · cases t0
        · injection t0 with t0
          subst t0
          exact (List.mem_filter.mp hoo).1
    · injection t0 with t0
      subst t0; exact hoo
  have hpair : ∀ (A B : List ObjRow), (∀ o ∈ A, o.ncutout = 0) → (∀ o ∈ B, o.ncutout = 0) →
      List.Forall₂ (fun o o' : ObjRow => o'.ncutout = o.ncutout + (acceptedIn mk.cfg o (numbered mk.images)).length ∧ o'.sky = o.sky) A B →
      (∀ o ∈ A, acceptedIn mk.cfg o (numbered mk.images) = []) ∧ (∀ o ∈ B, acceptedIn mk.cfg o (numbered mk.images) = []) := by
    intro A B hA hB hAB
    induction hAB with
    | nil => simp
    | @cons a b as bs hab _ ih =>
      obtain ⟨i1, i2⟩ := ih (fun o ho => hA o (by simp [ho])) (fun o ho => hB o (by simp [ho]))
      have h1 := hA a (by simp)
      have h2 := hB b (by simp)
      have h3 : acceptedIn mk.cfg a (numbered mk.images) = [] := by
        apply List.length_eq_zero_iff.mp
        have := hab.1
        omega
      refine ⟨?_, ?_⟩
      · intro o ho
        rcases List.mem_cons.mp ho with rfl | ho
        · exact h3
        · exact i1 o ho
      · intro o ho
        rcases List.mem_cons.mp ho with rfl | ho
        · rw [acceptedIn_sky hab.2]; exact h3
        · exact i2 o ho
  obtain ⟨hn0, hn1⟩ := hpair _ _ (fun o ho => hfr o (hsub o ho)) hz c0
  have hna : ∀ fi ∈ numbered mk.images, ∀ o, acceptedIn mk.cfg o (numbered mk.images) = [] → accepted mk.cfg fi.1 fi.2 o = false := by
    intro fi hfi o ho
    unfold acceptedIn at ho
    rw [List.filter_eq_nil_iff] at ho
    simpa using ho fi hfi
  -- the first run, for its checks
  have hb0 := hb
  unfold buildLayout at hb0
  obtain ⟨p0, h0, hb0⟩ := Res.bind_eq_ok.mp hb0
  obtain ⟨p1, h1, hb0⟩ := Res.bind_eq_ok.mp hb0
  obtain ⟨p2, h2, _⟩ := Res.bind_eq_ok.mp hb0
  rw [t0] at h0
  injection h0 with h0
  subst h0
  have hne : mk'.objs ≠ [] := by
    intro hnil
    have hl := c0.length_eq
    rw [hnil] at hl
    have ho0 : o0 = [] := List.length_eq_zero_iff.mp hl
    subst ho0
    have := (fold_layoutFile h1).length_eq
    have hp1 : p1 = [] := List.length_eq_zero_iff.mp this.symm
    subst hp1
    cases h2
  have hlay : foldRes (layoutFile mk'.cfg) mk'.objs (numbered mk'.images) = .ok mk'.objs := by
    rw [q1, q2]
    -- the pass over image 0 of the first run
    have first : ∀ im rest, mk.images = im :: rest → ∃ q, layoutFile mk.cfg o0 (0, im) = .ok q := by
      intro im rest him
      have : numbered mk.images = (0, im) :: (numbered mk.images).tail := by
        rw [him]; simp [numbered, List.range_succ_eq_map]
      rw [this] at h1
      obtain ⟨q, hq, _⟩ := foldRes_cons_ok.mp h1
      exact ⟨q, hq⟩
    apply foldRes_id
    intro fi hfi
    have hfi' := mem_numbered.mp (show (fi.1, fi.2) ∈ numbered mk.images from hfi)
    have zero : fi.1 = 0 → ∃ q, layoutFile mk.cfg o0 fi = .ok q := by
      intro hf
      rw [hf] at hfi'
      cases him : mk.images with
      | nil => rw [him] at hfi'; cases hfi'
      | cons im rest =>
        rw [him] at hfi'
        injection hfi' with hfi'
        obtain ⟨q, hq⟩ := first im rest him
        refine ⟨q, ?_⟩
        rw [show fi = (0, im) from Prod.ext hf hfi'.symm]
        exact hq
    have hfil0 : o0.filter (accepted mk.cfg fi.1 fi.2) = [] := by
      rw [List.filter_eq_nil_iff]
      intro o hoo
      rw [hna fi hfi o (hn0 o hoo)]; decide
    have hfil1 : mk'.objs.filter (accepted mk.cfg fi.1 fi.2) = [] := by
      rw [List.filter_eq_nil_iff]
      intro o hoo
      rw [hna fi hfi o (hn1 o hoo)]; decide
    unfold layoutFile
    dsimp only
    have hforce : forceCheck mk.cfg fi.1 fi.2 mk'.objs = .ok () := by
      unfold forceCheck
      split
      · rename_i hf
        exfalso
        have hf0 : fi.1 = 0 := by
          unfold forces at hf
          simp only [Bool.and_eq_true, beq_iff_eq] at hf
          exact hf.1.2
        obtain ⟨q, hq⟩ := zero hf0
        unfold layoutFile at hq
        obtain ⟨_, hq, _⟩ := Res.bind_eq_ok.mp hq
        unfold forceCheck at hq
        rw [if_pos hf, hfil0] at hq
        cases hq
      · rfl
    rw [hforce]
    simp only [Res.ok_bind]
    rw [if_neg, mapRes_id]
    · intro o hoo
      rw [hna fi hfi o (hn1 o hoo)]
      rfl
    · intro hc
      simp only [Bool.and_eq_true, beq_iff_eq] at hc
      obtain ⟨⟨⟨c1, c2⟩, c3⟩, _⟩ := hc
      obtain ⟨q, hq⟩ := zero c3
      have hall := (layoutFile_ok hq).2 c1 c2 c3
      have hl := c0.length_eq
      cases ho0 : o0 with
      | nil => rw [ho0] at hl; exact hne (List.length_eq_zero_iff.mp hl.symm)
      | cons a as =>
        have ha : a ∈ o0 := by rw [ho0]; simp
        have hbad := hall a ha
        rw [hna fi hfi a (hn0 a ha)] at hbad
        cases hbad
  have hres : resize mk'.objs = .ok mk'.objs := by
    unfold resize
    have hm : maxNcutout mk'.objs = .ok 0 := by
      cases hmm : maxNcutout mk'.objs with
      | error e =>
        cases hobj : mk'.objs with
        | nil => exact absurd hobj hne
        | cons a as => rw [hobj] at hmm; cases hmm
      | ok k =>
        obtain ⟨_, o, ho, hk⟩ := maxNcutout_ok hmm
        rw [hz o ho] at hk
        rw [hk]
    rw [hm]
    simp only [Res.ok_bind]
    apply mapRes_id
    intro o hoo
    simp only [Int.reduceLT, if_true]
    rw [if_neg (by rw [hlen o hoo]; omega), List.take_of_length_le (by rw [hlen o hoo])]
  have htp : mk'.totalPixels = 0 := by
    have := W.ready.tiled
    rw [(regions_zero hz).1] at this
    exact this.symm
  have hbl : mk'.buildLayout = .ok mk' := by
    unfold buildLayout
    rw [hagain]
    simp only [Res.ok_bind]
    rw [hlay]
    simp only [Res.ok_bind]
    rw [hres]
    simp only [Res.ok_bind]
    rw [setStartRows_zero hz]
    simp only [Res.ok_bind]
    rw [pixelSum_zero hz, if_neg (by simp)]
    cases hpsf : mk'.psf with
    | none =>
      dsimp only
      congr 1
      cases mk'
      simp only at htp hpsf
      subst htp hpsf
      rfl
    | some p =>
      dsimp only
      rw [setPsfLayout_zero hz]
      simp only [Res.ok_bind]
      have htq : mk'.totalPsfPixels = 0 := by
        have := W.ready.psfTiled p hpsf
        rw [(regions_zero hz).2] at this
        exact this.symm
      congr 1
      cases mk'
      simp only at htp htq hpsf
      subst htp htq hpsf
      rfl
  unfold write
  rw [hbl]
  simp only [Res.ok_bind]
  rw [hd]
  rfl

end

-- an object that no image covers: the second write returns the same file
example : (match Ex.run { Ex.cfg with checkInCoadd := false } [Ex.obj 1 2 50 50] Ex.images (some Ex.psfs) with
  | .ok (mk', f) => (match mk'.write with | .ok (_, f') => decide (f' = f) | _ => false)
  | .error _ => false) = true := by decide +kernel

/-- The maker of the example below: one image, one object, so that the columns have a spare entry. -/
def Ex.single : Res (Maker × Fits) := Ex.run Ex.cfg [Ex.obj 1 2 2 2] [Ex.src 5 0 100 1] none

-- the first write stores one cutout, the second completes and stores two
example : (match Ex.single with
  | .ok (mk', f) =>
    match mk'.write, MEDS.openFile f with
    | .ok (_, f'), .ok m =>
      match MEDS.openFile f' with
      | .ok m' => m.cat.rows.map (·.ncutout) = [1] && m'.cat.rows.map (·.ncutout) = [2] && decide (f' ≠ f)
      | _ => false
    | _, _ => false
  | .error _ => false) = true := by decide +kernel

-- with several images the second write fails: the columns have no room for more epochs
example : (match Ex.run Ex.cfg Ex.objs Ex.images none with
  | .ok (mk', _) => (match mk'.write with | .error e => decide (e = Err.indexError) | .ok _ => false)
  | .error _ => false) = true := by decide +kernel

end Meds
