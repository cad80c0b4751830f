import Verif.Lemmas.Written

/-! When the maker completes: every stage succeeds on valid input. -/

namespace Meds
namespace Maker
open Spec

theorem foldRes_total {σ α : Type} {f : σ → α → Res σ} {l : List α} {b : σ} (P : σ → Prop) (hb : P b)
    (hstep : ∀ b x, x ∈ l → P b → ∃ b', f b x = .ok b' ∧ P b') : ∃ b', foldRes f b l = .ok b' ∧ P b' := by
  induction l generalizing b with
  | nil => exact ⟨b, rfl, hb⟩
  | cons x xs ih =>
    obtain ⟨t, ht, hP⟩ := hstep b x (by simp) hb
    obtain ⟨b', h1, h2⟩ := ih hP (fun b y hy => hstep b y (by simp [hy]))
    exact ⟨b', foldRes_cons_ok.mpr ⟨t, ht, h1⟩, h2⟩

/-- The catalogue-wide checks of one pass of the loop, in terms of the sky positions. -/
def ChecksOk (cfg : MakerCfg) (fi : Nat × SrcImage) (skies : List SkyPos) : Prop :=
  (forces cfg fi.1 = true → ∃ s ∈ skies, Covers cfg fi.1 fi.2 s) ∧
  (cfg.firstImageIsCoadd = true → cfg.checkInCoadd = true → fi.1 = 0 → ∀ s ∈ skies, Covers cfg fi.1 fi.2 s)

theorem clip_inside {b : Bounds} {p : Pos} (h : b.containsPoint p.zrow p.zcol = true) : clipPos b p = p := by
  unfold Bounds.containsPoint at h
  simp only [Bool.and_eq_true, decide_eq_true_eq] at h
  unfold clipPos clipQ
  obtain ⟨⟨⟨h1, h2⟩, h3⟩, h4⟩ := h
  rw [max_eq_left h2, min_eq_left h1, max_eq_left h4, min_eq_left h3]

/-- How many of the numbered images cover a position. -/
def coverCount (cfg : MakerCfg) (L : List (Nat × SrcImage)) (sky : SkyPos) : Nat := (L.filter (fun fi => decide (Covers cfg fi.1 fi.2 sky))).length

theorem coverCount_cons (cfg : MakerCfg) (fi : Nat × SrcImage) (L : List (Nat × SrcImage)) (sky : SkyPos) :
    coverCount cfg (fi :: L) sky = (if Covers cfg fi.1 fi.2 sky then 1 else 0) + coverCount cfg L sky := by
  unfold coverCount
  rw [List.filter_cons]
  by_cases h : Covers cfg fi.1 fi.2 sky <;> simp [h, Nat.add_comm]

theorem coverCount_numbered (cfg : MakerCfg) (images : List SrcImage) (o : ObjRow) :
    coverCount cfg (numbered images) o.sky = (coveringImages cfg images o.sky).length := by
  rw [← acceptedIn_ids, List.length_map]
  unfold coverCount acceptedIn
  congr 2
  funext fi
  rw [Bool.eq_iff_iff, accepted_iff]
  simp

theorem layoutFile_total {cfg : MakerCfg} {fi : Nat × SrcImage} {objs : List ObjRow} {nmax : Nat} {c : SkyPos → Nat}
    (hc : ChecksOk cfg fi (objs.map (·.sky)))
    (hroom : ∀ o ∈ objs, o.slots.length = nmax ∧ 0 ≤ o.ncutout ∧
      o.ncutout + (((if Covers cfg fi.1 fi.2 o.sky then 1 else 0) + c o.sky : Nat) : Int) ≤ nmax) :
    ∃ objs', layoutFile cfg objs fi = .ok objs' ∧ objs'.map (·.sky) = objs.map (·.sky) ∧
      ∀ o ∈ objs', o.slots.length = nmax ∧ 0 ≤ o.ncutout ∧ o.ncutout + (c o.sky : Int) ≤ nmax := by
  have hacc : ∀ o, accepted cfg fi.1 fi.2 o = true ↔ Covers cfg fi.1 fi.2 o.sky := fun o => accepted_iff _ _ _ _
  have hforce : forceCheck cfg fi.1 fi.2 objs = .ok () := by
    unfold forceCheck
    split
    · rename_i hf
      obtain ⟨s, hs, hcov⟩ := hc.1 hf
      obtain ⟨o, ho, rfl⟩ := List.mem_map.mp hs
      dsimp only
      have hmem : o ∈ objs.filter (accepted cfg fi.1 fi.2) := List.mem_filter.mpr ⟨ho, (hacc o).mpr hcov⟩
      rw [if_neg (by have := List.length_pos_of_mem hmem; omega), if_pos]
      rw [List.all_eq_true]
      intro x hx
      have hx' := (List.mem_filter.mp hx).2
      unfold accepted at hx'
      rw [Bool.and_eq_true] at hx'
      rw [clip_inside hx'.2]
      exact hx'.2
    · rfl
  have hstep : ∀ o ∈ objs, ∃ o', stepObj cfg o fi = .ok o' ∧ o'.sky = o.sky ∧ o'.slots.length = nmax ∧ 0 ≤ o'.ncutout ∧
      o'.ncutout + (c o'.sky : Int) ≤ nmax := by
    intro o ho
    obtain ⟨h1, h2, h3⟩ := hroom o ho
    unfold stepObj
    split
    · rename_i ha
      rw [if_pos ((hacc o).mp ha)] at h3
      unfold addEpoch
      obtain ⟨k, hk⟩ := Int.eq_ofNat_of_zero_le h2
      have hkl : k < o.slots.length := by omega
      rw [hk, pyIndex_nat hkl, pyGet_nat hkl]
      refine ⟨_, rfl, rfl, by simpa using h1, ?_, ?_⟩
      · show (0 : Int) ≤ (k : Int) + 1; omega
      · show (k : Int) + 1 + (c o.sky : Int) ≤ _; push_cast at h3; omega
    · exact ⟨o, rfl, rfl, h1, h2, by push_cast at h3; omega⟩
  obtain ⟨objs', hm⟩ := mapRes_of_forall (f := fun o => stepObj cfg o fi) (l := objs) (fun o ho => by
    obtain ⟨o', h, _⟩ := hstep o ho
    exact ⟨o', h⟩)
  have hf := mapRes_ok_iff.mp hm
  refine ⟨objs', ?_, ?_, ?_⟩
  · unfold layoutFile
    dsimp only
    rw [hforce]
    simp only [Res.ok_bind]
    rw [if_neg]
    · exact hm
    · intro hh
      simp only [Bool.and_eq_true, beq_iff_eq, bne_iff_ne, ne_eq] at hh
      obtain ⟨⟨⟨h1, h2⟩, h3⟩, h4⟩ := hh
      apply h4
      symm
      rw [List.length_filter_eq_length_iff]
      intro o ho
      exact (hacc o).mpr (hc.2 h1 h2 h3 _ (List.mem_map_of_mem ho))
  · clear hm hroom hforce hc
    induction hf with
    | nil => rfl
    | @cons a b as bs hab _ ih =>
      obtain ⟨o', h1, h2, _⟩ := hstep a (by simp)
      rw [hab] at h1
      injection h1 with h1
      subst h1
      rw [List.map_cons, List.map_cons, h2, ih (fun o ho => hstep o (by simp [ho]))]
  · intro o' ho'
    obtain ⟨i, hi'⟩ := List.mem_iff_getElem?.mp ho'
    obtain ⟨o, h1, h2⟩ := mapRes_getElem?_inv hm hi'
    obtain ⟨o'', g1, g2⟩ := hstep o (List.mem_of_getElem? h1)
    rw [h2] at g1
    injection g1 with g1
    subst g1
    exact g2.2

theorem fold_layoutFile_total {cfg : MakerCfg} {L : List (Nat × SrcImage)} {objs : List ObjRow} {nmax : Nat}
    (hc : ∀ fi ∈ L, ChecksOk cfg fi (objs.map (·.sky)))
    (hroom : ∀ o ∈ objs, o.slots.length = nmax ∧ 0 ≤ o.ncutout ∧ o.ncutout + (coverCount cfg L o.sky : Int) ≤ nmax) :
    ∃ objs', foldRes (layoutFile cfg) objs L = .ok objs' ∧ objs'.length = objs.length ∧
      ∀ o ∈ objs', o.slots.length = nmax ∧ 0 ≤ o.ncutout ∧ o.ncutout ≤ nmax := by
  induction L generalizing objs with
  | nil => exact ⟨objs, rfl, rfl, fun o ho => by simpa [coverCount] using hroom o ho⟩
  | cons x xs ih =>
    obtain ⟨mid, h1, h2, h3⟩ := layoutFile_total (nmax := nmax) (c := coverCount cfg xs) (hc x (by simp)) (fun o ho => by
      have := hroom o ho
      rwa [coverCount_cons] at this)
    obtain ⟨objs', g1, g2, g3⟩ := ih (objs := mid) (fun fi hfi => by rw [h2]; exact hc fi (by simp [hfi])) h3
    have hl : mid.length = objs.length := by simpa using congrArg List.length h2
    exact ⟨objs', foldRes_cons_ok.mpr ⟨mid, h1, g1⟩, by omega, g3⟩

theorem resize_total {objs : List ObjRow} {nmax : Nat} (hne : objs ≠ []) (h2 : 2 ≤ nmax)
    (hroom : ∀ o ∈ objs, o.slots.length = nmax ∧ 0 ≤ o.ncutout ∧ o.ncutout ≤ nmax) :
    ∃ objs', resize objs = .ok objs' ∧ objs'.length = objs.length ∧
      ∀ o ∈ objs', 0 ≤ o.ncutout ∧ o.ncutout ≤ o.slots.length := by
  obtain ⟨m, hm⟩ : ∃ m, maxNcutout objs = .ok m := by
    cases objs with
    | nil => exact absurd rfl hne
    | cons o os => exact ⟨_, rfl⟩
  obtain ⟨hle, o, ho, hom⟩ := maxNcutout_ok hm
  have hmn : m ≤ nmax := by rw [← hom]; exact (hroom o ho).2.2
  unfold resize
  rw [hm]
  simp only [Res.ok_bind]
  have hw : (if m < 2 then 2 else m.toNat) ≤ nmax := by split <;> omega
  have hw2 : m ≤ ((if m < 2 then 2 else m.toNat : Nat) : Int) := by split <;> omega
  generalize (if m < 2 then 2 else m.toNat) = w at *
  obtain ⟨objs', hk⟩ := mapRes_of_forall
    (f := fun o : ObjRow => if o.slots.length < w then (.error .valueError : Res ObjRow) else .ok { o with slots := o.slots.take w })
    (l := objs) (fun o ho => ⟨_, if_neg (by rw [(hroom o ho).1]; omega)⟩)
  refine ⟨objs', hk, mapRes_length hk, ?_⟩
  intro o' ho'
  obtain ⟨i, hi'⟩ := List.mem_iff_getElem?.mp ho'
  obtain ⟨o, h1, h2⟩ := mapRes_getElem?_inv hk hi'
  have hmem := List.mem_of_getElem? h1
  obtain ⟨a, b, c⟩ := hroom o hmem
  rw [if_neg (by omega)] at h2
  injection h2 with h2
  subst h2
  have := hle o hmem
  refine ⟨b, ?_⟩
  show o.ncutout ≤ ((o.slots.take w).length : Int)
  rw [List.length_take]
  omega

theorem setStarts_total {np : Int} {n : Nat} {cur : Int} {ss : List Slot} (h : n ≤ ss.length) :
    ∃ ss', setStarts np n cur ss = .ok (ss', cur + n * np) := by
  induction n generalizing cur ss with
  | zero => exact ⟨ss, by simp [setStarts]⟩
  | succ n ih =>
    cases ss with
    | nil => simp at h
    | cons s ss =>
      obtain ⟨r, hr⟩ := ih (cur := cur + np) (ss := ss) (by simpa using h)
      refine ⟨{ s with startRow := cur } :: r, ?_⟩
      · simp only [setStarts]
        rw [hr]
        simp only [Res.ok_bind]
        congr 2
        push_cast; ring

theorem setStartRows_total {objs : List ObjRow} {cur : Int} (h : ∀ o ∈ objs, 0 ≤ o.ncutout ∧ o.ncutout ≤ o.slots.length) :
    ∃ objs', setStartRows cur objs = .ok (objs', cur + pixelSum objs) := by
  induction objs generalizing cur with
  | nil => exact ⟨[], by simp [setStartRows, pixelSum]⟩
  | cons o os ih =>
    have ho := h o (by simp)
    obtain ⟨r, hr⟩ := setStarts_total (np := o.boxSize * o.boxSize) (n := o.ncutout.toNat) (cur := cur) (ss := o.slots) (by omega)
    obtain ⟨rest, hrest⟩ := ih (cur := cur + o.ncutout.toNat * (o.boxSize * o.boxSize)) (fun x hx => h x (by simp [hx]))
    refine ⟨{ o with slots := r } :: rest, ?_⟩
    · simp only [setStartRows]
      rw [hr]
      simp only [Res.ok_bind]
      rw [hrest]
      simp only [Res.ok_bind]
      congr 2
      rw [Int.toNat_of_nonneg ho.1]
      simp [pixelSum]; ring

theorem setPsfSlots_total {psf : List PsfModel} {sky : SkyPos} {n : Nat} {cur : Int} {ss : List Slot} (h : n ≤ ss.length)
    (hid : ∀ s ∈ ss.take n, ∃ p, pyGet psf s.fileId = .ok p) : ∃ r, setPsfSlots psf sky n cur ss = .ok r := by
  induction n generalizing cur ss with
  | zero => exact ⟨_, rfl⟩
  | succ n ih =>
    cases ss with
    | nil => simp at h
    | cons s ss =>
      obtain ⟨p, hp⟩ := hid s (by simp)
      simp only [setPsfSlots]
      rw [hp]
      simp only [Res.ok_bind]
      obtain ⟨r, hr⟩ := ih (cur := cur + ((psfShapeOf p sky s.origRow s.origCol).1 : Int) * (psfShapeOf p sky s.origRow s.origCol).2)
        (ss := ss) (by simpa using h) (fun t ht => hid t (by simp [ht]))
      rw [hr]
      exact ⟨_, rfl⟩

theorem setPsfLayout_total {psf : List PsfModel} {objs : List ObjRow} {cur : Int}
    (h : ∀ o ∈ objs, o.ncutout.toNat ≤ o.slots.length ∧ ∀ s ∈ o.slots.take o.ncutout.toNat, ∃ p, pyGet psf s.fileId = .ok p) :
    ∃ r, setPsfLayout psf cur objs = .ok r := by
  induction objs generalizing cur with
  | nil => exact ⟨_, rfl⟩
  | cons o os ih =>
    obtain ⟨h1, h2⟩ := h o (by simp)
    obtain ⟨r, hr⟩ := setPsfSlots_total (sky := o.sky) (cur := cur) h1 h2
    obtain ⟨rest, hrest⟩ := ih (cur := r.2) (fun x hx => h x (by simp [hx]))
    simp only [setPsfLayout]
    rw [hr]
    simp only [Res.ok_bind]
    rw [hrest]
    exact ⟨_, rfl⟩

/-- The layout without PSFs. -/
theorem buildLayout_total_nopsf {mk : Maker} {nmax : Nat} (hfresh : ∀ o ∈ mk.objs, o.ncutout = 0 ∧ o.slots = List.replicate nmax Slot.dflt)
    {in0 : List ObjRow} (ht : trim mk.cfg mk.images mk.objs = .ok in0) (hsub : ∀ o ∈ in0, o ∈ mk.objs) (hne : in0 ≠ [])
    (h2 : 2 ≤ nmax) (hn : ∀ o ∈ in0, (coveringImages mk.cfg mk.images o.sky).length ≤ nmax) (hc : ∀ fi ∈ numbered mk.images, ChecksOk mk.cfg fi (in0.map (·.sky)))
    (hpsf : mk.psf = none) : ∃ mk', mk.buildLayout = .ok mk' := by
  obtain ⟨objs1, f1, f2, f3⟩ := fold_layoutFile_total (nmax := nmax) hc (fun o ho => by
    obtain ⟨a, b⟩ := hfresh o (hsub o ho)
    have := hn o ho
    rw [a, b, coverCount_numbered]
    simpa using this)
  obtain ⟨objs2, r1, r2, r3⟩ := resize_total (nmax := nmax) (objs := objs1) (by
    intro e; rw [e] at f2
    exact hne (List.length_eq_zero_iff.mp f2.symm)) h2 f3
  obtain ⟨objs3, s1⟩ := setStartRows_total (cur := 0) r3
  unfold buildLayout
  rw [ht]
  simp only [Res.ok_bind]
  rw [f1]
  simp only [Res.ok_bind]
  rw [r1]
  simp only [Res.ok_bind]
  rw [s1]
  simp only [Res.ok_bind]
  rw [if_neg (by simp), hpsf]
  exact ⟨_, rfl⟩

/-- The layout, with or without PSFs. -/
theorem buildLayout_total {mk : Maker} {nmax : Nat} (hfresh : ∀ o ∈ mk.objs, o.ncutout = 0 ∧ o.slots = List.replicate nmax Slot.dflt)
    {in0 : List ObjRow} (ht : trim mk.cfg mk.images mk.objs = .ok in0) (hsub : ∀ o ∈ in0, o ∈ mk.objs) (hne : in0 ≠ [])
    (h2 : 2 ≤ nmax) (hn : ∀ o ∈ in0, (coveringImages mk.cfg mk.images o.sky).length ≤ nmax) (hc : ∀ fi ∈ numbered mk.images, ChecksOk mk.cfg fi (in0.map (·.sky)))
    (hpsf : ∀ p, mk.psf = some p → p.length = mk.images.length) : ∃ mk', mk.buildLayout = .ok mk' := by
  obtain ⟨mkA, hA⟩ := buildLayout_total_nopsf (mk := { mk with psf := none }) hfresh ht hsub hne h2 hn hc rfl
  cases hp : mk.psf with
  | none =>
    have : mk = { mk with psf := none } := by cases mk; simp only at hp; subst hp; rfl
    rw [this]
    exact ⟨mkA, hA⟩
  | some p =>
    obtain ⟨objs0, w, g1, g2, g3, g4, g5, g6, g7, _⟩ := buildLayout_ok (nmax := nmax) hA hfresh
    have hids := laidOut_fileIds g4
    unfold buildLayout at hA ⊢
    dsimp only at hA
    obtain ⟨o0, a0, hA⟩ := Res.bind_eq_ok.mp hA
    obtain ⟨o1, a1, hA⟩ := Res.bind_eq_ok.mp hA
    obtain ⟨o2, a2, hA⟩ := Res.bind_eq_ok.mp hA
    obtain ⟨o3, a3, hA⟩ := Res.bind_eq_ok.mp hA
    rw [a0]; simp only [Res.ok_bind]
    rw [a1]; simp only [Res.ok_bind]
    rw [a2]; simp only [Res.ok_bind]
    rw [a3]; simp only [Res.ok_bind]
    split at hA
    · cases hA
    · rename_i hne'
      rw [if_neg hne', hp]
      injection hA with hA
      subst hA
      simp only at hids g4
      obtain ⟨r, hr⟩ := setPsfLayout_total (psf := p) (objs := o3.1) (cur := 0) (by
        intro o ho
        obtain ⟨i, hi'⟩ := List.mem_iff_getElem?.mp ho
        obtain ⟨b1, b2, b3, _⟩ := laidOut_slots g4 hi'
        refine ⟨by omega, ?_⟩
        intro s hs
        obtain ⟨c1, c2⟩ := hids o s (mem_cells.mpr ⟨ho, hs⟩)
        obtain ⟨k, hk⟩ := Int.eq_ofNat_of_zero_le c1
        rw [hk]
        have : k < p.length := by rw [hpsf p hp]; omega
        exact ⟨_, pyGet_nat this⟩)
      dsimp only
      rw [hr]
      exact ⟨_, rfl⟩

theorem trim_sub {cfg : MakerCfg} {images : List SrcImage} {objs in0 : List ObjRow} (h : trim cfg images objs = .ok in0) : ∀ o ∈ in0, o ∈ objs := by
  intro o ho
  unfold trim at h
  split at h
  · split at h
    · cases h
    · dsimp only at h
      split at h
      · cases h
      · injection h with h
        subst h
        exact (List.mem_filter.mp ho).1
  · injection h with h
    subst h; exact ho

/-- What a completed layout needed: some object, room for the epochs of each, and an object on the coadd when positions are forced onto it. -/
theorem buildLayout_needs {mk mk' : Maker} {nmax : Nat} (h : mk.buildLayout = .ok mk')
    (hfresh : ∀ o ∈ mk.objs, o.ncutout = 0 ∧ o.slots = List.replicate nmax Slot.dflt) {in0 : List ObjRow}
    (ht : trim mk.cfg mk.images mk.objs = .ok in0) : in0 ≠ [] ∧ (∀ o ∈ in0, (coveringImages mk.cfg mk.images o.sky).length ≤ nmax) ∧
      (∀ im rest, mk.images = im :: rest → forces mk.cfg 0 = true → ∃ o ∈ in0, Covers mk.cfg 0 im o.sky) := by
  unfold buildLayout at h
  obtain ⟨objs0, h0, h⟩ := Res.bind_eq_ok.mp h
  obtain ⟨objs1, h1, h⟩ := Res.bind_eq_ok.mp h
  obtain ⟨objs2, h2, h⟩ := Res.bind_eq_ok.mp h
  rw [ht] at h0
  injection h0 with h0
  subst h0
  have hf := fold_layoutFile h1
  refine ⟨?_, ?_, ?_⟩
  · rintro rfl
    rw [List.forall₂_nil_left_iff] at hf
    subst hf
    cases h2
  · intro o ho
    obtain ⟨i, hi, rfl⟩ := List.mem_iff_getElem.mp ho
    have hl := hf.length_eq
    have := (List.forall₂_iff_get.mp hf).2 i hi (by omega)
    simp only [List.get_eq_getElem] at this
    obtain ⟨a, b⟩ := hfresh _ (trim_sub ht _ ho)
    have := (fold_stepObj (used := []) (m := nmax) (by rw [b]; rfl) (by rw [a]; rfl) this).1
    rw [← coverCount_numbered]
    refine le_of_eq_of_le ?_ this
    unfold coverCount acceptedIn
    congr 2
    funext fi
    rw [Bool.eq_iff_iff, accepted_iff]
    simp
  · intro im rest him hfo
    have hnum : numbered mk.images = (0, im) :: (numbered mk.images).tail := by
      rw [him]; simp [numbered, List.range_succ_eq_map]
    rw [hnum] at h1
    obtain ⟨mid, g1, _⟩ := foldRes_cons_ok.mp h1
    unfold layoutFile at g1
    obtain ⟨_, g1, _⟩ := Res.bind_eq_ok.mp g1
    unfold forceCheck at g1
    dsimp only at g1
    rw [if_pos hfo] at g1
    by_cases hz : (in0.filter (accepted mk.cfg 0 im)).length = 0
    · rw [if_pos hz] at g1; cases g1
    · obtain ⟨o, ho⟩ := List.exists_mem_of_length_pos (Nat.pos_of_ne_zero hz)
      obtain ⟨a, b⟩ := List.mem_filter.mp ho
      exact ⟨o, a, (accepted_iff _ _ _ _).mp b⟩

/-! ### writing -/

theorem modifyImage_total {name : String} {g : List ℚ → Res (List ℚ)} {hs : List (String × Hdu)} {pix pix' : List ℚ}
    (hl : Fits.lookup hs name = some (.image pix)) (hg : g pix = .ok pix') : ∃ hs', modifyImage name g hs = .ok hs' := by
  induction hs with
  | nil => cases hl
  | cons x t ih =>
    obtain ⟨m, hd⟩ := x
    simp only [Fits.lookup] at hl
    simp only [modifyImage]
    split at hl
    · rename_i hm
      rw [if_pos hm]
      injection hl with hl
      subst hl
      dsimp only
      rw [hg]
      exact ⟨_, rfl⟩
    · rename_i hm
      rw [if_neg hm]
      obtain ⟨t', ht⟩ := ih hl
      rw [ht]
      exact ⟨_, rfl⟩

theorem writeObjCutouts_total {cfg : MakerCfg} {t : String} {fileId : Nat} {src : Img ℚ} {o : ObjRow} {N : Nat} {n : Nat} {ss : List Slot} {buf : List ℚ} (hn : n ≤ ss.length)
    (hbuf : buf.length = N) (hd : ∀ s ∈ ss.take n, s.fileId = (fileId : Int) → 0 ≤ o.boxSize ∧ ∃ fill, defaultValue t = .ok fill)
    (hfit : ∀ s ∈ ss.take n, 0 ≤ s.startRow ∧ s.startRow + o.boxSize * o.boxSize ≤ N) :
    ∃ buf', writeObjCutouts cfg t fileId src o n ss buf = .ok buf' ∧ buf'.length = N := by
  induction n generalizing ss buf with
  | zero => exact ⟨buf, rfl, hbuf⟩
  | succ n ih =>
    cases ss with
    | nil => simp at hn
    | cons s ss =>
      simp only [writeObjCutouts]
      have hs := hfit s (by simp)
      have : ∃ b1, (if s.fileId = (fileId : Int) then (do
          let sub ← subImage cfg t src o s
          overwrite buf s.startRow sub.flat) else (.ok buf : Res (List ℚ))) = .ok b1 ∧ b1.length = N := by
        split
        · rename_i hid
          obtain ⟨hb, fill, hf⟩ := hd s (by simp) hid
          obtain ⟨sub, hsub⟩ := subImage_isOk (cfg := cfg) (src := src) (s := s) hb hf
          rw [hsub]
          simp only [Res.ok_bind]
          obtain ⟨b1, h1⟩ := overwrite_isOk (buf := buf) (xs := sub.flat) hs.1 (by rw [subImage_flat_length hsub, hbuf]; exact hs.2)
          exact ⟨b1, h1, by rw [(overwrite_ok h1).2.2.1, hbuf]⟩
        · exact ⟨buf, rfl, hbuf⟩
      obtain ⟨b1, h1, h2⟩ := this
      rw [h1]
      simp only [Res.ok_bind]
      exact ih (by simpa using hn) h2 (fun x hx => hd x (by simp [hx])) (fun x hx => hfit x (by simp [hx]))

/-- Type `t` can be drawn in every epoch whose image has that plane. -/
def Drawable (mk : Maker) (t : String) : Prop :=
  ∀ o s, (o, s) ∈ cells mk.objs → ∀ (j : Nat) (im : SrcImage) (src : Img ℚ), s.fileId = (j : Int) → mk.images[j]? = some im →
    readImage mk.cfg im t = .ok (some src) → 0 ≤ o.boxSize ∧ ∃ fill, defaultValue t = .ok fill

theorem writeCutouts_total {mk : Maker} {t : String} {N : Nat} (hd : Drawable mk t)
    (hb : ∀ o ∈ mk.objs, o.ncutout.toNat ≤ o.slots.length)
    (hc : Consec 0 (regions mk.objs) N) (hread : ∀ im ∈ mk.images, ∃ r, readImage mk.cfg im t = .ok r)
    {buf : List ℚ} (hbuf : buf.length = N) : ∃ buf', mk.writeCutouts t buf = .ok buf' ∧ buf'.length = N := by
  unfold writeCutouts
  apply foldRes_total (fun b : List ℚ => b.length = N) hbuf
  intro b fi hfi hb'
  have hg := mem_numbered.mp (show (fi.1, fi.2) ∈ _ from hfi)
  have him : fi.2 ∈ mk.images := List.mem_of_getElem? hg
  obtain ⟨r, hr⟩ := hread fi.2 him
  unfold writeFileCutouts
  rw [hr]
  simp only [Res.ok_bind]
  cases r with
  | none => exact ⟨b, rfl, hb'⟩
  | some src =>
    dsimp only
    apply foldRes_total (fun b : List ℚ => b.length = N) hb'
    intro b o ho hb''
    apply writeObjCutouts_total (hb o ho) hb'' (fun s hs hid => hd o s (mem_cells.mpr ⟨ho, hs⟩) fi.1 fi.2 src hid hg hr)
    intro s hs
    have := Consec.bounds (r := (s.startRow, o.boxSize * o.boxSize)) hc (by
      rw [regions_eq_cells]
      exact List.mem_map_of_mem (f := fun c : ObjRow × Slot => (c.2.startRow, c.1.boxSize * c.1.boxSize)) (mem_cells.mpr ⟨ho, hs⟩))
    exact ⟨this.1, this.2.2⟩

theorem writeObjPsf_total {cfg : MakerCfg} {psf : List PsfModel} {sky : SkyPos} {N : Nat} {n : Nat} {ss : List Slot} {buf : List ℚ}
    (hn : n ≤ ss.length) (hbuf : buf.length = N)
    (hfit : ∀ s ∈ ss.take n, ∃ p, PsfDrawn psf sky s p ∧ (p.getRec sky s.origRow s.origCol).WF ∧
      0 ≤ s.psfStartRow ∧ s.psfStartRow + s.psfRowSize * s.psfColSize ≤ N) :
    ∃ buf', writeObjPsf cfg psf sky n ss buf = .ok buf' ∧ buf'.length = N := by
  induction n generalizing ss buf with
  | zero => exact ⟨buf, rfl, hbuf⟩
  | succ n ih =>
    cases ss with
    | nil => simp at hn
    | cons s ss =>
      simp only [writeObjPsf]
      obtain ⟨p, ⟨hp1, hp2, hp3⟩, hwf, h0, h1⟩ := hfit s (by simp)
      rw [hp1]
      simp only [Res.ok_bind]
      unfold writePsfImage
      rw [if_neg (by rw [hp2, hp3]; simp)]
      have hl : (((p.getRec sky s.origRow s.origCol).flat.map (cfg.cast "psf")).length : Int) = s.psfRowSize * s.psfColSize := by
        rw [List.length_map, hwf]; push_cast; rw [hp2, hp3]
      obtain ⟨b1, hb1⟩ := overwrite_isOk (buf := buf) (xs := (p.getRec sky s.origRow s.origCol).flat.map (cfg.cast "psf")) h0
        (by rw [hl, hbuf]; exact h1)
      rw [hb1]
      simp only [Res.ok_bind]
      exact ih (by simpa using hn) (by rw [(overwrite_ok hb1).2.2.1, hbuf]) (fun x hx => hfit x (by simp [hx]))

theorem writePsfSerial_total {mk : Maker} {psf : List PsfModel} {N : Nat}
    (hb : ∀ o ∈ mk.objs, o.ncutout.toNat ≤ o.slots.length) (hwf : PsfWF psf)
    (hc : Consec 0 (psfRegions mk.objs) N) (hd : AllDrawn psf mk.objs)
    {buf : List ℚ} (hbuf : buf.length = N) : ∃ buf', mk.writePsfSerial psf buf = .ok buf' ∧ buf'.length = N := by
  unfold writePsfSerial
  apply foldRes_total (fun b : List ℚ => b.length = N) hbuf
  intro b o ho hb''
  apply writeObjPsf_total (hb o ho) hb''
  intro s hs
  have hcell := mem_cells.mpr ⟨ho, hs⟩
  obtain ⟨p, hp⟩ := hd o s hcell
  have := Consec.bounds (r := (s.psfStartRow, s.psfRowSize * s.psfColSize)) hc (by
      rw [psfRegions_eq_cells]
      exact List.mem_map_of_mem (f := fun c : ObjRow × Slot => (c.2.psfStartRow, c.2.psfRowSize * c.2.psfColSize)) hcell)
  exact ⟨p, hp, hwf p (pyGet_ok hp.1) _ _ _, this.1, this.2.2⟩

/-- Writing completes. -/
theorem writeData_total {mk : Maker} (hr : mk.Ready)
    (hb : ∀ o ∈ mk.objs, o.ncutout.toNat ≤ o.slots.length)
    (hdraw : ∀ t ∈ mk.types, Drawable mk t)
    (hread : ∀ t ∈ mk.types, ∀ im ∈ mk.images, ∃ r, readImage mk.cfg im t = .ok r)
    (hpsf : ∀ p, mk.psf = some p → PsfWF p ∧ AllDrawn p mk.objs) : ∃ f, mk.writeData = .ok f := by
  have hN : 0 ≤ mk.totalPixels := Consec.le hr.tiled
  have hc : Consec 0 (regions mk.objs) (mk.totalPixels.toNat : Int) := by rw [Int.toNat_of_nonneg hN]; exact hr.tiled
  have tn : ∀ n, n ≠ "object_data" → n ≠ "image_info" → n ≠ "metadata" → Fits.lookup mk.tableHdus n = none := by
    intro n a b c
    apply lookup_none_of_not_mem
    intro x hx
    simp only [tableHdus, List.mem_cons, List.not_mem_nil, or_false] at hx
    rcases hx with rfl | rfl | rfl
    · exact a.symm
    · exact b.symm
    · exact c.symm
  let P : List (String × Hdu) → Prop := fun h =>
    (∀ t ∈ mk.types, ∃ buf, Fits.lookup h (t ++ "_cutouts") = some (.image buf) ∧ buf.length = mk.totalPixels.toNat) ∧
    Fits.lookup h "psf" = Fits.lookup (mk.tableHdus ++ mk.reservedHdus) "psf"
  obtain ⟨h1, e1, P1⟩ := foldRes_total (f := fun h t => modifyImage (t ++ "_cutouts") (mk.writeCutouts t) h) (l := mk.types)
    (b := mk.tableHdus ++ mk.reservedHdus) P (by
      refine ⟨?_, rfl⟩
      intro t ht
      have hc' := cutouts_ne (hr.types t ht)
      refine ⟨List.replicate mk.totalPixels.toNat 0, ?_, by simp⟩
      rw [lookup_append, tn _ hc'.1 hc'.2.1 hc'.2.2.1, reservedHdus, lookup_append, lookup_reserved ht hr.types]
      rfl) (by
      intro h t ht hP
      obtain ⟨buf, hb1, hb2⟩ := hP.1 t ht
      obtain ⟨buf', hw1, hw2⟩ := writeCutouts_total (hdraw t ht) hb hc (hread t ht) hb2
      obtain ⟨h', hh'⟩ := modifyImage_total hb1 hw1
      refine ⟨h', hh', ?_, ?_⟩
      · obtain ⟨⟨pix, pix', l1, l2, l3⟩, l4, _⟩ := modifyImage_ok hh'
        intro u hu
        by_cases e : u = t
        · subst e
          rw [hb1] at l1
          injection l1 with l1
          injection l1 with l1
          subst l1
          rw [hw1] at l2
          injection l2 with l2
          subst l2
          exact ⟨_, l3, hw2⟩
        · rw [l4 _ (fun e' => e (cutouts_inj (hr.types u hu) (hr.types t ht) e'))]
          exact hP.1 u hu
      · obtain ⟨_, l4, _⟩ := modifyImage_ok hh'
        rw [l4 "psf" (cutouts_ne (hr.types t ht)).2.2.2.1.symm]
        exact hP.2)
  unfold writeData
  dsimp only
  rw [e1]
  simp only [Res.ok_bind]
  cases hp : mk.psf with
  | none => exact ⟨_, rfl⟩
  | some p =>
    dsimp only
    obtain ⟨hwf, hd⟩ := hpsf p hp
    have hcp := hr.psfTiled p hp
    have hN' : 0 ≤ mk.totalPsfPixels := Consec.le hcp
    have hlook : Fits.lookup h1 "psf" = some (.image (List.replicate mk.totalPsfPixels.toNat 0)) := by
      rw [P1.2, lookup_append, tn "psf" (by decide) (by decide) (by decide), reservedHdus, lookup_append,
        lookup_reserved_none (fun t ht e => (cutouts_ne (hr.types t ht)).2.2.2.1 e.symm), hp]
      simp [Fits.lookup]
    obtain ⟨buf', hw1, _⟩ := writePsfSerial_total (mk := mk) (psf := p) (N := mk.totalPsfPixels.toNat) hb hwf
      (by rw [Int.toNat_of_nonneg hN']; exact hcp) hd (buf := List.replicate mk.totalPsfPixels.toNat 0) (by simp)
    obtain ⟨h2, e2⟩ := modifyImage_total hlook hw1
    rw [e2]
    exact ⟨_, rfl⟩

end Maker
end Meds
