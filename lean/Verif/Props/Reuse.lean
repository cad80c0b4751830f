import Verif.Model.Columns
import Verif.Props.WriteTwice
import Verif.Lemmas.Remake

/-!
# The catalogue of an existing file as input of a new maker (C63)
-/

namespace Meds
open Spec Maker

theorem covering_length (cfg : MakerCfg) (images : List SrcImage) (o : ObjRow) :
    (acceptedIn cfg o (numbered images)).length = (coveringImages cfg images o.sky).length := by
  rw [← acceptedIn_ids, List.length_map]

theorem forceEven_keeps (o : ObjRow) : (forceEven o).ncutout = o.ncutout ∧ (forceEven o).sky = o.sky ∧ (forceEven o).slots = o.slots := by
  unfold forceEven
  split <;> exact ⟨rfl, rfl, rfl⟩

theorem fullRowFrom_keeps {d : CatDtype} {psf : Option (List PsfModel)} {nmax : Nat} {o o' : ObjRow} (h : fullRowFrom d psf nmax o = .ok o') :
    o'.ncutout = o.ncutout ∧ o'.sky = o.sky ∧ o.slots.length = nmax ∧ o'.slots.length = nmax := by
  unfold fullRowFrom at h
  split at h
  · split at h <;> cases h
  rename_i hl
  have hl := not_not.mp hl
  split at h
  · injection h with h
    subst h
    exact ⟨rfl, rfl, hl, hl⟩
  · cases h
  · injection h with h
    subst h
    exact ⟨rfl, rfl, hl, by simpa using hl⟩

theorem forall₂_mapRes {α β : Type} {f : α → Res β} {l : List α} {ys : List β} (h : mapRes f l = .ok ys) : List.Forall₂ (fun a b => f a = .ok b) l ys := by
  induction l generalizing ys with
  | nil => unfold mapRes at h; injection h with h; subst h; exact .nil
  | cons a l ih =>
    unfold mapRes at h
    split at h
    · cases h
    · rename_i b hb
      split at h
      · cases h
      · rename_i bs hbs
        injection h with h
        subst h
        exact .cons hb (ih hbs)

theorem initFrom_ok {cfg : MakerCfg} {t : ObjTable} {images : List SrcImage} {psf : Option (List PsfModel)} {psfInfo : Option String} {md : String}
    {mk : Maker} (h : initFrom cfg t images psf psfInfo md = .ok mk) :
    mk.cfg = cfg ∧ mk.images = images ∧ setCutoutTypes cfg.cutoutTypes = .ok mk.types ∧
    List.Forall₂ (fun o o' : ObjRow => o'.ncutout = o.ncutout ∧ o'.sky = o.sky ∧ o.slots.length = initialNmax cfg images.length ∧
      o'.slots.length = initialNmax cfg images.length) t.rows mk.objs := by
  unfold initFrom at h
  obtain ⟨types, ht, h⟩ := Res.bind_eq_ok.mp h
  split at h
  · cases h
  obtain ⟨rows, hr, h⟩ := Res.bind_eq_ok.mp h
  injection h with h
  subst h
  refine ⟨rfl, rfl, ht, ?_⟩
  dsimp only
  rw [List.forall₂_map_right_iff]
  refine (forall₂_mapRes hr).imp fun a b hab => ?_
  obtain ⟨h1, h2, h3, h4⟩ := fullRowFrom_keeps hab
  obtain ⟨g1, g2, g3⟩ := forceEven_keeps b
  exact ⟨g1.trans h1, g2.trans h2, h3, by rw [g3]; exact h4⟩

/-- An object never gets more epochs than its row has room for. -/
theorem fold_stepObj_bound {cfg : MakerCfg} {L : List (Nat × SrcImage)} {o o' : ObjRow} (h : foldRes (stepObj cfg) o L = .ok o')
    (hle : o.ncutout ≤ o.slots.length) : o'.ncutout ≤ o'.slots.length ∧ o'.slots.length = o.slots.length := by
  induction L generalizing o with
  | nil =>
    simp only [foldRes] at h
    injection h with h
    subst h
    exact ⟨hle, rfl⟩
  | cons x xs ih =>
    obtain ⟨t, ht, h⟩ := foldRes_cons_ok.mp h
    unfold stepObj at ht
    split at ht
    · unfold addEpoch at ht
      obtain ⟨k, hk, ht⟩ := Res.bind_eq_ok.mp ht
      obtain ⟨old, hold, ht⟩ := Res.bind_eq_ok.mp ht
      injection ht with ht
      have hlt : o.ncutout < o.slots.length := by
        by_contra hc
        have : o.ncutout = o.slots.length := by omega
        rw [this] at hk
        have := pyIndex_ok hk
        have := pyIndex_ok_nonneg hk (by omega)
        omega
      subst ht
      obtain ⟨a, b⟩ := ih h (by dsimp only; rw [List.length_set]; omega)
      exact ⟨a, by rw [b]; dsimp only; rw [List.length_set]⟩
    · injection ht with ht
      subst ht
      exact ih h hle

section
variable {cfg : MakerCfg} {hn : Bool} {objs : List InputObj} {images : List SrcImage} {psf : Option (List PsfModel)}
  {psfInfo : Option String} {md : String} {mk mk' : Maker} {f : Fits} {m : MEDS} {t : ObjTable}

theorem opened_rows {mk : Maker} (hs : ∀ t ∈ mk.types, t ∈ supportedTypes) (h : mk.writeData = .ok f) (ho : MEDS.openFile f = .ok m) :
    m.cat.rows = mk.objs := by
  have := writeData_catalogue hs h
  unfold MEDS.openFile at ho
  rw [this] at ho
  dsimp only at ho
  split at ho
  · split at ho
    · injection ho with ho; rw [← ho]
    · cases ho
  · cases ho

/-- **C63** (what happens) The cutout counts of the old catalogue are not reset: in the new file every object has its old number of cutouts plus one
for every image that covers it. -/
theorem C63_counts_add (hi : initFrom cfg t images psf psfInfo md = .ok mk) (hw : mk.write = .ok (mk', f)) (ho : MEDS.openFile f = .ok m)
    (htrim : cfg.trimToCoadd = false) :
    List.Forall₂ (fun o o' : ObjRow => o'.sky = o.sky ∧ o'.ncutout = o.ncutout + (coveringImages cfg images o.sky).length) t.rows m.cat.rows := by
  obtain ⟨e1, e2, e3, e4⟩ := initFrom_ok hi
  obtain ⟨hb, hd⟩ := write_ok hw
  obtain ⟨o0, t0, c0, q1, q2, q3⟩ := buildLayout_counts hb
  rw [opened_rows (by rw [q3]; exact (setCutoutTypes_ok e3).2) hd ho]
  unfold trim at t0
  rw [e1, htrim, if_neg (by simp)] at t0
  injection t0 with t0
  subst t0
  refine forall₂_trans e4 c0 fun a b c hab hbc => ?_
  rw [hbc.1, hbc.2, hab.1, acceptedIn_sky hab.2.1, e1, e2, covering_length]
  exact ⟨hab.2.1, rfl⟩

/-- **C63** (what happens) A catalogue whose per-epoch columns have any other width than the new maker's is refused. -/
theorem C63_other_width_refused (ht : setCutoutTypes cfg.cutoutTypes = .ok mk.types) (hp : psfLengthBad psf images.length = false)
    {o : ObjRow} {rest : List ObjRow} (hr : t.rows = o :: rest) (hwid : o.slots.length ≠ initialNmax cfg images.length) (hone : o.slots.length ≠ 1) :
    initFrom cfg t images psf psfInfo md = .error .valueError := by
  unfold initFrom
  rw [ht, Res.ok_bind, hp, if_neg (by simp), hr]
  unfold mapRes
  have : fullRowFrom t.dtype psf (initialNmax cfg images.length) o = .error .valueError := by
    unfold fullRowFrom
    rw [if_pos hwid, if_neg hone]
  rw [this]
  rfl

/-- **C63** (what happens) A file made again from its own catalogue, same images and configuration: this never completes if some object had two or
more cutouts. -/
theorem C63_same_images_fails {mk2 mk2' : Maker} {f2 : Fits} (hi : Maker.init cfg hn objs images psf psfInfo md = .ok mk)
    (hw : mk.write = .ok (mk', f)) (ho : MEDS.openFile f = .ok m) (hi2 : initFrom cfg m.cat images psf psfInfo md = .ok mk2)
    (htrim : cfg.trimToCoadd = false) (hmany : ∃ o ∈ m.cat.rows, 2 ≤ o.ncutout) : mk2.write ≠ .ok (mk2', f2) := by
  intro hw2
  obtain ⟨w, hw2', hrows, hmax, _⟩ := C09_slots hi hw ho
  obtain ⟨e1, e2, e3, e4⟩ := initFrom_ok hi2
  -- an object that fills its row
  have hfull : ∃ o ∈ m.cat.rows, o.ncutout = w ∧ 2 ≤ o.ncutout := by
    rcases hmax with rfl | ⟨o, ho1, ho2⟩
    · obtain ⟨o, ho1, ho2⟩ := hmany
      exact ⟨o, ho1, by have := (hrows o ho1).2.2; omega, ho2⟩
    · exact ⟨o, ho1, ho2, by omega⟩
  obtain ⟨o, ho1, ho2, ho3⟩ := hfull
  obtain ⟨i, hoi⟩ := List.mem_iff_getElem?.mp ho1
  obtain ⟨hil, hoi'⟩ := List.getElem?_eq_some_iff.mp hoi
  have hcov := (C04_epochs_are_covering_images hi hw ho hoi).1
  obtain ⟨hb, hd⟩ := write_ok hw2
  unfold buildLayout at hb
  obtain ⟨objs0, h0, hb⟩ := Res.bind_eq_ok.mp hb
  obtain ⟨objs1, h1, hb⟩ := Res.bind_eq_ok.mp hb
  unfold trim at h0
  rw [e1, htrim, if_neg (by simp)] at h0
  injection h0 with h0
  subst h0
  have hf := forall₂_trans e4 (fold_layoutFile h1) (T := fun a c : ObjRow => ∃ b : ObjRow, b.ncutout = a.ncutout ∧ b.sky = a.sky ∧
    b.slots.length = a.slots.length ∧ foldRes (stepObj mk2.cfg) b (numbered mk2.images) = .ok c) (fun a b c hab hbc =>
      ⟨b, hab.1, hab.2.1, hab.2.2.2.trans hab.2.2.1.symm, hbc⟩)
  have hi2l : i < objs1.length := by rw [← hf.length_eq]; exact hil
  obtain ⟨b, b1, b2, b3, b4⟩ := (List.forall₂_iff_get.mp hf).2 i hil hi2l
  simp only [List.get_eq_getElem, hoi'] at b1 b2 b3 b4
  obtain ⟨k1, k2⟩ := fold_stepObj_counts b4
  have hol := (hrows o ho1).1
  obtain ⟨k3, k4⟩ := fold_stepObj_bound b4 (by rw [b1, b3, hol]; omega)
  rw [k1, b1, acceptedIn_sky b2, e1, e2, covering_length, k4, b3, hol] at k3
  omega

/-- **C63** (as far as it holds) A catalogue without cutouts and with unused slots of the right number is as good as the bare input columns. -/
theorem C63_fresh_partial : initFrom cfg ⟨⟨hn, psfKind psf, .absent⟩, objs.map (fullRow (initialNmax cfg images.length))⟩ images psf psfInfo md =
    Maker.init cfg hn objs images psf psfInfo md := by
  unfold initFrom Maker.init
  cases setCutoutTypes cfg.cutoutTypes with
  | error e => rfl
  | ok types =>
    simp only [Res.ok_bind]
    split
    · rfl
    · rw [mapRes_id]
      · rfl
      · intro o ho
        obtain ⟨a, _, rfl⟩ := List.mem_map.mp ho
        unfold fullRowFrom
        rw [if_neg (by simp [fullRow])]
        cases psf with
        | some p => rfl
        | none =>
          dsimp only
          have : (fullRow (initialNmax cfg images.length) a).slots.map (fun s => { s with psfRowSize := DEFVAL, psfColSize := DEFVAL, psfCutoutRow := DEFVAL, psfCutoutCol := DEFVAL, psfStartRow := DEFVAL }) =
              (fullRow (initialNmax cfg images.length) a).slots := by
            unfold fullRow
            dsimp only
            rw [List.map_replicate]
            rfl
          rw [this]
          rfl

/-- The entries of an epoch that say from which image it was cut, and where. -/
structure SameEpoch (s s' : Slot) : Prop where
  file : s'.fileId = s.fileId
  row : s'.origRow = s.origRow
  col : s'.origCol = s.origCol
  startRow : s'.origStartRow = s.origStartRow
  startCol : s'.origStartCol = s.origStartCol
  cutoutRow : s'.cutoutRow = s.cutoutRow
  cutoutCol : s'.cutoutCol = s.cutoutCol
  jacobian : (s'.dudrow, s'.dudcol, s'.dvdrow, s'.dvdcol) = (s.dudrow, s.dudcol, s.dvdrow, s.dvdcol)

theorem sameEpoch_of_core {s s' : Slot} (h : core s' = core s) : SameEpoch s s' := by
  cases s; cases s'
  simp only [core, Slot.mk.injEq] at h
  obtain ⟨h1, _, h3, h4, h5, h6, h7, h8, h9, h10, h11, h12, _⟩ := h
  exact ⟨h1, h3, h4, h5, h6, h7, h8, by simp only [h9, h10, h11, h12]⟩

theorem fullRowFrom_core {d : CatDtype} {psf : Option (List PsfModel)} {nmax : Nat} {o o' : ObjRow} (h : fullRowFrom d psf nmax o = .ok o') :
    Kept o (forceEven o') := by
  obtain ⟨g1, g2, g3⟩ := forceEven_keeps o'
  unfold fullRowFrom at h
  split at h
  · split at h <;> cases h
  split at h
  · injection h with h
    subst h
    exact Kept.of_core g1 (by rw [g3])
  · cases h
  · injection h with h
    subst h
    refine Kept.of_core g1 ?_
    rw [g3, List.map_map]
    rfl

/-- **C63** (what happens) The epochs of the old catalogue stay where they are, before the new ones, with the image numbers, positions and Jacobians of the
old file. -/
theorem C63_old_epochs_stay (hi : initFrom cfg t images psf psfInfo md = .ok mk) (hw : mk.write = .ok (mk', f)) (ho : MEDS.openFile f = .ok m)
    (htrim : cfg.trimToCoadd = false) :
    List.Forall₂ (fun o o' : ObjRow => ∀ (k : Nat) (s : Slot), (k : Int) < o.ncutout → o.slots[k]? = some s →
      ∃ s', o'.slots[k]? = some s' ∧ SameEpoch s s') t.rows m.cat.rows := by
  obtain ⟨e1, _, e3, _⟩ := initFrom_ok hi
  obtain ⟨hb, hd⟩ := write_ok hw
  obtain ⟨_, _, _, _, _, q3⟩ := buildLayout_counts hb
  rw [opened_rows (by rw [q3]; exact (setCutoutTypes_ok e3).2) hd ho]
  have hk := buildLayout_kept hb (by rw [e1]; exact htrim)
  have h0 : List.Forall₂ Kept t.rows mk.objs := by
    unfold initFrom at hi
    obtain ⟨_, _, hi⟩ := Res.bind_eq_ok.mp hi
    split at hi
    · cases hi
    obtain ⟨rows, hr, hi⟩ := Res.bind_eq_ok.mp hi
    injection hi with hi
    subst hi
    dsimp only
    rw [List.forall₂_map_right_iff]
    exact (forall₂_mapRes hr).imp fun a b hab => fullRowFrom_core hab
  refine (forall₂_trans h0 hk (fun _ _ _ => Kept.trans)).imp fun o o' hoo k s hkn hs => ?_
  obtain ⟨-, h2⟩ := hoo (by omega)
  have h3 := congrArg (fun l => l[k]?) h2
  simp only [List.getElem?_take_of_lt (show k < o.ncutout.toNat by omega), List.getElem?_map, hs, Option.map_some] at h3
  obtain ⟨s', hs', hc⟩ := Option.map_eq_some_iff.mp h3
  exact ⟨s', hs', sameEpoch_of_core hc⟩

/-- The input columns of a catalogue row. -/
def inputOf (o : ObjRow) : InputObj := { id := o.id, boxSize := o.boxSize, sky := o.sky, number := o.number, extra := o.extra }

/-- A row with the columns that the maker writes: no scalar PSF sizes and no box size of PSF images. -/
def OwnColumns (o : ObjRow) : Prop :=
  o.psfRowSize1 = DEFVAL ∧ o.psfColSize1 = DEFVAL ∧ o.psfBoxSize1 = DEFVAL ∧ ∀ s ∈ o.slots, s.psfBoxSize = DEFVAL

/-- Two files agree but for entries of the per-epoch columns of `object_data` behind the last cutout of their object. -/
def SameButUnused (f g : Fits) : Prop :=
  ∃ (t t' : ObjTable) (rest : List (String × Hdu)), f.hdus = ("object_data", .objects t) :: rest ∧ g.hdus = ("object_data", .objects t') :: rest ∧
    t'.dtype = t.dtype ∧ List.Forall₂ (fun o o' : ObjRow => o' = { o with slots := o'.slots } ∧ o.slots.length = o'.slots.length ∧
      ∀ k : Nat, (k : Int) < o.ncutout → o'.slots[k]? = o.slots[k]?) t.rows t'.rows

theorem forceEven_sim {p : Bool} {P : Slot → Slot → Prop} {o o' : ObjRow} (h : RowSim p P o o') : RowSim p P (forceEven o) (forceEven o') := by
  unfold forceEven
  rw [h.box]
  split
  · refine ⟨?_, h.nonneg, h.all, h.used⟩
    dsimp only
    obtain ⟨a, b, c, d, e, f, g, i, j, k⟩ := o
    obtain ⟨a', b', c', d', e', f', g', i', j', k'⟩ := o'
    have hs := h.same
    simp only [ObjRow.mk.injEq, and_true] at hs ⊢
    simp [hs]
  · exact h

theorem fullRowFrom_sim {d : CatDtype} {nmax : Nat} {o o' : ObjRow} (hz : o.ncutout = 0) (hown : OwnColumns o)
    (h : fullRowFrom d psf nmax o = .ok o') :
    RowSim psf.isSome (fun s s' => core s = core s') (forceEven o') (forceEven (fullRow nmax (inputOf o))) := by
  refine forceEven_sim ?_
  obtain ⟨n1, n2, n3, n4⟩ := hown
  unfold fullRowFrom at h
  split at h
  · split at h <;> cases h
  rename_i hl
  have hl := not_not.mp hl
  have hrep : ∀ (l : List Slot), l.length = nmax → (∀ s ∈ l, QPsf psf.isSome s Slot.dflt) → List.Forall₂ (QPsf psf.isSome) l (List.replicate nmax Slot.dflt) := by
    intro l hl hq
    rw [← hl, ← List.map_const', List.forall₂_map_right_iff, List.forall₂_same]
    exact hq
  split at h
  · injection h with h
    subst h
    refine ⟨?_, by rw [hz], hrep _ hl ?_, ?_⟩
    · cases o
      simp only at hz n1 n2 n3
      subst hz n1 n2 n3
      rfl
    · intro s hs
      exact ⟨(n4 s hs).symm, fun hh => (nomatch hh)⟩
    · rw [hz]; exact .nil
  · cases h
  · rename_i hno
    injection h with h
    subst h
    refine ⟨?_, by dsimp only; rw [hz], hrep _ (by simpa using hl) ?_, ?_⟩
    · cases o
      simp only at hz n1 n2 n3
      subst hz n1 n2 n3
      rfl
    · intro s hs
      obtain ⟨s0, hs0, rfl⟩ := List.mem_map.mp hs
      exact ⟨(n4 s0 hs0).symm, fun _ => ⟨rfl, rfl, rfl, rfl, rfl⟩⟩
    · dsimp only
      rw [hz]
      exact .nil

/-- The state after the constructor, for any rows. -/
def bare (cfg : MakerCfg) (types : List String) (images : List SrcImage) (psf : Option (List PsfModel)) (psfInfo : Option String) (md : String) (hn : Bool)
    (l : List ObjRow) : Maker :=
  { cfg := cfg, types := types, images := images, psf := psf, metaData := md, psfInfo := psfInfo
    dtype := { hasNumber := hn, psfBox := .absent, psfRowCol := psfKind psf }, objs := l, totalPixels := 0, totalPsfPixels := 0 }

/-- **C63** (as far as it holds) A catalogue of the maker's own whose cutout counts have been set to zero: the maker accepts the input columns alone too, fails
with the same exception, and writes the same file but for entries of unused epochs. -/
theorem C63_cleared_partial (hi : initFrom cfg t images psf psfInfo md = .ok mk) (hz : ∀ o ∈ t.rows, o.ncutout = 0) (hown : ∀ o ∈ t.rows, OwnColumns o)
    (hbox : t.dtype.psfBox = .absent) :
    ∃ mk0, Maker.init cfg t.dtype.hasNumber (t.rows.map inputOf) images psf psfInfo md = .ok mk0 ∧
      (∀ e, mk.write = .error e ↔ mk0.write = .error e) ∧
      ∀ mk' f, mk.write = .ok (mk', f) → ∃ mk0' f0, mk0.write = .ok (mk0', f0) ∧ SameButUnused f f0 := by
  unfold initFrom at hi
  obtain ⟨types, ht, hi⟩ := Res.bind_eq_ok.mp hi
  split at hi
  · cases hi
  rename_i hp
  obtain ⟨rows, hr, hi⟩ := Res.bind_eq_ok.mp hi
  injection hi with hi
  subst hi
  rw [hbox]
  unfold Maker.init
  rw [ht, Res.ok_bind, if_neg hp]
  refine ⟨bare cfg types images psf psfInfo md t.dtype.hasNumber _, rfl, ?_⟩
  have hsim : List.Forall₂ (RowSim psf.isSome (fun s s' => core s = core s')) (rows.map forceEven)
      (((t.rows.map inputOf).map (fullRow (initialNmax cfg images.length))).map forceEven) := by
    rw [List.forall₂_map_left_iff, List.map_map, List.map_map, List.forall₂_map_right_iff]
    have h1 := forall₂_and_left (forall₂_mapRes hr) (P := fun o => o.ncutout = 0 ∧ OwnColumns o) (fun o ho => ⟨hz o ho, hown o ho⟩)
    exact (h1.imp fun a b hab => fullRowFrom_sim hab.1.1 hab.1.2 hab.2).flip
  generalize hA : (rows.map forceEven) = A at hsim
  generalize hB : (((t.rows.map inputOf).map (fullRow (initialNmax cfg images.length))).map forceEven) = B at hsim
  change (∀ e, (bare cfg types images psf psfInfo md t.dtype.hasNumber A).write = _ ↔ _) ∧
    ∀ mk' f, (bare cfg types images psf psfInfo md t.dtype.hasNumber A).write = _ → _
  have hbl := buildLayout_sim (a := bare cfg types images psf psfInfo md t.dtype.hasNumber A)
    (b := bare cfg types images psf psfInfo md t.dtype.hasNumber B) rfl hsim
  have key : ResRel (fun r r' : Maker × Fits => SameButUnused r.2 r'.2)
      (bare cfg types images psf psfInfo md t.dtype.hasNumber A).write
      (bare cfg types images psf psfInfo md t.dtype.hasNumber B).write := by
    unfold write
    cases hb1 : Maker.buildLayout _ <;> cases hb2 : Maker.buildLayout _ <;> rw [hb1, hb2] at hbl
    · exact hbl
    · exact hbl.elim
    · exact hbl.elim
    · rename_i a b
      rw [Res.ok_bind, Res.ok_bind]
      have hty : a.types = types := by
        obtain ⟨_, _, _, _, _, q3⟩ := buildLayout_counts hb1
        exact q3
      refine (writeData_sim hbl (by rw [hty]; exact (setCutoutTypes_ok ht).2)).bind fun x y hxy => ?_
      obtain ⟨rest, r1, r2⟩ := hxy
      refine ⟨_, _, rest, r1, r2, rfl, hbl.2.imp fun o o' hoo => ⟨hoo.same, hoo.length, fun k hk => ?_⟩⟩
      have := congrArg (fun l => l[k]?) hoo.used
      simp only [List.getElem?_take_of_lt (show k < o.ncutout.toNat by omega)] at this
      exact this.symm
  constructor
  · intro e
    generalize Maker.write _ = x at key ⊢
    generalize Maker.write _ = y at key ⊢
    cases x <;> cases y
    · cases key; exact Iff.rfl
    · exact key.elim
    · exact key.elim
    · exact ⟨fun h => (nomatch h), fun h => (nomatch h)⟩
  · intro mk' f hw
    rw [hw] at key
    generalize Maker.write _ = y at key ⊢
    cases y with
    | error e => exact key.elim
    | ok r => exact ⟨r.1, r.2, rfl, key⟩

end

/-- The call succeeds and its result passes a test. -/
def okAnd {β : Type} (r : Res β) (p : β → Bool) : Bool :=
  match r with
  | .ok x => p x
  | .error _ => false

theorem okAnd_iff {β : Type} {r : Res β} {p : β → Bool} (h : okAnd r p = true) : ∃ x, r = .ok x ∧ p x = true := by
  cases r with
  | ok x => exact ⟨x, rfl, h⟩
  | error e => cases h

/-- **C63** is false: the catalogue of a file with one object and one image, given back to a maker with the same image, gives a file with two cutouts
of that object where the input columns alone give one. -/
theorem C63_counterexample : ∃ cfg images objs mk mk' f m mk2 mk2' f2 m2, Maker.init cfg true objs images none none "" = .ok mk ∧
    mk.write = .ok (mk', f) ∧ MEDS.openFile f = .ok m ∧ m.cat.rows.map (·.ncutout) = [1] ∧
    initFrom cfg m.cat images none none "" = .ok mk2 ∧ mk2.write = .ok (mk2', f2) ∧ MEDS.openFile f2 = .ok m2 ∧
    m2.cat.rows.map (·.ncutout) = [2] := by
  have key : okAnd (Maker.init { Ex.cfg with cutoutTypes := ["weight"] } true [Ex.obj 10 2 (5/2) (7/3)] [Ex.src 5 0 100 1] none none "") (fun k =>
    okAnd k.write (fun r => okAnd (MEDS.openFile r.2) (fun m => decide (m.cat.rows.map (·.ncutout) = [1]) &&
      okAnd (initFrom { Ex.cfg with cutoutTypes := ["weight"] } m.cat [Ex.src 5 0 100 1] none none "") (fun k2 =>
        okAnd k2.write (fun r2 => okAnd (MEDS.openFile r2.2) (fun m2 => decide (m2.cat.rows.map (·.ncutout) = [2]))))))) = true := by decide +kernel
  obtain ⟨mk, h1, key⟩ := okAnd_iff key
  obtain ⟨⟨mk', f⟩, h2, key⟩ := okAnd_iff key
  obtain ⟨m, h3, key⟩ := okAnd_iff key
  obtain ⟨h4, key⟩ := Bool.and_eq_true_iff.mp key
  obtain ⟨mk2, h5, key⟩ := okAnd_iff key
  obtain ⟨⟨mk2', f2⟩, h6, key⟩ := okAnd_iff key
  obtain ⟨m2, h7, key⟩ := okAnd_iff key
  exact ⟨_, _, _, mk, mk', f, m, mk2, mk2', f2, m2, h1, h2, h3, of_decide_eq_true h4, h5, h6, h7, of_decide_eq_true key⟩

-- a catalogue with the counts set to zero is accepted and written, so the hypotheses of `C63_cleared_partial` are met
example : okAnd (initFrom Ex.cfg { Ex.med.cat with rows := Ex.med.cat.rows.map (fun o => { o with ncutout := 0 }) } Ex.images (some Ex.psfs) none "meta")
    (fun k => okAnd k.write (fun r => decide (r.1.objs.map (·.ncutout) = Ex.med.cat.rows.map (·.ncutout)) &&
      decide (Ex.med.cat.dtype.psfBox = .absent) && Ex.med.cat.rows.all (fun o => decide (o.psfRowSize1 = DEFVAL) && decide (o.psfColSize1 = DEFVAL) &&
        decide (o.psfBoxSize1 = DEFVAL) && o.slots.all (fun s => decide (s.psfBoxSize = DEFVAL))))) = true := by decide +kernel

end Meds
