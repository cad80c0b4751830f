import Verif.Lemmas.Layout
import Verif.Lemmas.File

/-! Two catalogues that differ only in unused entries are laid out and written alike: helper lemmas.  No property theorems here. -/

namespace Meds

/-- Both calls raise the same exception, or both return and the results are related. -/
def ResRel {α β : Type} (S : α → β → Prop) : Res α → Res β → Prop
  | .ok a, .ok b => S a b
  | .error e, .error e' => e = e'
  | _, _ => False

theorem ResRel.bind {α β γ δ : Type} {S : α → β → Prop} {T : γ → δ → Prop} {x : Res α} {y : Res β} {f : α → Res γ} {g : β → Res δ}
    (h : ResRel S x y) (hf : ∀ a b, S a b → ResRel T (f a) (g b)) : ResRel T (x >>= f) (y >>= g) := by
  cases x <;> cases y
  · exact h
  · exact h.elim
  · exact h.elim
  · exact hf _ _ h

theorem ResRel.refl {α : Type} (x : Res α) : ResRel Eq x x := by cases x <;> exact rfl

theorem ResRel.imp {α β : Type} {S T : α → β → Prop} {x : Res α} {y : Res β} (h : ResRel S x y) (hf : ∀ a b, S a b → T a b) : ResRel T x y := by
  cases x <;> cases y
  · exact h
  · exact h
  · exact h
  · exact hf _ _ h

theorem mapRes_rel {α β γ δ : Type} {R : α → β → Prop} {S : γ → δ → Prop} {f : α → Res γ} {g : β → Res δ} {l : List α} {l' : List β}
    (h : List.Forall₂ R l l') (hf : ∀ a b, R a b → ResRel S (f a) (g b)) : ResRel (List.Forall₂ S) (mapRes f l) (mapRes g l') := by
  induction h with
  | nil => exact List.Forall₂.nil
  | @cons a b l l' hab _ ih =>
    have h1 := hf a b hab
    unfold mapRes
    cases hfa : f a <;> cases hgb : g b <;> rw [hfa, hgb] at h1
    · exact h1
    · exact h1.elim
    · exact h1.elim
    · cases hl : mapRes f l <;> cases hl' : mapRes g l' <;> rw [hl, hl'] at ih
      · exact ih
      · exact ih.elim
      · exact ih.elim
      · exact List.Forall₂.cons h1 ih

theorem foldRes_rel {α β γ : Type} {S : α → β → Prop} {f : α → γ → Res α} {g : β → γ → Res β} {a : α} {b : β} {l : List γ}
    (h : S a b) (hf : ∀ a b, ∀ x ∈ l, S a b → ResRel S (f a x) (g b x)) : ResRel S (foldRes f a l) (foldRes g b l) := by
  induction l generalizing a b with
  | nil => exact h
  | cons x xs ih =>
    have h1 := hf a b x List.mem_cons_self h
    unfold foldRes
    cases hfa : f a x <;> cases hgb : g b x <;> rw [hfa, hgb] at h1
    · exact h1
    · exact h1.elim
    · exact h1.elim
    · exact ih h1 (fun a b y hy => hf a b y (List.mem_cons_of_mem _ hy))

namespace Maker

/-- The PSF entries of two slots agree, if there are no PSF data; the box size of PSF images is never set. -/
def QPsf (p : Bool) (s s' : Slot) : Prop :=
  s'.psfBoxSize = s.psfBoxSize ∧ (p = false → s'.psfRowSize = s.psfRowSize ∧ s'.psfColSize = s.psfColSize ∧ s'.psfCutoutRow = s.psfCutoutRow ∧ s'.psfCutoutCol = s.psfCutoutCol ∧
    s'.psfStartRow = s.psfStartRow)

/-- Two rows that agree but for their slots, of which those in use are related. -/
structure RowSim (p : Bool) (P : Slot → Slot → Prop) (o o' : ObjRow) : Prop where
  same : o' = { o with slots := o'.slots }
  nonneg : 0 ≤ o.ncutout
  all : List.Forall₂ (QPsf p) o.slots o'.slots
  used : List.Forall₂ P (o.slots.take o.ncutout.toNat) (o'.slots.take o.ncutout.toNat)

variable {p : Bool} {P : Slot → Slot → Prop} {o o' : ObjRow} {cfg : MakerCfg} {objs objs' : List ObjRow}

theorem RowSim.sky (h : RowSim p P o o') : o'.sky = o.sky := by rw [h.same]
theorem RowSim.box (h : RowSim p P o o') : o'.boxSize = o.boxSize := by rw [h.same]
theorem RowSim.count (h : RowSim p P o o') : o'.ncutout = o.ncutout := by rw [h.same]

theorem RowSim.accepted (h : RowSim p P o o') (i : Nat) (im : SrcImage) : Maker.accepted cfg i im o' = Maker.accepted cfg i im o := by
  rw [h.same]; rfl

theorem forall₂_filter {α : Type} {R : α → α → Prop} {q : α → Bool} {l l' : List α} (h : List.Forall₂ R l l') (hq : ∀ a b, R a b → q b = q a) :
    List.Forall₂ R (l.filter q) (l'.filter q) := by
  induction h with
  | nil => exact .nil
  | @cons a b l l' hab _ ih =>
    rw [List.filter_cons, List.filter_cons, hq a b hab]
    split
    · exact .cons hab ih
    · exact ih

theorem forall₂_all {α : Type} {R : α → α → Prop} {q : α → Bool} {l l' : List α} (h : List.Forall₂ R l l') (hq : ∀ a b, R a b → q b = q a) :
    l'.all q = l.all q := by
  induction h with
  | nil => rfl
  | @cons a b l l' hab _ ih => rw [List.all_cons, List.all_cons, hq a b hab, ih]

theorem forall₂_map_eq {α β : Type} {R : α → α → Prop} {q : α → β} {l l' : List α} (h : List.Forall₂ R l l') (hq : ∀ a b, R a b → q b = q a) :
    l'.map q = l.map q := by
  induction h with
  | nil => rfl
  | @cons a b l l' hab _ ih => rw [List.map_cons, List.map_cons, hq a b hab, ih]

theorem forall₂_set {α β : Type} {R : α → β → Prop} {l : List α} {l' : List β} (h : List.Forall₂ R l l') (k : Nat) {a : α} {b : β} (hab : R a b) :
    List.Forall₂ R (l.set k a) (l'.set k b) := by
  induction h generalizing k with
  | nil => exact .nil
  | cons hx ht ih =>
    cases k with
    | zero => exact .cons hab ht
    | succ k => exact .cons hx (ih k)

theorem forall₂_get {α β : Type} {R : α → β → Prop} {l : List α} {l' : List β} (h : List.Forall₂ R l l') {k : Nat} {a : α} {b : β}
    (ha : l[k]? = some a) (hb : l'[k]? = some b) : R a b := by
  obtain ⟨h1, rfl⟩ := List.getElem?_eq_some_iff.mp ha
  obtain ⟨h2, rfl⟩ := List.getElem?_eq_some_iff.mp hb
  exact (List.forall₂_iff_get.mp h).2 k h1 h2

theorem take_set_succ {α : Type} {l : List α} {n : Nat} (h : n < l.length) (x : α) : (l.set n x).take (n + 1) = l.take n ++ [x] := by
  rw [List.take_add_one, List.getElem?_set_self h, List.take_set_of_le (Nat.le_refl n)]
  rfl

theorem with_slots (h : o' = { o with slots := o'.slots }) (n : Int) (l : List Slot) :
    ({ o' with ncutout := n, slots := l } : ObjRow) = { o with ncutout := n, slots := l } := by
  rw [h]

theorem with_only_slots (h : o' = { o with slots := o'.slots }) (l : List Slot) : ({ o' with slots := l } : ObjRow) = { o with slots := l } := by
  rw [h]

/-- One image adds its epoch to both rows alike. -/
theorem addEpoch_sim (h : RowSim p (fun s s' => core s = core s') o o') (i : Nat) (im : SrcImage) :
    ResRel (RowSim p (fun s s' => core s = core s')) (addEpoch cfg i im o) (addEpoch cfg i im o') := by
  have hlen := h.all.length_eq
  unfold addEpoch
  rw [h.count, ← hlen]
  cases hk : pyIndex o.slots.length o.ncutout with
  | error e => exact rfl
  | ok k =>
    have hlt := pyIndex_ok hk
    have hkn := pyIndex_ok_nonneg hk h.nonneg
    have hk0 : k = o.ncutout.toNat := by omega
    rw [Res.ok_bind, Res.ok_bind]
    have g1 : pyGet o.slots o.ncutout = .ok (o.slots[k]'hlt) := by
      unfold pyGet; simp only [hk, List.getElem?_eq_getElem hlt]
    have hlt' : k < o'.slots.length := by omega
    have g2 : pyGet o'.slots o.ncutout = .ok (o'.slots[k]'hlt') := by
      unfold pyGet; rw [← hlen]; simp only [hk, List.getElem?_eq_getElem hlt']
    rw [g1, g2, Res.ok_bind, Res.ok_bind]
    have hf : finalPos cfg i im o' = finalPos cfg i im o := by rw [h.same]; rfl
    have hns : ∀ q s, newSlot i im q o' s = newSlot i im q o s := by intro q s; rw [h.same]; rfl
    have hq : QPsf p (o.slots[k]'hlt) (o'.slots[k]'hlt') :=
      forall₂_get h.all (List.getElem?_eq_getElem hlt) (List.getElem?_eq_getElem hlt')
    refine ⟨?_, ?_, ?_, ?_⟩
    · exact with_slots h.same _ _
    · dsimp only
      have := h.nonneg
      omega
    · dsimp only
      rw [hf, hns]
      exact forall₂_set h.all k hq
    · dsimp only
      have hnn := h.nonneg
      have e : (o.ncutout + 1).toNat = k + 1 := by omega
      rw [e, take_set_succ hlt, take_set_succ hlt', hf, hns]
      refine List.rel_append ?_ (.cons ?_ .nil)
      · rw [hk0]; exact h.used
      · simp only [core, newSlot, hq.1]

theorem filter_length_sim (h : List.Forall₂ (RowSim p P) objs objs') (i : Nat) (im : SrcImage) :
    (objs'.filter (Maker.accepted cfg i im)).length = (objs.filter (Maker.accepted cfg i im)).length :=
  (forall₂_filter h (fun _ _ hab => hab.accepted i im)).length_eq.symm

theorem forceCheck_sim (h : List.Forall₂ (RowSim p P) objs objs') (i : Nat) (im : SrcImage) : forceCheck cfg i im objs' = forceCheck cfg i im objs := by
  unfold forceCheck
  dsimp only
  rw [filter_length_sim h]
  rw [forall₂_all (forall₂_filter h (fun _ _ hab => hab.accepted i im))]
  intro a b hab
  rw [hab.same]; rfl

theorem layoutFile_sim (h : List.Forall₂ (RowSim p (fun s s' => core s = core s')) objs objs') (fi : Nat × SrcImage) :
    ResRel (List.Forall₂ (RowSim p (fun s s' => core s = core s'))) (layoutFile cfg objs fi) (layoutFile cfg objs' fi) := by
  unfold layoutFile
  dsimp only
  rw [forceCheck_sim h, filter_length_sim h, ← h.length_eq]
  refine (ResRel.refl _).bind fun _ _ _ => ?_
  split
  · exact rfl
  · refine mapRes_rel h fun a b hab => ?_
    rw [hab.accepted]
    split
    · exact addEpoch_sim hab fi.1 fi.2
    · exact hab

theorem trim_sim (h : List.Forall₂ (RowSim p P) objs objs') (images : List SrcImage) :
    ResRel (List.Forall₂ (RowSim p P)) (trim cfg images objs) (trim cfg images objs') := by
  unfold trim
  split
  · cases images with
    | nil => exact rfl
    | cons im rest =>
      dsimp only
      rw [filter_length_sim h]
      split
      · exact rfl
      · exact forall₂_filter h (fun _ _ hab => hab.accepted 0 im)
  · exact h

theorem maxNcutout_sim (h : List.Forall₂ (RowSim p P) objs objs') : maxNcutout objs' = maxNcutout objs := by
  have e := forall₂_map_eq h (q := fun o : ObjRow => o.ncutout) (fun _ _ hab => hab.count)
  cases h with
  | nil => rfl
  | cons hab ht =>
    rw [List.map_cons, List.map_cons] at e
    injection e with e1 e2
    unfold maxNcutout
    dsimp only
    rw [e1, e2]

theorem resize_sim (h : List.Forall₂ (RowSim p P) objs objs') : ResRel (List.Forall₂ (RowSim p P)) (resize objs) (resize objs') := by
  unfold resize
  rw [maxNcutout_sim h]
  refine (ResRel.refl _).bind fun m m' hm => ?_
  subst hm
  refine mapRes_rel h fun a b hab => ?_
  rw [← hab.all.length_eq]
  generalize (if m < 2 then 2 else m.toNat) = w
  split
  · exact rfl
  · refine ⟨?_, hab.nonneg, List.forall₂_take _ hab.all, ?_⟩
    · exact with_only_slots hab.same _
    · dsimp only
      rw [List.take_take, List.take_take, Nat.min_comm, ← List.take_take, ← List.take_take]
      exact List.forall₂_take _ hab.used

/-- Slots that agree but for their PSF entries. -/
def NearSlot (s s' : Slot) : Prop := core s = core s' ∧ s.startRow = s'.startRow

theorem setStarts_sim (np : Int) (n : Nat) (cur : Int) {ss ss' : List Slot} (hq : List.Forall₂ (QPsf p) ss ss')
    (hu : List.Forall₂ (fun s s' => core s = core s') (ss.take n) (ss'.take n)) :
    ResRel (fun r r' : List Slot × Int => List.Forall₂ (QPsf p) r.1 r'.1 ∧ List.Forall₂ NearSlot (r.1.take n) (r'.1.take n) ∧ r.2 = r'.2)
      (setStarts np n cur ss) (setStarts np n cur ss') := by
  induction n generalizing cur ss ss' with
  | zero => exact ⟨hq, .nil, rfl⟩
  | succ n ih =>
    cases hq with
    | nil => exact rfl
    | @cons s s' ss ss' h1 h2 =>
      rw [List.take_succ_cons, List.take_succ_cons, List.forall₂_cons] at hu
      rw [setStarts, setStarts]
      refine (ih (cur + np) h2 hu.2).bind fun r r' hr => ?_
      refine ⟨.cons h1 hr.1, .cons ⟨?_, rfl⟩ hr.2.1, hr.2.2⟩
      exact hu.1

theorem setStartRows_sim (cur : Int) (h : List.Forall₂ (RowSim p (fun s s' => core s = core s')) objs objs') :
    ResRel (fun r r' : List ObjRow × Int => List.Forall₂ (RowSim p NearSlot) r.1 r'.1 ∧ r.2 = r'.2) (setStartRows cur objs) (setStartRows cur objs') := by
  induction h generalizing cur with
  | nil => exact ⟨.nil, rfl⟩
  | @cons o o' os os' hab _ ih =>
    rw [setStartRows, setStartRows, hab.box, hab.count]
    refine (setStarts_sim _ _ cur hab.all hab.used).bind fun r r' hr => ?_
    rw [← hr.2.2]
    refine (ih r.2).bind fun q q' hq => ?_
    refine ⟨.cons ⟨?_, hab.nonneg, hr.1, hr.2.1⟩ hq.1, hq.2⟩
    have e := with_only_slots hab.same r'.1
    rw [hab.box, hab.count] at e
    exact e

theorem setPsfSlots_sim (psf : List PsfModel) (sky : SkyPos) (n : Nat) (cur : Int) {ss ss' : List Slot} (hl : ss.length = ss'.length)
    (hu : List.Forall₂ NearSlot (ss.take n) (ss'.take n)) :
    ResRel (fun r r' : List Slot × Int => r.1.length = r'.1.length ∧ r.1.take n = r'.1.take n ∧ r.2 = r'.2)
      (setPsfSlots psf sky n cur ss) (setPsfSlots psf sky n cur ss') := by
  induction n generalizing cur ss ss' with
  | zero => exact ⟨hl, rfl, rfl⟩
  | succ n ih =>
    cases ss with
    | nil =>
      cases ss' with
      | nil => exact rfl
      | cons _ _ => cases hl
    | cons s ss =>
      cases ss' with
      | nil => cases hl
      | cons s' ss' =>
        rw [List.take_succ_cons, List.take_succ_cons, List.forall₂_cons] at hu
        obtain ⟨⟨hc, hs⟩, hu⟩ := hu
        have e1 : s'.fileId = s.fileId := (congrArg Slot.fileId hc).symm
        have e2 : s'.origRow = s.origRow := (congrArg Slot.origRow hc).symm
        have e3 : s'.origCol = s.origCol := (congrArg Slot.origCol hc).symm
        rw [setPsfSlots, setPsfSlots, e1]
        refine (ResRel.refl _).bind fun m m' hm => ?_
        subst hm
        dsimp only
        rw [e2, e3]
        refine (ih _ (by simpa using hl) hu).bind fun r r' hr => ?_
        refine ⟨by simpa using hr.1, ?_, hr.2.2⟩
        dsimp only
        rw [List.take_succ_cons, List.take_succ_cons, hr.2.1]
        congr 1
        cases s; cases s'
        simp only [core, Slot.mk.injEq] at hc hs ⊢
        simp_all

theorem forall₂_eq_of {α : Type} {R : α → α → Prop} {l l' : List α} (h : List.Forall₂ R l l') (he : ∀ a b, R a b → a = b) : l = l' := by
  induction h with
  | nil => rfl
  | cons hab _ ih => rw [he _ _ hab, ih]

/-- What is left of the differences: rows that agree but for slots that are not in use. -/
structure Same (o o' : ObjRow) : Prop where
  same : o' = { o with slots := o'.slots }
  length : o.slots.length = o'.slots.length
  used : o.slots.take o.ncutout.toNat = o'.slots.take o.ncutout.toNat

theorem setPsfLayout_sim (psf : List PsfModel) (cur : Int) (h : List.Forall₂ (RowSim p NearSlot) objs objs') :
    ResRel (fun r r' : List ObjRow × Int => List.Forall₂ Same r.1 r'.1 ∧ r.2 = r'.2) (setPsfLayout psf cur objs) (setPsfLayout psf cur objs') := by
  induction h generalizing cur with
  | nil => exact ⟨.nil, rfl⟩
  | @cons o o' os os' hab _ ih =>
    rw [setPsfLayout, setPsfLayout, hab.sky, hab.count]
    refine (setPsfSlots_sim psf o.sky _ cur hab.all.length_eq hab.used).bind fun r r' hr => ?_
    rw [← hr.2.2]
    refine (ih r.2).bind fun q q' hq => ?_
    refine ⟨.cons ⟨?_, hr.1, hr.2.1⟩ hq.1, hq.2⟩
    have e := with_only_slots hab.same r'.1
    rw [hab.sky, hab.count] at e
    exact e

theorem near_same (h : RowSim false NearSlot o o') : Same o o' := by
  refine ⟨h.same, h.all.length_eq, ?_⟩
  have hq := List.forall₂_take o.ncutout.toNat h.all
  have : List.Forall₂ (fun s s' => QPsf false s s' ∧ NearSlot s s') (o.slots.take o.ncutout.toNat) (o'.slots.take o.ncutout.toNat) := by
    have hu := h.used
    generalize o.slots.take o.ncutout.toNat = A at hq hu
    generalize o'.slots.take o.ncutout.toNat = B at hq hu
    induction hq with
    | nil => exact .nil
    | cons h1 _ ih =>
      rw [List.forall₂_cons] at hu
      exact .cons ⟨h1, hu.1⟩ (ih hu.2)
  refine forall₂_eq_of this ?_
  rintro ⟨⟩ ⟨⟩ ⟨h1, h2, h3⟩
  have h1 := h1.2 rfl
  simp only [core, Slot.mk.injEq] at h1 h2 h3 ⊢
  simp_all

theorem pixelSum_sim (h : List.Forall₂ (RowSim p P) objs objs') : pixelSum objs' = pixelSum objs := by
  unfold pixelSum
  rw [forall₂_map_eq h]
  intro a b hab
  rw [hab.count, hab.box]

/-- Two makers that agree but for unused entries of their catalogues. -/
def MakerSame (a b : Maker) : Prop := b = { a with objs := b.objs } ∧ List.Forall₂ Same a.objs b.objs

theorem buildLayout_sim {a b : Maker} (hb : b = { a with objs := b.objs })
    (h : List.Forall₂ (RowSim a.psf.isSome (fun s s' => core s = core s')) a.objs b.objs) : ResRel MakerSame a.buildLayout b.buildLayout := by
  have e1 : b.cfg = a.cfg := by rw [hb]
  have e2 : b.images = a.images := by rw [hb]
  have e3 : b.psf = a.psf := by rw [hb]
  unfold buildLayout
  rw [e1, e2, e3]
  refine (trim_sim h a.images).bind fun o0 o0' h0 => ?_
  refine (foldRes_rel (S := List.Forall₂ (RowSim a.psf.isSome (fun s s' => core s = core s'))) h0
    (fun x y fi _ hxy => layoutFile_sim hxy fi)).bind fun o1 o1' h1 => ?_
  refine (resize_sim h1).bind fun o2 o2' h2 => ?_
  refine (setStartRows_sim 0 h2).bind fun r r' hr => ?_
  rw [pixelSum_sim h2, ← hr.2]
  split
  · exact rfl
  · cases hp : a.psf with
    | none =>
      refine ⟨?_, ?_⟩
      · dsimp only
        rw [hb]
      · refine hr.1.imp fun x y hxy => ?_
        rw [hp] at hxy
        exact near_same hxy
    | some psf =>
      refine (setPsfLayout_sim psf 0 hr.1).bind fun q q' hq => ?_
      refine ⟨?_, hq.1⟩
      dsimp only
      rw [hb, hq.2]

/-! ### Writing -/

theorem writeObjCutouts_take (t : String) (i : Nat) (src : Img ℚ) (o : ObjRow) (n : Nat) (ss : List Slot) (buf : List ℚ) :
    writeObjCutouts cfg t i src o n (ss.take n) buf = writeObjCutouts cfg t i src o n ss buf := by
  induction n generalizing ss buf with
  | zero => rw [writeObjCutouts, writeObjCutouts]
  | succ n ih =>
    cases ss with
    | nil => rfl
    | cons s ss =>
      rw [List.take_succ_cons, writeObjCutouts, writeObjCutouts]
      congr 1
      funext b
      exact ih ss b

theorem writeObjCutouts_row (t : String) (i : Nat) (src : Img ℚ) (o : ObjRow) (l : List Slot) (n : Nat) (ss : List Slot) (buf : List ℚ) :
    writeObjCutouts cfg t i src { o with slots := l } n ss buf = writeObjCutouts cfg t i src o n ss buf := by
  induction n generalizing ss buf with
  | zero => rw [writeObjCutouts, writeObjCutouts]
  | succ n ih =>
    cases ss with
    | nil => rfl
    | cons s ss =>
      rw [writeObjCutouts, writeObjCutouts]
      congr 1
      funext b
      exact ih ss b

theorem writeObjPsf_take (psf : List PsfModel) (sky : SkyPos) (n : Nat) (ss : List Slot) (buf : List ℚ) :
    writeObjPsf cfg psf sky n (ss.take n) buf = writeObjPsf cfg psf sky n ss buf := by
  induction n generalizing ss buf with
  | zero => rw [writeObjPsf, writeObjPsf]
  | succ n ih =>
    cases ss with
    | nil => rfl
    | cons s ss =>
      rw [List.take_succ_cons, writeObjPsf, writeObjPsf]
      congr 1
      funext q
      congr 1
      funext b
      exact ih ss b

theorem foldRes_forall₂ {α β : Type} {R : α → α → Prop} {f : β → α → Res β} {l l' : List α} (h : List.Forall₂ R l l')
    (hf : ∀ b x y, R x y → f b y = f b x) (b : β) : foldRes f b l' = foldRes f b l := by
  induction h generalizing b with
  | nil => rfl
  | @cons x y l l' hxy _ ih =>
    unfold foldRes
    rw [hf b x y hxy]
    cases f b x with
    | error e => rfl
    | ok c => exact ih c

theorem writeCutouts_same {a b : Maker} (h : MakerSame a b) (t : String) (buf : List ℚ) : b.writeCutouts t buf = a.writeCutouts t buf := by
  have e1 : b.cfg = a.cfg := by rw [h.1]
  have e2 : b.images = a.images := by rw [h.1]
  unfold writeCutouts
  rw [e1, e2]
  congr 1
  funext buf fi
  unfold writeFileCutouts
  congr 1
  funext r
  cases r with
  | none => rfl
  | some src =>
    refine foldRes_forall₂ h.2 (fun c x y hxy => ?_) buf
    have hn : y.ncutout = x.ncutout := by rw [hxy.same]
    rw [hn, ← writeObjCutouts_take, ← hxy.used, writeObjCutouts_take]
    conv_lhs => rw [hxy.same]
    exact writeObjCutouts_row t fi.1 src x y.slots _ _ c

theorem writePsf_same {a b : Maker} (h : MakerSame a b) (psf : List PsfModel) (buf : List ℚ) : b.writePsfSerial psf buf = a.writePsfSerial psf buf := by
  have e1 : b.cfg = a.cfg := by rw [h.1]
  unfold writePsfSerial
  rw [e1]
  refine foldRes_forall₂ h.2 (fun c x y hxy => ?_) buf
  have hn : y.ncutout = x.ncutout := by rw [hxy.same]
  have hs : y.sky = x.sky := by rw [hxy.same]
  rw [hn, hs, ← writeObjPsf_take, ← hxy.used, writeObjPsf_take]

theorem modifyImage_skip {name : String} {g : List ℚ → Res (List ℚ)} {x : String × Hdu} {l : List (String × Hdu)} (h : x.1 ≠ name) :
    modifyImage name g (x :: l) = (modifyImage name g l >>= fun t => .ok (x :: t)) := by
  obtain ⟨n, d⟩ := x
  conv_lhs => unfold modifyImage
  rw [if_neg h]

theorem writeData_sim {a b : Maker} (h : MakerSame a b) (hs : ∀ t ∈ a.types, t ∈ supportedTypes) :
    ResRel (fun f g : Fits => ∃ rest, f.hdus = ("object_data", .objects ⟨a.dtype, a.objs⟩) :: rest ∧ g.hdus = ("object_data", .objects ⟨a.dtype, b.objs⟩) :: rest)
      a.writeData b.writeData := by
  have e1 : b.types = a.types := by rw [h.1]
  have e2 : b.psf = a.psf := by rw [h.1]
  have e3 : b.reservedHdus = a.reservedHdus := by rw [h.1]; rfl
  have e4 : b.psfInfoHdus = a.psfInfoHdus := by rw [h.1]; rfl
  have e5 : b.tableHdus = ("object_data", .objects ⟨a.dtype, b.objs⟩) :: a.tableHdus.tail := by
    conv_lhs => rw [h.1]
    rfl
  have e6 : a.tableHdus = ("object_data", .objects ⟨a.dtype, a.objs⟩) :: a.tableHdus.tail := rfl
  let S : List (String × Hdu) → List (String × Hdu) → Prop := fun l l' =>
    ∃ rest, l = ("object_data", .objects ⟨a.dtype, a.objs⟩) :: rest ∧ l' = ("object_data", .objects ⟨a.dtype, b.objs⟩) :: rest
  have step : ∀ (name : String) (g : List ℚ → Res (List ℚ)) (l l' : List (String × Hdu)), "object_data" ≠ name → S l l' →
      ResRel S (modifyImage name g l) (modifyImage name g l') := by
    rintro name g l l' hn ⟨rest, rfl, rfl⟩
    rw [modifyImage_skip hn, modifyImage_skip hn]
    refine (ResRel.refl _).bind fun x y hxy => ?_
    subst hxy
    exact ⟨x, rfl, rfl⟩
  have hname : ∀ t ∈ supportedTypes, "object_data" ≠ t ++ "_cutouts" := by decide
  unfold writeData
  dsimp only
  rw [e1, e2, e3, e4]
  refine (foldRes_rel (S := S) ?_ ?_).bind fun l l' hl => ?_
  · rw [e5]
    conv in (a.tableHdus ++ a.reservedHdus) => rw [e6]
    exact ⟨_, rfl, rfl⟩
  · intro l l' t ht hl
    have : b.writeCutouts t = a.writeCutouts t := funext fun buf => writeCutouts_same h t buf
    rw [this]
    exact step _ _ l l' (hname t (hs t ht)) hl
  · have hpsf : ResRel S (match a.psf with | some psf => modifyImage "psf" (a.writePsfSerial psf) l | none => .ok l)
        (match a.psf with | some psf => modifyImage "psf" (b.writePsfSerial psf) l' | none => .ok l') := by
      cases a.psf with
      | none => exact hl
      | some psf =>
        have : b.writePsfSerial psf = a.writePsfSerial psf := funext fun buf => writePsf_same h psf buf
        dsimp only
        rw [this]
        exact step _ _ l l' (by decide) hl
    refine hpsf.bind fun x y hxy => ?_
    obtain ⟨rest, rfl, rfl⟩ := hxy
    exact ⟨rest ++ a.psfInfoHdus, rfl, rfl⟩

/-! ### Epochs that were there before -/

/-- The first `ncutout` slots of a row are still there, but for their storage and PSF entries. -/
def Kept (o o' : ObjRow) : Prop :=
  0 ≤ o.ncutout → o.ncutout ≤ o'.ncutout ∧ (o'.slots.map core).take o.ncutout.toNat = (o.slots.map core).take o.ncutout.toNat

theorem Kept.trans {a b c : ObjRow} (h1 : Kept a b) (h2 : Kept b c) : Kept a c := by
  intro h0
  obtain ⟨g1, g2⟩ := h1 h0
  obtain ⟨k1, k2⟩ := h2 (by omega)
  refine ⟨by omega, ?_⟩
  rw [← g2]
  have e : a.ncutout.toNat = min a.ncutout.toNat b.ncutout.toNat := by omega
  rw [e, ← List.take_take, k2, List.take_take]

theorem Kept.of_core (h1 : o'.ncutout = o.ncutout) (h2 : o'.slots.map core = o.slots.map core) : Kept o o' :=
  fun _ => ⟨by omega, by rw [h2]⟩

theorem stepObj_kept {fi : Nat × SrcImage} (h : stepObj cfg o fi = .ok o') : Kept o o' := by
  intro h0
  unfold stepObj at h
  split at h
  · unfold addEpoch at h
    obtain ⟨k, hk, h⟩ := Res.bind_eq_ok.mp h
    obtain ⟨old, _, h⟩ := Res.bind_eq_ok.mp h
    injection h with h
    subst h
    have := pyIndex_ok_nonneg hk h0
    refine ⟨by dsimp only; omega, ?_⟩
    dsimp only
    rw [← List.map_take, ← List.map_take, List.take_set_of_le (by omega)]
  · injection h with h
    subst h
    exact ⟨le_refl _, rfl⟩

theorem fold_stepObj_kept {L : List (Nat × SrcImage)} (h : foldRes (stepObj cfg) o L = .ok o') : Kept o o' := by
  induction L generalizing o with
  | nil =>
    simp only [foldRes] at h
    injection h with h
    subst h
    exact Kept.of_core rfl rfl
  | cons x xs ih =>
    obtain ⟨t, ht, h⟩ := foldRes_cons_ok.mp h
    exact (stepObj_kept ht).trans (ih h)

theorem buildLayout_kept {mk mk' : Maker} (h : mk.buildLayout = .ok mk') (ht : mk.cfg.trimToCoadd = false) : List.Forall₂ Kept mk.objs mk'.objs := by
  have h0 : trim mk.cfg mk.images mk.objs = .ok mk.objs := by
    unfold trim
    rw [ht, if_neg (by simp)]
  unfold buildLayout at h
  rw [h0, Res.ok_bind] at h
  obtain ⟨objs1, h1, h⟩ := Res.bind_eq_ok.mp h
  obtain ⟨objs2, h2, h⟩ := Res.bind_eq_ok.mp h
  obtain ⟨⟨objs3, e⟩, h3, h⟩ := Res.bind_eq_ok.mp h
  by_cases hs : pixelSum objs2 ≠ e
  · rw [if_pos hs] at h
    cases h
  · rw [if_neg hs] at h
    obtain ⟨w, _, hwle, _, hres⟩ := resize_ok h2
    have f1 : List.Forall₂ Kept mk.objs objs1 := (fold_layoutFile h1).imp fun _ _ hab => fold_stepObj_kept hab
    have f2 : List.Forall₂ Kept objs1 objs2 := (forall₂_and_left hres (P := fun o : ObjRow => o.ncutout ≤ (w : Int)) hwle).imp fun a b hab => by
      obtain ⟨k1, k2, rfl⟩ := hab
      intro hn
      refine ⟨le_refl _, ?_⟩
      dsimp only
      rw [List.map_take, List.take_take]
      congr 1
      omega
    have f3 : List.Forall₂ Kept objs2 objs3 := (setStartRows_ok h3).1.imp fun a b hab => Kept.of_core (by rw [hab.1]) hab.2.2.2.1
    have g := forall₂_trans (forall₂_trans f1 f2 (fun _ _ _ => Kept.trans)) f3 (fun _ _ _ => Kept.trans)
    cases hpsf : mk.psf with
    | none =>
      rw [hpsf] at h
      injection h with h
      subst h
      exact g
    | some psf =>
      rw [hpsf] at h
      obtain ⟨⟨objs4, e'⟩, h4, h⟩ := Res.bind_eq_ok.mp h
      injection h with h
      subst h
      have f4 : List.Forall₂ Kept objs3 objs4 := (setPsfLayout_ok h4).1.imp fun a b hab => Kept.of_core (by rw [hab.1]) hab.2.2.2.1
      exact forall₂_trans g f4 (fun _ _ _ => Kept.trans)

end Maker
end Meds
