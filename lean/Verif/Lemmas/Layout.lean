import Verif.Model.Maker
import Verif.Lemmas.Regions

/-! Helper lemmas: what `_build_meds_layout` computes, in closed form. -/

namespace Meds
namespace Maker

/-- One object, one image. -/
def stepObj (cfg : MakerCfg) (o : ObjRow) (fi : Nat × SrcImage) : Res ObjRow :=
  if accepted cfg fi.1 fi.2 o then addEpoch cfg fi.1 fi.2 o else .ok o

theorem layoutFile_ok {cfg : MakerCfg} {objs objs' : List ObjRow} {fi : Nat × SrcImage}
    (h : layoutFile cfg objs fi = .ok objs') :
    mapRes (fun o => stepObj cfg o fi) objs = .ok objs' ∧
    (cfg.firstImageIsCoadd = true → cfg.checkInCoadd = true → fi.1 = 0 → ∀ o ∈ objs, accepted cfg fi.1 fi.2 o = true) := by
  unfold layoutFile at h
  obtain ⟨_, _, h⟩ := Res.bind_eq_ok.mp h
  split at h
  · cases h
  · rename_i hh
    refine ⟨h, fun h1 h2 h3 o ho => ?_⟩
    rw [h1, h2, h3] at hh
    simp only [Bool.and_self, beq_self_eq_true, Bool.true_and, bne_iff_ne, ne_eq, not_not] at hh
    have := List.length_filter_eq_length_iff.mp hh.symm o ho
    rw [h3]; exact this

theorem fold_layoutFile {cfg : MakerCfg} {L : List (Nat × SrcImage)} {objs objs' : List ObjRow}
    (h : foldRes (layoutFile cfg) objs L = .ok objs') :
    List.Forall₂ (fun o o' => foldRes (stepObj cfg) o L = .ok o') objs objs' := by
  induction L generalizing objs with
  | nil =>
    simp only [foldRes] at h ⊢
    injection h with h
    subst h
    rw [List.forall₂_same]
    intro _ _; rfl
  | cons x xs ih =>
    obtain ⟨mid, h1, h2⟩ := foldRes_cons_ok.mp h
    have f1 := mapRes_ok_iff.mp (layoutFile_ok h1).1
    have f2 := ih h2
    clear h h1 h2 ih
    induction f1 generalizing objs' with
    | nil => rw [List.forall₂_nil_left_iff] at f2; subst f2; exact .nil
    | cons hab _ ih2 =>
      obtain ⟨b, u, hb, hu, rfl⟩ := List.forall₂_cons_left_iff.mp f2
      exact .cons (foldRes_cons_ok.mpr ⟨_, hab, hb⟩) (ih2 hu)

/-- The slot an accepted image adds. -/
def epochOf (cfg : MakerCfg) (o : ObjRow) (fi : Nat × SrcImage) : Slot :=
  newSlot fi.1 fi.2 (finalPos cfg fi.1 fi.2 o) o Slot.dflt

/-- The accepted images, in order. -/
def acceptedIn (cfg : MakerCfg) (o : ObjRow) (L : List (Nat × SrcImage)) : List (Nat × SrcImage) :=
  L.filter (fun fi => accepted cfg fi.1 fi.2 o)

theorem addEpoch_packed {cfg : MakerCfg} {o o' : ObjRow} {fi : Nat × SrcImage} {used : List Slot} {m : Nat}
    (hs : o.slots = used ++ List.replicate m Slot.dflt) (hn : o.ncutout = used.length)
    (h : addEpoch cfg fi.1 fi.2 o = .ok o') :
    0 < m ∧ o' = { o with slots := (used ++ [epochOf cfg o fi]) ++ List.replicate (m - 1) Slot.dflt,
                          ncutout := used.length + 1 } := by
  unfold addEpoch at h
  obtain ⟨k, hk, h⟩ := Res.bind_eq_ok.mp h
  obtain ⟨old, hold, h⟩ := Res.bind_eq_ok.mp h
  injection h with h
  have hlt := pyIndex_ok hk
  have hkn := pyIndex_ok_nonneg hk (by omega)
  rw [hs] at hlt
  simp only [List.length_append, List.length_replicate] at hlt
  have hku : k = used.length := by omega
  have hm : 0 < m := by omega
  obtain ⟨m', rfl⟩ : ∃ m', m = m' + 1 := ⟨m - 1, by omega⟩
  have hold' := pyGet_ok_nonneg hold (by omega)
  have : o.ncutout.toNat = used.length := by omega
  rw [this, hs, List.getElem?_append_right (by omega)] at hold'
  simp only [Nat.sub_self, List.replicate_succ, List.getElem?_cons_zero, Option.some.injEq] at hold'
  refine ⟨hm, ?_⟩
  subst h hold'
  simp only [hs, hku, hn, epochOf]
  congr 1
  rw [List.set_append_right _ _ (by omega)]
  simp [List.replicate_succ]

theorem fold_stepObj {cfg : MakerCfg} {L : List (Nat × SrcImage)} {o o' : ObjRow} {used : List Slot} {m : Nat}
    (hs : o.slots = used ++ List.replicate m Slot.dflt) (hn : o.ncutout = used.length)
    (h : foldRes (stepObj cfg) o L = .ok o') :
    (acceptedIn cfg o L).length ≤ m ∧
    o' = { o with
      slots := (used ++ (acceptedIn cfg o L).map (epochOf cfg o))
                ++ List.replicate (m - (acceptedIn cfg o L).length) Slot.dflt,
      ncutout := used.length + (acceptedIn cfg o L).length } := by
  induction L generalizing o used m with
  | nil =>
    simp only [foldRes] at h
    injection h with h
    subst h
    cases o
    simp only at hs hn
    subst hs hn
    simp [acceptedIn]
  | cons x xs ih =>
    obtain ⟨t, ht, h⟩ := foldRes_cons_ok.mp h
    unfold stepObj at ht
    split at ht
    · rename_i hacc
      obtain ⟨hm, ht⟩ := addEpoch_packed hs hn ht
      have hacc' : ∀ y : Nat × SrcImage, accepted cfg y.1 y.2 t = accepted cfg y.1 y.2 o := by
        intro y; rw [ht]; rfl
      have hep : epochOf cfg t = epochOf cfg o := by rw [ht]; rfl
      have hin : acceptedIn cfg o (x :: xs) = x :: acceptedIn cfg t xs := by
        unfold acceptedIn
        rw [List.filter_cons_of_pos (by simpa using hacc)]
        congr 1
        apply List.filter_congr
        intro y _
        rw [hacc' y]
      obtain ⟨h1, h2⟩ := ih (o := t) (used := used ++ [epochOf cfg o x]) (m := m - 1) (by rw [ht]) (by rw [ht]; simp) h
      rw [hin]
      refine ⟨by simp; omega, ?_⟩
      rw [h2, hep]
      generalize acceptedIn cfg t xs = A at h1
      subst ht
      simp only [List.map_cons, List.length_cons, List.length_append, List.length_nil, List.append_assoc,
        List.singleton_append, ObjRow.mk.injEq, true_and]
      refine ⟨by push_cast; ring, ?_⟩
      rw [show m - 1 - A.length = m - (A.length + 1) from by omega]
    · rename_i hacc
      injection ht with ht
      subst ht
      have hin : acceptedIn cfg o (x :: xs) = acceptedIn cfg o xs := by
        unfold acceptedIn
        rw [List.filter_cons_of_neg (by simpa using hacc)]
      rw [hin]
      exact ih hs hn h

/-- The part of a slot fixed by the per-image loop: everything but the storage and PSF columns. -/
def core (s : Slot) : Slot :=
  { s with startRow := DEFVAL, psfRowSize := DEFVAL, psfColSize := DEFVAL, psfCutoutRow := DEFVAL,
           psfCutoutCol := DEFVAL, psfStartRow := DEFVAL }

theorem core_epochOf (cfg : MakerCfg) (o : ObjRow) (fi : Nat × SrcImage) : core (epochOf cfg o fi) = epochOf cfg o fi := rfl

theorem core_fileId {s t : Slot} (h : core s = t) : s.fileId = t.fileId := by rw [← h]; rfl

/-! ### resize -/

theorem foldl_max_spec (l : List Int) (a : Int) :
    (∀ x ∈ a :: l, x ≤ l.foldl max a) ∧ l.foldl max a ∈ a :: l := by
  induction l generalizing a with
  | nil => simp
  | cons b t ih =>
    obtain ⟨h1, h2⟩ := ih (max a b)
    simp only [List.foldl_cons]
    constructor
    · intro x hx
      have hm := h1 (max a b) (by simp)
      rcases List.mem_cons.mp hx with rfl | hx
      · omega
      · rcases List.mem_cons.mp hx with rfl | hx
        · omega
        · exact h1 x (by simp [hx])
    · rcases List.mem_cons.mp h2 with h2 | h2
      · rw [h2]
        rcases max_choice a b with h | h <;> rw [h] <;> simp
      · simp [h2]

theorem maxNcutout_ok {objs : List ObjRow} {m : Int} (h : maxNcutout objs = .ok m) :
    (∀ o ∈ objs, o.ncutout ≤ m) ∧ ∃ o ∈ objs, o.ncutout = m := by
  cases objs with
  | nil => cases h
  | cons o os =>
    simp only [maxNcutout] at h
    injection h with h
    obtain ⟨h1, h2⟩ := foldl_max_spec (os.map (·.ncutout)) o.ncutout
    rw [h] at h1 h2
    constructor
    · intro x hx
      apply h1
      rw [← List.map_cons]
      exact List.mem_map_of_mem hx
    · rw [← List.map_cons (f := fun x : ObjRow => x.ncutout)] at h2
      obtain ⟨x, hx, hxm⟩ := List.mem_map.mp h2
      exact ⟨x, hx, hxm⟩

theorem resize_ok {objs objs' : List ObjRow} (h : resize objs = .ok objs') :
    ∃ w : Nat, 2 ≤ w ∧ (∀ o ∈ objs, o.ncutout ≤ w) ∧ (w = 2 ∨ ∃ o ∈ objs, o.ncutout = w) ∧
      List.Forall₂ (fun o o' => w ≤ o.slots.length ∧ o' = { o with slots := o.slots.take w }) objs objs' := by
  unfold resize at h
  obtain ⟨m, hm, h⟩ := Res.bind_eq_ok.mp h
  obtain ⟨h1, o, ho, h2⟩ := maxNcutout_ok hm
  refine ⟨if m < 2 then 2 else m.toNat, by split <;> omega, ?_, ?_, ?_⟩
  · intro x hx
    have := h1 x hx
    split <;> omega
  · split
    · left; rfl
    · right; exact ⟨o, ho, by omega⟩
  · refine (mapRes_ok_iff.mp h).imp ?_
    intro a b hab
    generalize (if m < 2 then 2 else m.toNat) = w at hab ⊢
    split at hab
    · cases hab
    · injection hab with hab
      exact ⟨by omega, hab.symm⟩

/-! ### start rows -/

theorem setStarts_ok {np : Int} (hnp : 0 ≤ np) {n : Nat} {cur e : Int} {ss ss' : List Slot}
    (h : setStarts np n cur ss = .ok (ss', e)) :
    n ≤ ss.length ∧ ss'.length = ss.length ∧ ss'.map core = ss.map core ∧ ss'.drop n = ss.drop n ∧
    Consec cur ((ss'.take n).map (fun s => (s.startRow, np))) e := by
  induction n generalizing cur ss ss' with
  | zero =>
    simp only [setStarts] at h
    injection h with h
    injection h with h1 h2
    subst h1 h2
    simp [Consec]
  | succ n ih =>
    cases ss with
    | nil => cases h
    | cons s ss =>
      simp only [setStarts] at h
      obtain ⟨r, hr, h⟩ := Res.bind_eq_ok.mp h
      injection h with h
      injection h with h1 h2
      subst h1 h2
      obtain ⟨a, b, c, d, f⟩ := ih (ss' := r.1) (by rw [hr])
      refine ⟨by simp; omega, by simp [b], ?_, by simpa using d, ?_⟩
      · simp only [List.map_cons, c]; rfl
      · simp only [List.take_succ_cons, List.map_cons, Consec, true_and]
        exact ⟨hnp, f⟩

/-- Storage pieces of a catalogue, in row-major order. -/
def regions (objs : List ObjRow) : List (Int × Int) :=
  objs.flatMap (fun o => (o.slots.take o.ncutout.toNat).map (fun s => (s.startRow, o.boxSize * o.boxSize)))

theorem setStartRows_ok {objs objs' : List ObjRow} {cur e : Int} (h : setStartRows cur objs = .ok (objs', e)) :
    List.Forall₂ (fun o o' => o' = { o with slots := o'.slots } ∧ o.ncutout.toNat ≤ o.slots.length ∧
        o'.slots.length = o.slots.length ∧
        o'.slots.map core = o.slots.map core ∧ o'.slots.drop o.ncutout.toNat = o.slots.drop o.ncutout.toNat) objs objs' ∧
    Consec cur (regions objs') e := by
  induction objs generalizing cur objs' with
  | nil =>
    simp only [setStartRows] at h
    injection h with h
    injection h with h1 h2
    subst h1 h2
    exact ⟨.nil, rfl⟩
  | cons o os ih =>
    simp only [setStartRows] at h
    obtain ⟨r, hr, h⟩ := Res.bind_eq_ok.mp h
    obtain ⟨rest, hrest, h⟩ := Res.bind_eq_ok.mp h
    injection h with h
    injection h with h1 h2
    subst h1 h2
    obtain ⟨a, b, c, d, f⟩ := setStarts_ok (ss' := r.1) (e := r.2) (mul_self_nonneg _) (by rw [hr])
    obtain ⟨g1, g2⟩ := ih (objs' := rest.1) (by rw [hrest])
    refine ⟨.cons ⟨rfl, a, b, c, d⟩ g1, ?_⟩
    rw [regions, List.flatMap_cons]
    exact Consec.append f g2

/-! ### PSF layout -/

/-- Storage pieces of the PSF images of a catalogue. -/
def psfRegions (objs : List ObjRow) : List (Int × Int) :=
  objs.flatMap (fun o => (o.slots.take o.ncutout.toNat).map (fun s => (s.psfStartRow, s.psfRowSize * s.psfColSize)))

/-- The PSF columns of a slot are those announced by the PSF model of its image. -/
def PsfSlotOk (psf : List PsfModel) (sky : SkyPos) (s : Slot) : Prop :=
  ∃ p, pyGet psf s.fileId = .ok p ∧ s.psfRowSize = (psfShapeOf p sky s.origRow s.origCol).1 ∧
    s.psfColSize = (psfShapeOf p sky s.origRow s.origCol).2 ∧ (s.psfCutoutRow, s.psfCutoutCol) = p.center s.origRow s.origCol

theorem setPsfSlots_ok {psf : List PsfModel} {sky : SkyPos} {n : Nat} {cur e : Int} {ss ss' : List Slot}
    (h : setPsfSlots psf sky n cur ss = .ok (ss', e)) :
    n ≤ ss.length ∧ ss'.length = ss.length ∧ ss'.map core = ss.map core ∧ ss'.map (·.startRow) = ss.map (·.startRow) ∧
    ss'.drop n = ss.drop n ∧
    Consec cur ((ss'.take n).map (fun s => (s.psfStartRow, s.psfRowSize * s.psfColSize))) e ∧
    ∀ s ∈ ss'.take n, PsfSlotOk psf sky s := by
  induction n generalizing cur ss ss' with
  | zero =>
    simp only [setPsfSlots] at h
    injection h with h
    injection h with h1 h2
    subst h1 h2
    simp [Consec]
  | succ n ih =>
    cases ss with
    | nil => cases h
    | cons s ss =>
      simp only [setPsfSlots] at h
      obtain ⟨p, hp, h⟩ := Res.bind_eq_ok.mp h
      obtain ⟨r, hr, h⟩ := Res.bind_eq_ok.mp h
      injection h with h
      injection h with h1 h2
      subst h1 h2
      obtain ⟨a, b, c, c', d, f, g⟩ := ih (ss' := r.1) (by rw [hr])
      refine ⟨by simp; omega, by simp [b], ?_, ?_, by simpa using d, ?_, ?_⟩
      · simp only [List.map_cons, c]; rfl
      · simp only [List.map_cons, c']
      · simp only [List.take_succ_cons, List.map_cons, Consec, true_and]
        exact ⟨by positivity, f⟩
      · intro t ht
        simp only [List.take_succ_cons, List.mem_cons] at ht
        rcases ht with rfl | ht
        · exact ⟨p, hp, rfl, rfl, rfl⟩
        · exact g t ht

theorem setPsfLayout_ok {psf : List PsfModel} {objs objs' : List ObjRow} {cur e : Int}
    (h : setPsfLayout psf cur objs = .ok (objs', e)) :
    List.Forall₂ (fun o o' => o' = { o with slots := o'.slots } ∧ o.ncutout.toNat ≤ o.slots.length ∧
        o'.slots.length = o.slots.length ∧
        o'.slots.map core = o.slots.map core ∧ o'.slots.map (·.startRow) = o.slots.map (·.startRow) ∧
        o'.slots.drop o.ncutout.toNat = o.slots.drop o.ncutout.toNat) objs objs' ∧
    Consec cur (psfRegions objs') e ∧
    (∀ o ∈ objs', ∀ s ∈ o.slots.take o.ncutout.toNat, PsfSlotOk psf o.sky s) := by
  induction objs generalizing cur objs' with
  | nil =>
    simp only [setPsfLayout] at h
    injection h with h
    injection h with h1 h2
    subst h1 h2
    exact ⟨.nil, rfl, by simp⟩
  | cons o os ih =>
    simp only [setPsfLayout] at h
    obtain ⟨r, hr, h⟩ := Res.bind_eq_ok.mp h
    obtain ⟨rest, hrest, h⟩ := Res.bind_eq_ok.mp h
    injection h with h
    injection h with h1 h2
    subst h1 h2
    obtain ⟨a, b, c, c', d, f, g⟩ := setPsfSlots_ok (ss' := r.1) (e := r.2) (by rw [hr])
    obtain ⟨g1, g2, g3⟩ := ih (objs' := rest.1) (by rw [hrest])
    refine ⟨.cons ⟨rfl, a, b, c, c', d⟩ g1, ?_, ?_⟩
    · rw [psfRegions, List.flatMap_cons]
      exact Consec.append f g2
    · intro x hx
      rcases List.mem_cons.mp hx with rfl | hx
      · exact g
      · exact g3 x hx

theorem regions_eq_of_startRow {objs objs' : List ObjRow}
    (h : List.Forall₂ (fun o o' : ObjRow => o' = { o with slots := o'.slots } ∧
        o'.slots.map (·.startRow) = o.slots.map (·.startRow)) objs objs') : regions objs' = regions objs := by
  induction h with
  | nil => rfl
  | @cons o o' os os' hab _ ih =>
    rw [regions, regions, List.flatMap_cons, List.flatMap_cons]
    rw [regions, regions] at ih
    rw [ih]
    congr 1
    obtain ⟨h1, h2⟩ := hab
    have hn : o'.ncutout = o.ncutout := by rw [h1]
    have hb : o'.boxSize = o.boxSize := by rw [h1]
    rw [hn, hb]
    have : ∀ l : List Slot, l.map (fun s => (s.startRow, o.boxSize * o.boxSize))
        = (l.map (·.startRow)).map (fun x => (x, o.boxSize * o.boxSize)) := by
      intro l; simp
    rw [this, this, List.map_take (f := fun x : Slot => x.startRow), List.map_take (f := fun x : Slot => x.startRow), h2]

/-! ### everything together -/

/-- The catalogue row that the layout must produce from an input row. -/
def LaidOut (cfg : MakerCfg) (images : List SrcImage) (w : Nat) (o o' : ObjRow) : Prop :=
  ∃ S : List Slot,
    S.map core = (acceptedIn cfg o (numbered images)).map (epochOf cfg o) ∧ S.length ≤ w ∧
    o' = { o with ncutout := S.length, slots := S ++ List.replicate (w - S.length) Slot.dflt }

theorem forall₂_trans {α β γ : Type} {R : α → β → Prop} {S : β → γ → Prop} {T : α → γ → Prop}
    {l₁ : List α} {l₂ : List β} {l₃ : List γ}
    (h₁ : List.Forall₂ R l₁ l₂) (h₂ : List.Forall₂ S l₂ l₃) (h : ∀ a b c, R a b → S b c → T a c) : List.Forall₂ T l₁ l₃ := by
  induction h₁ generalizing l₃ with
  | nil => rw [List.forall₂_nil_left_iff] at h₂; subst h₂; exact .nil
  | cons hab _ ih =>
    obtain ⟨c, u, hc, hu, rfl⟩ := List.forall₂_cons_left_iff.mp h₂
    exact .cons (h _ _ _ hab hc) (ih hu)

theorem forall₂_and_left {α β : Type} {R : α → β → Prop} {P : α → Prop} {l₁ : List α} {l₂ : List β}
    (h : List.Forall₂ R l₁ l₂) (hp : ∀ a ∈ l₁, P a) : List.Forall₂ (fun a b => P a ∧ R a b) l₁ l₂ := by
  induction h with
  | nil => exact .nil
  | cons hab _ ih => exact .cons ⟨hp _ (by simp), hab⟩ (ih (fun a ha => hp a (by simp [ha])))

theorem laidOut_stage {cfg : MakerCfg} {images : List SrcImage} {w : Nat} {a b c : ObjRow}
    (hab : LaidOut cfg images w a b)
    (hbc : c = { b with slots := c.slots } ∧ b.ncutout.toNat ≤ b.slots.length ∧ c.slots.length = b.slots.length ∧
        c.slots.map core = b.slots.map core ∧ c.slots.drop b.ncutout.toNat = b.slots.drop b.ncutout.toNat) :
    LaidOut cfg images w a c := by
  obtain ⟨S, h1, h2, rfl⟩ := hab
  obtain ⟨g1, g2, g3, g4, g5⟩ := hbc
  simp only [Int.toNat_natCast] at g2 g3 g4 g5
  have hl : (c.slots.take S.length).length = S.length := by
    rw [List.length_take, g3, List.length_append]; omega
  refine ⟨c.slots.take S.length, ?_, by omega, ?_⟩
  · rw [List.map_take, g4, ← List.map_take, List.take_left' rfl, h1]
  · rw [hl]
    have : c.slots.take S.length ++ List.replicate (w - S.length) Slot.dflt = c.slots := by
      conv_rhs => rw [← List.take_append_drop S.length c.slots]
      rw [g5, List.drop_left' rfl]
    rw [this]
    exact g1

theorem laidOut_first {cfg : MakerCfg} {images : List SrcImage} {w nmax : Nat} {a b c : ObjRow}
    (ha : a.ncutout = 0 ∧ a.slots = List.replicate nmax Slot.dflt)
    (hab : foldRes (stepObj cfg) a (numbered images) = .ok b) (hw : b.ncutout ≤ w)
    (hbc : w ≤ b.slots.length ∧ c = { b with slots := b.slots.take w }) : LaidOut cfg images w a c := by
  obtain ⟨h1, h2⟩ := fold_stepObj (used := []) (m := nmax) (by simpa using ha.2) (by simpa using ha.1) hab
  obtain ⟨g1, rfl⟩ := hbc
  rw [h2] at hw
  simp only [List.length_nil, Nat.cast_zero, zero_add, Nat.cast_le] at hw
  rw [h2] at g1
  simp only [List.nil_append, List.length_append, List.length_map, List.length_replicate] at g1
  refine ⟨(acceptedIn cfg a (numbered images)).map (epochOf cfg a), ?_, by simpa using hw, ?_⟩
  · rw [List.map_map]
    rfl
  · rw [h2]
    simp only [List.nil_append, List.length_nil, Nat.cast_zero, zero_add, List.length_map, ObjRow.mk.injEq, true_and]
    rw [List.take_append, List.take_of_length_le (by simpa using hw), List.take_replicate]
    simp only [List.length_map]
    congr 2
    omega

theorem fold_layoutFile_accepted {cfg : MakerCfg} {L : List (Nat × SrcImage)} {objs objs' : List ObjRow}
    (h : foldRes (layoutFile cfg) objs L = .ok objs') (h1 : cfg.firstImageIsCoadd = true) (h2 : cfg.checkInCoadd = true) :
    ∀ im rest, L = (0, im) :: rest → ∀ o ∈ objs, accepted cfg 0 im o = true := by
  intro im rest hL o ho
  subst hL
  obtain ⟨mid, hm, _⟩ := foldRes_cons_ok.mp h
  exact (layoutFile_ok hm).2 h1 h2 rfl o ho

theorem buildLayout_ok {mk mk' : Maker} {nmax : Nat} (h : mk.buildLayout = .ok mk')
    (hfresh : ∀ o ∈ mk.objs, o.ncutout = 0 ∧ o.slots = List.replicate nmax Slot.dflt) :
    ∃ (objs0 : List ObjRow) (w : Nat), trim mk.cfg mk.images mk.objs = .ok objs0 ∧
      2 ≤ w ∧ (w = 2 ∨ ∃ o ∈ mk'.objs, o.ncutout = w) ∧
      List.Forall₂ (LaidOut mk.cfg mk.images w) objs0 mk'.objs ∧
      (mk.cfg.firstImageIsCoadd = true → mk.cfg.checkInCoadd = true →
        ∀ im rest, mk.images = im :: rest → ∀ o ∈ objs0, accepted mk.cfg 0 im o = true) ∧
      Consec 0 (regions mk'.objs) mk'.totalPixels ∧
      mk' = { mk with objs := mk'.objs, totalPixels := mk'.totalPixels, totalPsfPixels := mk'.totalPsfPixels } ∧
      (∀ psf, mk.psf = some psf → Consec 0 (psfRegions mk'.objs) mk'.totalPsfPixels ∧
        ∀ o ∈ mk'.objs, ∀ s ∈ o.slots.take o.ncutout.toNat, PsfSlotOk psf o.sky s) := by
  unfold buildLayout at h
  obtain ⟨objs0, h0, h⟩ := Res.bind_eq_ok.mp h
  obtain ⟨objs1, h1, h⟩ := Res.bind_eq_ok.mp h
  obtain ⟨objs2, h2, h⟩ := Res.bind_eq_ok.mp h
  obtain ⟨⟨objs3, e⟩, h3, h⟩ := Res.bind_eq_ok.mp h
  split at h
  · cases h
  · have hsub : ∀ o ∈ objs0, o ∈ mk.objs := by
      intro o ho
      unfold trim at h0
      split at h0
      · split at h0
        · cases h0
        · dsimp only at h0
          split at h0
          · cases h0
          · injection h0 with h0
            subst h0
            exact (List.mem_filter.mp ho).1
      · injection h0 with h0
        subst h0; exact ho
    obtain ⟨w, hw2, hwle, hwex, hres⟩ := resize_ok h2
    have f1 := forall₂_and_left (fold_layoutFile h1) (P := fun o => o.ncutout = 0 ∧ o.slots = List.replicate nmax Slot.dflt)
      (fun o ho => hfresh o (hsub o ho))
    have f2 := forall₂_and_left hres (P := fun o : ObjRow => o.ncutout ≤ (w : Int)) hwle
    have L2 : List.Forall₂ (LaidOut mk.cfg mk.images w) objs0 objs2 :=
      forall₂_trans f1 f2 (fun a b c hab hbc => laidOut_first hab.1 hab.2 hbc.1 hbc.2)
    obtain ⟨s1, s2⟩ := setStartRows_ok h3
    have L3 : List.Forall₂ (LaidOut mk.cfg mk.images w) objs0 objs3 :=
      forall₂_trans L2 s1 (fun a b c hab hbc => laidOut_stage hab hbc)
    have hex2 : w = 2 ∨ ∃ o ∈ objs2, o.ncutout = w := by
      rcases hwex with h | ⟨o, ho, hn⟩
      · exact .inl h
      · right
        obtain ⟨i, hi, rfl⟩ := List.mem_iff_getElem.mp ho
        have hl := hres.length_eq
        have := (List.forall₂_iff_get.mp hres).2 i hi (by omega)
        refine ⟨objs2[i]'(by omega), List.getElem_mem _, ?_⟩
        simp only [List.get_eq_getElem] at this
        rw [this.2]; exact hn
    have hex3 : ∀ {objsA objsB : List ObjRow}, List.Forall₂ (fun o o' : ObjRow => o' = { o with slots := o'.slots }) objsA objsB →
        (w = 2 ∨ ∃ o ∈ objsA, o.ncutout = w) → (w = 2 ∨ ∃ o ∈ objsB, o.ncutout = w) := by
      intro A B hAB hh
      rcases hh with h | ⟨o, ho, hn⟩
      · exact .inl h
      · right
        obtain ⟨i, hi, rfl⟩ := List.mem_iff_getElem.mp ho
        have hl := hAB.length_eq
        have := (List.forall₂_iff_get.mp hAB).2 i hi (by omega)
        refine ⟨B[i]'(by omega), List.getElem_mem _, ?_⟩
        simp only [List.get_eq_getElem] at this
        rw [this]; exact hn
    have hacc : mk.cfg.firstImageIsCoadd = true → mk.cfg.checkInCoadd = true →
        ∀ im rest, mk.images = im :: rest → ∀ o ∈ objs0, accepted mk.cfg 0 im o = true := by
      intro c1 c2 im rest him
      apply fold_layoutFile_accepted h1 c1 c2 im ((numbered mk.images).tail)
      rw [him]
      simp [numbered, List.range_succ_eq_map]
    have e3 := hex3 (s1.imp (fun a b h => h.1)) hex2
    cases hpsf : mk.psf with
    | none =>
      rw [hpsf] at h
      injection h with h
      subst h
      exact ⟨objs0, w, h0, hw2, e3, L3, hacc, s2, by simp, by simp⟩
    | some psf =>
      rw [hpsf] at h
      obtain ⟨⟨objs4, e'⟩, h4, h⟩ := Res.bind_eq_ok.mp h
      injection h with h
      subst h
      obtain ⟨p1, p2, p3⟩ := setPsfLayout_ok h4
      refine ⟨objs0, w, h0, hw2, hex3 (p1.imp (fun a b h => h.1)) e3, ?_, hacc, ?_, by simp, ?_⟩
      · exact forall₂_trans L3 p1 (fun a b c hab hbc => laidOut_stage hab ⟨hbc.1, hbc.2.1, hbc.2.2.1, hbc.2.2.2.1, hbc.2.2.2.2.2⟩)
      · rw [regions_eq_of_startRow (p1.imp (fun a b h => ⟨h.1, h.2.2.2.2.1⟩))]
        exact s2
      · intro psf' hp
        injection hp with hp
        subst hp
        exact ⟨p2, p3⟩

end Maker
end Meds
