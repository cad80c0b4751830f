import Verif.Model.Preset
import Verif.Props.WriteTwice
import Verif.Props.Completion
import Verif.Examples.Maker

/-!
# Input catalogues with columns of the output (C63)
-/

namespace Meds

open Spec Maker

/-! ### The layout of a catalogue with epochs in it -/

/-- The part of a slot that the loop over the images fills. -/
def place (s : Slot) : Slot := { core s with psfBoxSize := DEFVAL }

theorem place_newSlot (j : Nat) (im : SrcImage) (p : Pos) (o : ObjRow) (old : Slot) :
    place (newSlot j im p o old) = newSlot j im p o Slot.dflt := rfl

/-- The row after the loop over the images: the new epochs stand after those that were there. -/
theorem fold_stepObj_any {cfg : MakerCfg} {L : List (Nat × SrcImage)} {o o' : ObjRow} {n : Nat} (hn : o.ncutout = n) (hle : n ≤ o.slots.length)
    (h : foldRes (stepObj cfg) o L = .ok o') :
    ∃ S : List Slot, o' = { o with slots := S, ncutout := (n : Int) + (acceptedIn cfg o L).length } ∧ S.length = o.slots.length ∧
      n + (acceptedIn cfg o L).length ≤ S.length ∧ S.take n = o.slots.take n ∧
      ((S.drop n).take (acceptedIn cfg o L).length).map place = (acceptedIn cfg o L).map (epochOf cfg o) ∧
      S.drop (n + (acceptedIn cfg o L).length) = o.slots.drop (n + (acceptedIn cfg o L).length) := by
  induction L generalizing o n with
  | nil =>
    simp only [foldRes] at h
    injection h with h
    subst h
    refine ⟨o.slots, ?_, rfl, by simpa [acceptedIn] using hle, rfl, by simp [acceptedIn], rfl⟩
    cases o
    simp only at hn
    subst hn
    simp [acceptedIn]
  | cons x xs ih =>
    obtain ⟨t, ht, h⟩ := foldRes_cons_ok.mp h
    unfold stepObj at ht
    split at ht
    · rename_i hacc
      unfold addEpoch at ht
      obtain ⟨k, hk, ht⟩ := Res.bind_eq_ok.mp ht
      obtain ⟨old, hold, ht⟩ := Res.bind_eq_ok.mp ht
      injection ht with ht
      have hlt := pyIndex_ok hk
      have hkn := pyIndex_ok_nonneg hk (by omega)
      have hkn' : k = n := by omega
      subst hkn'
      have hacc' : ∀ y : Nat × SrcImage, accepted cfg y.1 y.2 t = accepted cfg y.1 y.2 o := by
        intro y; rw [← ht]; rfl
      have hep : epochOf cfg t = epochOf cfg o := by rw [← ht]; rfl
      have hin : acceptedIn cfg o (x :: xs) = x :: acceptedIn cfg t xs := by
        unfold acceptedIn
        rw [List.filter_cons_of_pos (by simpa using hacc)]
        congr 1
        apply List.filter_congr
        intro y _
        rw [hacc' y]
      obtain ⟨S, h1, h2, h3, h4, h5, h6⟩ := ih (o := t) (n := k + 1) (by rw [← ht]; simp [hn]) (by rw [← ht]; simp; omega) h
      rw [hin]
      have htl : t.slots.length = o.slots.length := by rw [← ht]; simp
      have hts : t.slots = o.slots.set k (newSlot x.1 x.2 (finalPos cfg x.1 x.2 o) o old) := by rw [← ht]
      generalize acceptedIn cfg t xs = A at h1 h3 h5 h6
      have hSk : S.take (k + 1) = o.slots.take k ++ [newSlot x.1 x.2 (finalPos cfg x.1 x.2 o) o old] := by
        rw [h4, hts, List.take_set, List.take_succ_eq_append_getElem hlt,
          List.set_append_right _ _ (by rw [List.length_take]; omega)]
        simp [Nat.min_eq_left hlt.le]
      have hS : S = (o.slots.take k ++ [newSlot x.1 x.2 (finalPos cfg x.1 x.2 o) o old]) ++ S.drop (k + 1) := by
        conv_lhs => rw [← List.take_append_drop (k + 1) S]
        rw [hSk]
      have hdk : S.drop k = newSlot x.1 x.2 (finalPos cfg x.1 x.2 o) o old :: S.drop (k + 1) := by
        conv_lhs => rw [hS]
        rw [List.append_assoc, List.drop_left' (by rw [List.length_take]; omega)]
        rfl
      refine ⟨S, ?_, by omega, by simp; omega, ?_, ?_, ?_⟩
      · rw [h1, ← ht]
        simp only [List.length_cons, ObjRow.mk.injEq, true_and, and_true]
        push_cast
        ring
      · have := congrArg (List.take k) hSk
        rw [List.take_take, Nat.min_eq_left (by omega)] at this
        rw [this, List.take_left' (by rw [List.length_take]; omega)]
      · rw [hdk, List.length_cons, List.take_succ_cons, List.map_cons, h5, hep, List.map_cons, place_newSlot]
        rfl
      · rw [List.length_cons, show k + (A.length + 1) = k + 1 + A.length from by ring, h6, hts, List.drop_set_of_lt (by omega)]
    · rename_i hacc
      injection ht with ht
      subst ht
      have hin : acceptedIn cfg o (x :: xs) = acceptedIn cfg o xs := by
        unfold acceptedIn
        rw [List.filter_cons_of_neg (by simpa using hacc)]
      rw [hin]
      exact ih hn hle h

/-- What the layout makes of a row that may have epochs in it. -/
def Grown (cfg : MakerCfg) (images : List SrcImage) (w : Nat) (o o' : ObjRow) : Prop :=
  o' = { o with ncutout := o.ncutout + (acceptedIn cfg o (numbered images)).length, slots := o'.slots } ∧ o'.slots.length = w ∧
    o.ncutout.toNat + (acceptedIn cfg o (numbered images)).length ≤ w ∧ w ≤ o.slots.length ∧
    (o'.slots.take o.ncutout.toNat).map place = (o.slots.take o.ncutout.toNat).map place ∧
    ((o'.slots.drop o.ncutout.toNat).take (acceptedIn cfg o (numbered images)).length).map place =
      (acceptedIn cfg o (numbered images)).map (epochOf cfg o) ∧
    o'.slots.drop (o.ncutout.toNat + (acceptedIn cfg o (numbered images)).length) =
      (o.slots.drop (o.ncutout.toNat + (acceptedIn cfg o (numbered images)).length)).take
        (w - (o.ncutout.toNat + (acceptedIn cfg o (numbered images)).length))

theorem map_place_of_core {a b : List Slot} (h : a.map core = b.map core) : a.map place = b.map place := by
  have e : ∀ l : List Slot, l.map place = (l.map core).map (fun s => { s with psfBoxSize := DEFVAL }) := by
    intro l; rw [List.map_map]; rfl
  rw [e, e, h]

theorem fold_stepObj_length {cfg : MakerCfg} {L : List (Nat × SrcImage)} {o o' : ObjRow} (h : foldRes (stepObj cfg) o L = .ok o') :
    o'.slots.length = o.slots.length := by
  induction L generalizing o with
  | nil =>
    simp only [foldRes] at h
    injection h with h
    rw [h]
  | cons x xs ih =>
    obtain ⟨t, ht, h⟩ := foldRes_cons_ok.mp h
    rw [ih h]
    unfold stepObj at ht
    split at ht
    · unfold addEpoch at ht
      obtain ⟨k, _, ht⟩ := Res.bind_eq_ok.mp ht
      obtain ⟨old, _, ht⟩ := Res.bind_eq_ok.mp ht
      injection ht with ht
      rw [← ht]
      simp
    · injection ht with ht
      rw [ht]

theorem grown_first {cfg : MakerCfg} {images : List SrcImage} {w : Nat} {a b c : ObjRow} (hn : 0 ≤ a.ncutout)
    (hab : foldRes (stepObj cfg) a (numbered images) = .ok b) (hw : b.ncutout ≤ w)
    (hbc : w ≤ b.slots.length ∧ c = { b with slots := b.slots.take w }) : Grown cfg images w a c := by
  have hle : a.ncutout.toNat ≤ a.slots.length := by
    have h1 := (fold_stepObj_counts hab).1
    have h2 := fold_stepObj_length hab
    have h3 := hbc.1
    omega
  obtain ⟨S, h1, h2, h3, h4, h5, h6⟩ := fold_stepObj_any (n := a.ncutout.toNat) (by omega) hle hab
  obtain ⟨g1, g2⟩ := hbc
  subst h1
  unfold Grown
  generalize acceptedIn cfg a (numbered images) = A at *
  generalize hnn : a.ncutout.toNat = n at *
  have hnc : a.ncutout = n := by omega
  dsimp only at hw g1 g2
  have hwn : n + A.length ≤ w := by omega
  refine ⟨?_, ?_, ?_, by omega, ?_, ?_, ?_⟩
  · rw [g2, hnc]
  · rw [g2]; simp; omega
  · exact hwn
  · rw [g2]
    dsimp only
    rw [List.take_take, Nat.min_eq_left (by omega), h4]
  · rw [g2]
    dsimp only
    rw [List.drop_take, List.take_take, Nat.min_eq_left (by omega), h5]
  · rw [g2]
    dsimp only
    rw [List.drop_take, h6]

theorem grown_stage {cfg : MakerCfg} {images : List SrcImage} {w : Nat} {a b c : ObjRow} (hn : 0 ≤ a.ncutout) (hab : Grown cfg images w a b)
    (hbc : c = { b with slots := c.slots } ∧ b.ncutout.toNat ≤ b.slots.length ∧ c.slots.length = b.slots.length ∧
        c.slots.map core = b.slots.map core ∧ c.slots.drop b.ncutout.toNat = b.slots.drop b.ncutout.toNat) : Grown cfg images w a c := by
  obtain ⟨h1, h2, h3, h4, h5, h6, h7⟩ := hab
  obtain ⟨g1, g2, g3, g4, g5⟩ := hbc
  have hp := map_place_of_core g4
  have hnb : b.ncutout.toNat = a.ncutout.toNat + (acceptedIn cfg a (numbered images)).length := by
    rw [h1]; dsimp only; omega
  refine ⟨?_, by omega, h3, h4, ?_, ?_, ?_⟩
  · rw [g1, h1]
  · rw [List.map_take, hp, ← List.map_take, h5]
  · rw [List.map_take, List.map_drop, hp, ← List.map_drop, ← List.map_take, h6]
  · rw [← hnb, g5, hnb, h7]

theorem buildLayout_grown {mk mk' : Maker} (h : mk.buildLayout = .ok mk') (hpos : ∀ o ∈ mk.objs, 0 ≤ o.ncutout) :
    ∃ objs0 w, trim mk.cfg mk.images mk.objs = .ok objs0 ∧ List.Forall₂ (Grown mk.cfg mk.images w) objs0 mk'.objs ∧ mk'.types = mk.types := by
  unfold buildLayout at h
  obtain ⟨objs0, h0, h⟩ := Res.bind_eq_ok.mp h
  obtain ⟨objs1, h1, h⟩ := Res.bind_eq_ok.mp h
  obtain ⟨objs2, h2, h⟩ := Res.bind_eq_ok.mp h
  obtain ⟨⟨objs3, e⟩, h3, h⟩ := Res.bind_eq_ok.mp h
  split at h
  · cases h
  have hsub := trim_sub h0
  have hp0 : ∀ o ∈ objs0, 0 ≤ o.ncutout := fun o ho => hpos o (hsub o ho)
  obtain ⟨w, _, hwle, _, hres⟩ := resize_ok h2
  have f1 := forall₂_and_left (fold_layoutFile h1) hp0
  have f2 := forall₂_and_left hres (P := fun o : ObjRow => o.ncutout ≤ (w : Int)) hwle
  have L2 : List.Forall₂ (fun a c => 0 ≤ a.ncutout ∧ Grown mk.cfg mk.images w a c) objs0 objs2 :=
    forall₂_trans f1 f2 (fun a b c hab hbc => ⟨hab.1, grown_first hab.1 hab.2 hbc.1 hbc.2⟩)
  obtain ⟨s1, _⟩ := setStartRows_ok h3
  have L3 : List.Forall₂ (fun a c => 0 ≤ a.ncutout ∧ Grown mk.cfg mk.images w a c) objs0 objs3 :=
    forall₂_trans L2 s1 (fun a b c hab hbc => ⟨hab.1, grown_stage hab.1 hab.2 hbc⟩)
  cases hpsf : mk.psf with
  | none =>
    rw [hpsf] at h
    injection h with h
    subst h
    exact ⟨objs0, w, h0, L3.imp (fun _ _ h => h.2), rfl⟩
  | some psf =>
    rw [hpsf] at h
    obtain ⟨⟨objs4, e'⟩, h4, h⟩ := Res.bind_eq_ok.mp h
    injection h with h
    subst h
    obtain ⟨p1, _, _⟩ := setPsfLayout_ok h4
    exact ⟨objs0, w, h0, forall₂_trans L3 p1 (fun a b c hab hbc =>
      grown_stage hab.1 hab.2 ⟨hbc.1, hbc.2.1, hbc.2.2.1, hbc.2.2.2.1, hbc.2.2.2.2.2⟩), rfl⟩

/-- The entry of the per-epoch columns that the input has at epoch `k`: its own, or the default. -/
def Spec.presetAt (a : InputObj × Preset) (k : Nat) : Slot :=
  match a.2.slots with
  | none => Slot.dflt
  | some [s] => s
  | some ss => ss[k]?.getD Slot.dflt

/-- The two slots describe the same cutout: image, position and corner. -/
def Spec.SamePlace (s s' : Slot) : Prop :=
  s.fileId = s'.fileId ∧ s.origRow = s'.origRow ∧ s.origCol = s'.origCol ∧ s.origStartRow = s'.origStartRow ∧ s.origStartCol = s'.origStartCol ∧
    s.cutoutRow = s'.cutoutRow ∧ s.cutoutCol = s'.cutoutCol

/-- The row `o` of the file for the input row `a`: first the epochs the input claims to have, then one for each image covering the object. -/
def Spec.OnTop (cfg : MakerCfg) (images : List SrcImage) (a : InputObj × Preset) (o : ObjRow) : Prop :=
  let n0 := a.2.ncutout.getD 0
  let cover := coveringImages cfg images a.1.sky
  o.id = a.1.id ∧ o.sky = a.1.sky ∧ o.ncutout = n0 + cover.length ∧ n0 + cover.length ≤ (initialNmax cfg images.length : Int) ∧
    (∀ k : Nat, (k : Int) < n0 → ∃ s, o.slots[k]? = some s ∧ SamePlace s (presetAt a k)) ∧
    (∀ k j : Nat, cover[k]? = some j → ∃ s, o.slots[n0.toNat + k]? = some s ∧ s.fileId = (j : Int))

theorem fullRowPre_ok {nmax : Nat} {a : InputObj × Preset} {o : ObjRow} (h : fullRowPre nmax a = .ok o) :
    o.id = a.1.id ∧ o.sky = a.1.sky ∧ o.ncutout = a.2.ncutout.getD 0 ∧ o.slots.length = nmax ∧ ∀ k < nmax, o.slots[k]? = some (presetAt a k) := by
  unfold fullRowPre at h
  dsimp only at h
  have b : (countedRow nmax a).id = a.1.id ∧ (countedRow nmax a).sky = a.1.sky ∧ (countedRow nmax a).ncutout = a.2.ncutout.getD 0 ∧
      (countedRow nmax a).slots = List.replicate nmax Slot.dflt := by
    unfold countedRow
    cases a.2.ncutout <;> exact ⟨rfl, rfl, rfl, rfl⟩
  obtain ⟨b1, b2, b3, b4⟩ := b
  generalize countedRow nmax a = o0 at h b1 b2 b3 b4
  unfold presetAt
  split at h
  · rename_i hs
    injection h with h
    subst h
    rw [hs]
    refine ⟨b1, b2, b3, by rw [b4]; simp, fun k hk => ?_⟩
    rw [b4, List.getElem?_replicate, if_pos hk]
  · rename_i s hs
    injection h with h
    subst h
    rw [hs]
    refine ⟨b1, b2, b3, by simp, fun k hk => ?_⟩
    dsimp only
    rw [List.getElem?_replicate, if_pos hk]
  · rename_i ss hne hs
    split at h
    · rename_i hl
      injection h with h
      subst h
      rw [hs]
      refine ⟨b1, b2, b3, hl, fun k hk => ?_⟩
      dsimp only
      have hk' : k < ss.length := by omega
      rw [List.getElem?_eq_getElem hk']
      split
      · rename_i heq
        cases heq
      · rename_i s heq
        injection heq with heq
        exact absurd heq (hne s)
      · rename_i ss' _ heq
        injection heq with heq
        subst heq
        rw [List.getElem?_eq_getElem hk']
        rfl
    · cases h

section
variable {cfg : MakerCfg} {hn : Bool} {objs : List (InputObj × Preset)} {images : List SrcImage} {psf : Option (List PsfModel)}
  {psfInfo : Option String} {md : String} {mk mk' : Maker} {f : Fits} {m : MEDS}

/-- **C63 (partial)** When the input has neither per-epoch columns nor counts other than zero, the file is that of the input without these columns.  Missing: counts
that are not zero, see `C63_on_top` and `C63_empty_epoch_counterexample`. -/
theorem C63_counts_zero_partial (h : ∀ a ∈ objs, (a.2.ncutout = none ∨ a.2.ncutout = some 0) ∧ a.2.slots = none) :
    initPre cfg hn objs images psf psfInfo md = Maker.init cfg hn (objs.map Prod.fst) images psf psfInfo md := by
  unfold initPre
  cases hi : Maker.init cfg hn (objs.map Prod.fst) images psf psfInfo md with
  | error e => rfl
  | ok mk =>
    rw [Res.ok_bind]
    have hm : mapRes (fullRowPre (initialNmax cfg images.length)) objs = .ok ((objs.map Prod.fst).map (fullRow (initialNmax cfg images.length))) := by
      rw [mapRes_ok_iff, List.map_map, List.forall₂_map_right_iff, List.forall₂_same]
      intro a ha
      obtain ⟨h1, h2⟩ := h a ha
      unfold fullRowPre countedRow
      rw [h2]
      rcases h1 with h1 | h1 <;> rw [h1] <;> rfl
    rw [hm, Res.ok_bind]
    have := (init_ok hi).2.2.2.2.2.2.2.1
    cases mk
    simp only at this ⊢
    rw [this]

/-- **C63 (what happens)** The epochs found are put after as many as the input claims to have.  So an object gets that many cutouts more than there are images
covering it, the first of them with the image number and position of the input, or with the image number -9999; and the write completes only if all of them fit. -/
theorem C63_on_top (hi : initPre cfg hn objs images psf psfInfo md = .ok mk) (hw : mk.write = .ok (mk', f)) (ho : MEDS.openFile f = .ok m)
    (hpos : ∀ a ∈ objs, 0 ≤ a.2.ncutout.getD 0) :
    List.Forall₂ (OnTop cfg images) (objs.filter (fun a => kept cfg images a.1.sky)) m.cat.rows := by
  unfold initPre at hi
  obtain ⟨mk0, hi0, hi⟩ := Res.bind_eq_ok.mp hi
  obtain ⟨rows, hrows, hi⟩ := Res.bind_eq_ok.mp hi
  injection hi with hi
  obtain ⟨e1, e2, e3, e4, e5, e6, e7, e8, e9⟩ := init_ok hi0
  have c1 : mk.cfg = cfg := by rw [← hi]; exact e1
  have c2 : mk.images = images := by rw [← hi]; exact e2
  have c3 : mk.types = mk0.types := by rw [← hi]
  have c4 : mk.objs = rows.map forceEven := by rw [← hi]
  clear hi
  have hrows' := mapRes_ok_iff.mp hrows
  have hR : List.Forall₂ (fun a o => o.id = a.1.id ∧ o.sky = a.1.sky ∧ o.ncutout = a.2.ncutout.getD 0 ∧ o.slots.length = initialNmax cfg images.length ∧
      ∀ k < initialNmax cfg images.length, o.slots[k]? = some (presetAt a k)) objs mk.objs := by
    rw [c4, List.forall₂_map_right_iff]
    refine hrows'.imp ?_
    intro a o h
    obtain ⟨h1, h2, h3, h4, h5⟩ := fullRowPre_ok h
    obtain ⟨g1, g2, g3, g4, _⟩ := forceEven_fresh o
    rw [g1, g2, g3, g4]
    exact ⟨h1, h2, h3, h4, h5⟩
  have hp : ∀ o ∈ mk.objs, 0 ≤ o.ncutout := by
    intro o hoo
    obtain ⟨i, hi, rfl⟩ := List.mem_iff_getElem.mp hoo
    have hl := hR.length_eq
    have := (List.forall₂_iff_get.mp hR).2 i (by omega) hi
    simp only [List.get_eq_getElem] at this
    rw [this.2.2.1]
    exact hpos _ (List.getElem_mem _)
  obtain ⟨hb, hd⟩ := write_ok hw
  obtain ⟨objs0, w, t0, hG, ht⟩ := buildLayout_grown hb hp
  have hcat : m.cat.rows = mk'.objs := by
    have hsup : ∀ t ∈ mk'.types, t ∈ supportedTypes := by
      rw [ht, c3]; exact (setCutoutTypes_ok e6).2
    have := writeData_catalogue hsup hd
    unfold MEDS.openFile at ho
    rw [this] at ho
    dsimp only at ho
    split at ho
    · split at ho
      · injection ho with ho; rw [← ho]
      · cases ho
    · cases ho
  rw [hcat]
  rw [c1, c2] at hG t0
  -- trimming keeps the same objects
  have h0 : List.Forall₂ (fun a o => o.id = a.1.id ∧ o.sky = a.1.sky ∧ o.ncutout = a.2.ncutout.getD 0 ∧ o.slots.length = initialNmax cfg images.length ∧
      ∀ k < initialNmax cfg images.length, o.slots[k]? = some (presetAt a k)) (objs.filter (fun a => kept cfg images a.1.sky)) objs0 := by
    unfold trim at t0
    split at t0
    · rename_i hc
      cases images with
      | nil => cases t0
      | cons im rest =>
        dsimp only at t0
        split at t0
        · cases t0
        · injection t0 with t0
          rw [← t0]
          have key : ∀ (A : List (InputObj × Preset)) (B : List ObjRow), List.Forall₂ (fun a o => o.id = a.1.id ∧ o.sky = a.1.sky ∧
              o.ncutout = a.2.ncutout.getD 0 ∧ o.slots.length = initialNmax cfg (im :: rest).length ∧
              ∀ k < initialNmax cfg (im :: rest).length, o.slots[k]? = some (presetAt a k)) A B →
              List.Forall₂ (fun a o => o.id = a.1.id ∧ o.sky = a.1.sky ∧ o.ncutout = a.2.ncutout.getD 0 ∧
                o.slots.length = initialNmax cfg (im :: rest).length ∧ ∀ k < initialNmax cfg (im :: rest).length, o.slots[k]? = some (presetAt a k))
                (A.filter (fun a => kept cfg (im :: rest) a.1.sky)) (B.filter (accepted cfg 0 im)) := by
            intro A B h
            induction h with
            | nil => exact .nil
            | @cons a b A' B' hab _ ih =>
              have hk : kept cfg (im :: rest) a.1.sky = accepted cfg 0 im b := by
                unfold kept
                rw [if_pos hc]
                dsimp only
                rw [Bool.eq_iff_iff, accepted_iff, hab.2.1]
                simp
              rw [List.filter_cons, List.filter_cons, hk]
              split
              · exact .cons hab ih
              · exact ih
          exact key _ _ hR
    · rename_i hc
      injection t0 with t0
      rw [← t0]
      have : objs.filter (fun a => kept cfg images a.1.sky) = objs := by
        apply List.filter_eq_self.mpr
        intro a _
        unfold kept
        rw [if_neg hc]
      rw [this]
      exact hR
  refine forall₂_trans (forall₂_and_left h0 (P := fun a => 0 ≤ a.2.ncutout.getD 0) (fun a ha => hpos a (List.mem_filter.mp ha).1)) hG ?_
  rintro a b c ⟨q0, q1, q2, q3, q4, q5⟩ ⟨g1, g2, g3, g4, g5, g6, g7⟩
  have hA : (acceptedIn cfg b (numbered images)).map Prod.fst = coveringImages cfg images a.1.sky := by rw [acceptedIn_ids, q2]
  have hAl : (acceptedIn cfg b (numbered images)).length = (coveringImages cfg images a.1.sky).length := by rw [← hA, List.length_map]
  refine ⟨by rw [g1]; exact q1, by rw [g1]; exact q2, by rw [g1]; dsimp only; rw [q3, hAl], ?_, ?_, ?_⟩
  · rw [← hAl, ← q3, ← q4]; omega
  · intro k hk
    have hkn : k < b.ncutout.toNat := by omega
    have hkc : k < c.slots.length := by omega
    refine ⟨c.slots[k], List.getElem?_eq_getElem hkc, ?_⟩
    have e := congrArg (fun l => l[k]?) g5
    simp only [List.getElem?_map, List.getElem?_take, if_pos hkn, List.getElem?_eq_getElem hkc] at e
    rw [q5 k (by omega)] at e
    simp only [Option.map_some, Option.some.injEq] at e
    have ef : ∀ (F : Slot → ℚ), (∀ s, F (place s) = F s) → F c.slots[k] = F (presetAt a k) := fun F hF => by rw [← hF, e, hF]
    have ei : ∀ (F : Slot → Int), (∀ s, F (place s) = F s) → F c.slots[k] = F (presetAt a k) := fun F hF => by rw [← hF, e, hF]
    exact ⟨ei (·.fileId) (fun _ => rfl), ef (·.origRow) (fun _ => rfl), ef (·.origCol) (fun _ => rfl), ei (·.origStartRow) (fun _ => rfl),
      ei (·.origStartCol) (fun _ => rfl), ef (·.cutoutRow) (fun _ => rfl), ef (·.cutoutCol) (fun _ => rfl)⟩
  · intro k j hkj
    have hkl : k < (acceptedIn cfg b (numbered images)).length := by rw [hAl]; exact (List.getElem?_eq_some_iff.mp hkj).1
    have hb : b.ncutout.toNat = (a.2.ncutout.getD 0).toNat := by rw [q3]
    have hkc : b.ncutout.toNat + k < c.slots.length := by omega
    refine ⟨c.slots[b.ncutout.toNat + k], by rw [← hb]; exact List.getElem?_eq_getElem hkc, ?_⟩
    have e := congrArg (fun l => l[k]?) g6
    simp only [List.getElem?_map, List.getElem?_take, if_pos hkl, List.getElem?_drop, List.getElem?_eq_getElem hkc, List.getElem?_eq_getElem hkl,
      Option.map_some, Option.some.injEq] at e
    rw [← hA, List.getElem?_map, List.getElem?_eq_getElem hkl] at hkj
    simp only [Option.map_some, Option.some.injEq] at hkj
    have : (place c.slots[b.ncutout.toNat + k]).fileId = (j : Int) := by rw [e, ← hkj]; rfl
    exact this

end

/-- The example run with counts in the input. -/
def Ex.runPre (n : List Preset) (psf : Option (List PsfModel)) : Res MEDS := do
  let mk ← Maker.initPre Ex.cfg true (Ex.objs.zip n) Ex.images psf (some "pi") "meta"
  let r ← mk.write
  MEDS.openFile r.2

-- the file of an input that counts one epoch of the first object: the two images covering it come second and third
example : (match Ex.runPre [⟨some 1, none⟩, ⟨some 0, none⟩] none with
    | .ok m => decide (m.cat.rows.map (·.ncutout) = [3, 3] ∧ m.cat.rows.map (fun o => o.slots.map (·.fileId)) = [[-9999, 0, 1], [0, 1, 2]])
    | .error _ => false) = true := by decide +kernel

-- epoch columns of another width than that of the maker; the cutouts of the example have place for three
example (s : Slot) : (Maker.fullRowPre 3 (Ex.obj 10 3 (5/2) (7/3), ⟨none, some [s, s]⟩)).map (·.slots.length) = .error .valueError ∧
    (Maker.fullRowPre 3 (Ex.obj 10 3 (5/2) (7/3), ⟨none, some [s]⟩)).map (·.slots) = .ok [s, s, s] := ⟨rfl, rfl⟩

/-- **C63** is false: with a count of one in the input the first cutout of the object is of no image (its number is -9999) and all zero, and the coadd is its second
cutout; where no slot is left, or where there are PSFs, the write raises an IndexError. -/
theorem C63_empty_epoch_counterexample :
    (match Ex.runPre [⟨some 1, none⟩, ⟨some 0, none⟩] none with
      | .ok m => match m.getCutout 0 0 "image", m.getCutout 0 1 "image" with
        | .ok a, .ok b => decide (m.cat.rows.map (fun o => o.slots.map (·.fileId)) = [[-9999, 0, 1], [0, 1, 2]] ∧ a.flat = List.replicate 16 0 ∧ b.flat ≠ a.flat)
        | _, _ => false
      | .error _ => false) = true ∧
    (match Ex.runPre [⟨some 0, none⟩, ⟨some 1, none⟩] none with | .error e => decide (e = .indexError) | .ok _ => false) = true ∧
    (match Ex.runPre [⟨some 1, none⟩, ⟨some 0, none⟩] (some Ex.psfs) with | .error e => decide (e = .indexError) | .ok _ => false) = true := by
  decide +kernel

end Meds
