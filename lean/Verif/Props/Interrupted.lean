import Verif.Lemmas.Steps
import Verif.Examples.Maker

/-!
# C53: a write that is interrupted leaves a prefix of the finished file

`Maker.steps` lists every operation `write` performs on the output file, in order.
The first theorem says that executing the list is `write`.
The second describes the file after any number of operations.
-/

namespace Meds
namespace Spec

/-- An HDU that is not yet finished: identical to the final one, or an image of the final size whose pixels are final or still zero. -/
def HduBefore (h final : Hdu) : Prop :=
  h = final ∨ ∃ pix pix' : List ℚ, h = .image pix ∧ final = .image pix' ∧ pix.length = pix'.length ∧
    ∀ p, p < pix'.length → pix[p]? = some 0 ∨ pix[p]? = pix'[p]?

/-- An unfinished file: its HDUs are the first ones of the finished file, in the same order and with the same names. -/
def FileBefore (part final : List (String × Hdu)) : Prop :=
  part.length ≤ final.length ∧
  ∀ (j : Nat) (n : String) (h : Hdu), part[j]? = some (n, h) → ∃ h', final[j]? = some (n, h') ∧ HduBefore h h'

end Spec

namespace Maker
open Spec

/-- Recursive form of `FileBefore`. -/
def Bef : List (String × Hdu) → List (String × Hdu) → Prop
  | [], _ => True
  | _ :: _, [] => False
  | x :: t, y :: t' => x.1 = y.1 ∧ HduBefore x.2 y.2 ∧ Bef t t'

theorem Bef.fileBefore {a b : List (String × Hdu)} (h : Bef a b) : FileBefore a b := by
  induction a generalizing b with
  | nil => exact ⟨by simp, by simp⟩
  | cons x t ih =>
    cases b with
    | nil => cases h
    | cons y t' =>
      obtain ⟨h1, h2, h3⟩ := h
      obtain ⟨i1, i2⟩ := ih h3
      refine ⟨by simpa using i1, ?_⟩
      intro j n hd hj
      cases j with
      | zero =>
        simp only [List.getElem?_cons_zero, Option.some.injEq] at hj
        subst hj
        exact ⟨y.2, by simp [show n = y.1 from h1], h2⟩
      | succ j =>
        simp only [List.getElem?_cons_succ] at hj ⊢
        exact i2 j n hd hj

theorem Bef.refl (a : List (String × Hdu)) : Bef a a := by
  induction a with
  | nil => trivial
  | cons x t ih => exact ⟨rfl, .inl rfl, ih⟩

theorem Bef.take {a b : List (String × Hdu)} (h : Bef a b) (k : Nat) : Bef (a.take k) b := by
  induction a generalizing b k with
  | nil => simp [Bef]
  | cons x t ih =>
    cases k with
    | zero => simp [Bef]
    | succ k =>
      cases b with
      | nil => cases h
      | cons y t' => exact ⟨h.1, h.2.1, ih h.2.2 k⟩

theorem Bef.put {ext : String} {s : Int} {d T : List ℚ} {F hs hs' : List (String × Hdu)} (hb : Bef hs F)
    (hF : Fits.lookup F ext = some (.image T)) (ha : AgreesWith T s d)
    (h : modifyImage ext (fun buf => overwrite buf s d) hs = .ok hs') : Bef hs' F := by
  induction hs generalizing F hs' with
  | nil => cases h
  | cons x t ih =>
    obtain ⟨n, hd⟩ := x
    cases F with
    | nil => cases hb
    | cons y t' =>
      obtain ⟨m, hd'⟩ := y
      obtain ⟨h1, h2, h3⟩ := hb
      have h1 : n = m := h1
      subst h1
      simp only [Fits.lookup] at hF
      simp only [modifyImage] at h
      split at h
      · rename_i e
        rw [if_pos e] at hF
        injection hF with hF
        subst hF
        split at h
        · rename_i pix
          obtain ⟨pix', hg, h⟩ := Res.bind_eq_ok.mp h
          injection h with h
          subst h
          have hp : Partial 0 T pix := by
            rcases h2 with h2 | ⟨p, p', e1, e2, e3, e4⟩
            · simp only [Hdu.image.injEq] at h2; subst h2; exact Partial.refl _ _
            · simp only [Hdu.image.injEq] at e1 e2
              subst e1 e2
              exact ⟨e3, e4⟩
          have hq := hp.overwrite ha hg
          exact ⟨rfl, .inr ⟨pix', T, rfl, rfl, hq.1, hq.2⟩, h3⟩
        · cases h
      · rename_i e
        rw [if_neg e] at hF
        obtain ⟨t'', ht, h⟩ := Res.bind_eq_ok.mp h
        injection h with h
        subst h
        exact ⟨rfl, h2, ih h3 hF ht⟩

/-- Same HDUs up to the values of pixels. -/
def SameShape (a b : List (String × Hdu)) : Prop :=
  List.Forall₂ (fun x y : String × Hdu => x.1 = y.1 ∧ (x.2 = y.2 ∨ ∃ p p' : List ℚ, x.2 = .image p ∧ y.2 = .image p' ∧ p.length = p'.length)) a b

theorem SameShape.refl (a : List (String × Hdu)) : SameShape a a := by
  induction a with
  | nil => exact .nil
  | cons x t ih => exact .cons ⟨rfl, .inl rfl⟩ ih

theorem SameShape.put {ext : String} {s : Int} {d : List ℚ} {a hs hs' : List (String × Hdu)} (hb : SameShape a hs)
    (h : modifyImage ext (fun buf => overwrite buf s d) hs = .ok hs') : SameShape a hs' := by
  unfold SameShape at hb
  induction hb generalizing hs' with
  | nil => cases h
  | @cons x y t t' hxy _ ih =>
    obtain ⟨n, hd⟩ := y
    simp only [modifyImage] at h
    split at h
    · split at h
      · rename_i pix
        obtain ⟨pix', hg, h⟩ := Res.bind_eq_ok.mp h
        injection h with h
        subst h
        obtain ⟨_, _, hl, _⟩ := overwrite_ok hg
        refine .cons ⟨hxy.1, .inr ?_⟩ (by assumption)
        rcases hxy.2 with e | ⟨p, p', e1, e2, e3⟩
        · exact ⟨pix, pix', e, rfl, hl.symm⟩
        · injection e2 with e2
          exact ⟨p, pix', e1, rfl, by rw [e3, hl, e2]⟩
      · cases h
    · obtain ⟨t'', ht, h⟩ := Res.bind_eq_ok.mp h
      injection h with h
      subst h
      exact .cons hxy (ih ht)

/-- Image HDUs hold only zeros. -/
def Blank (a : List (String × Hdu)) : Prop := ∀ x ∈ a, ∀ p, x.2 = .image p → ∀ v ∈ p, v = 0

theorem SameShape.bef {a b c : List (String × Hdu)} (h : SameShape a b) (hz : Blank a) : Bef a (b ++ c) := by
  unfold SameShape at h
  induction h with
  | nil => trivial
  | @cons x y t t' hxy _ ih =>
    refine ⟨hxy.1, ?_, ih (fun z hz' => hz z (by simp [hz']))⟩
    rcases hxy.2 with e | ⟨p, p', e1, e2, e3⟩
    · exact .inl e
    · refine .inr ⟨p, p', e1, e2, e3, fun q hq => .inl ?_⟩
      have hq' : q < p.length := by omega
      rw [List.getElem?_eq_getElem hq', hz x (by simp) p e1 _ (List.getElem_mem hq')]

/-- Steps that only write pixels agreeing with the finished file. -/
def GoodPuts (F : List (String × Hdu)) (l : List (Res WriteOp)) : Prop :=
  ∀ r ∈ l, ∀ op, r = .ok op → ∃ ext s d T, op = .put ext s d ∧ Fits.lookup F ext = some (.image T) ∧ AgreesWith T s d

theorem run_puts {F : List (String × Hdu)} {l : List (Res WriteOp)} (hl : GoodPuts F l) {a hs hs' : List (String × Hdu)}
    (hr : runSteps hs l = .ok hs') : (Bef hs F → Bef hs' F) ∧ (SameShape a hs → SameShape a hs') := by
  induction l generalizing hs with
  | nil => simp only [runSteps, foldRes] at hr; injection hr with hr; subst hr; exact ⟨id, id⟩
  | cons r t ih =>
    obtain ⟨m, hm, hr⟩ := foldRes_cons_ok.mp hr
    obtain ⟨op, hop, hm⟩ := Res.bind_eq_ok.mp hm
    obtain ⟨ext, s, d, T, rfl, hF, ha⟩ := hl r (by simp) op hop
    obtain ⟨i1, i2⟩ := ih (fun r hr => hl r (by simp [hr])) hr
    exact ⟨fun hb => i1 (hb.put hF ha hm), fun hs => i2 (hs.put hm)⟩

theorem mem_cutoutSteps {cfg : MakerCfg} {t : String} {fileId : Nat} {src : Img ℚ} {o : ObjRow} {n : Nat} {ss : List Slot}
    {op : WriteOp} (h : (.ok op : Res WriteOp) ∈ cutoutSteps cfg t fileId src o n ss) :
    ∃ s ∈ ss.take n, s.fileId = (fileId : Int) ∧ ∃ sub, subImage cfg t src o s = .ok sub ∧ op = .put (t ++ "_cutouts") s.startRow sub.flat := by
  induction n generalizing ss with
  | zero => simp [cutoutSteps] at h
  | succ n ih =>
    cases ss with
    | nil => simp [cutoutSteps] at h
    | cons s ss =>
      simp only [cutoutSteps, List.mem_append] at h
      rcases h with h | h
      · split at h
        · rename_i e
          simp only [List.mem_singleton] at h
          obtain ⟨sub, hsub, h⟩ := Res.bind_eq_ok.mp h.symm
          injection h with h
          exact ⟨s, by simp, e, sub, hsub, h.symm⟩
        · cases h
      · obtain ⟨s', hs', r⟩ := ih h
        exact ⟨s', by simp [hs'], r⟩

theorem mem_psfObjSteps {cfg : MakerCfg} {psf : List PsfModel} {sky : SkyPos} {n : Nat} {ss : List Slot}
    {op : WriteOp} (h : (.ok op : Res WriteOp) ∈ psfObjSteps cfg psf sky n ss) :
    ∃ s ∈ ss.take n, psfWrite cfg psf sky s = .ok op := by
  induction n generalizing ss with
  | zero => simp [psfObjSteps] at h
  | succ n ih =>
    cases ss with
    | nil => simp [psfObjSteps] at h
    | cons s ss =>
      simp only [psfObjSteps, List.mem_cons] at h
      rcases h with h | h
      · exact ⟨s, by simp, h.symm⟩
      · obtain ⟨s', hs', r⟩ := ih h
        exact ⟨s', by simp [hs'], r⟩

theorem goodPuts {mk : Maker} (hr : mk.Ready) {f : Fits} (hw : mk.writeData = .ok f)
    (hwf : ∀ psf, mk.psf = some psf → PsfWF psf) : GoodPuts f.hdus (mk.types.flatMap mk.typeSteps ++ mk.psfSteps) := by
  obtain ⟨_, _, _, w4, w5, _, _⟩ := writeData_ok hr hw
  intro r hmem op hop
  subst hop
  rcases List.mem_append.mp hmem with hmem | hmem
  · obtain ⟨t, ht, hmem⟩ := List.mem_flatMap.mp hmem
    obtain ⟨fi, hfi, hmem⟩ := List.mem_flatMap.mp hmem
    unfold fileSteps at hmem
    cases hri : readImage mk.cfg fi.2 t with
    | error e => rw [hri] at hmem; simp at hmem
    | ok q =>
      rw [hri] at hmem
      cases q with
      | none => simp at hmem
      | some src =>
        dsimp only at hmem
        obtain ⟨o, ho, hmem⟩ := List.mem_flatMap.mp hmem
        obtain ⟨s, hs, hid, sub, hsub, rfl⟩ := mem_cutoutSteps hmem
        refine ⟨_, _, _, target mk.cfg mk.images t mk.objs, rfl, w4 t ht, ?_⟩
        have hc := target_at (cfg := mk.cfg) (images := mk.images) (t := t) hr.tiled (mem_cells.mpr ⟨ho, hs⟩)
        rwa [content_eq hid (mem_numbered.mp hfi) hri hsub] at hc
  · unfold psfSteps at hmem
    cases hp : mk.psf with
    | none => rw [hp] at hmem; cases hmem
    | some psf =>
      rw [hp] at hmem
      dsimp only at hmem
      obtain ⟨o, ho, hmem⟩ := List.mem_flatMap.mp hmem
      obtain ⟨s, hs, hps⟩ := mem_psfObjSteps hmem
      obtain ⟨hd, hfp⟩ := w5 psf hp (hwf psf hp)
      have hc := psfTarget_at (cfg := mk.cfg) (hwf psf hp) hd (hr.psfTiled psf hp) (mem_cells.mpr ⟨ho, hs⟩)
      unfold psfWrite at hps
      obtain ⟨p, hpg, hps⟩ := Res.bind_eq_ok.mp hps
      dsimp only at hps
      split at hps
      · cases hps
      · injection hps with hps
        refine ⟨_, _, _, psfTarget mk.cfg psf mk.objs, hps.symm, hfp, ?_⟩
        unfold psfContent at hc
        rwa [hpg] at hc

theorem blank_reserved (mk : Maker) : Blank (mk.tableHdus ++ mk.reservedHdus) := by
  intro x hx p hp v hv
  simp only [tableHdus, reservedHdus, List.mem_append, List.mem_cons, List.not_mem_nil, or_false, List.mem_map] at hx
  rcases hx with (rfl | rfl | rfl) | (⟨t, _, rfl⟩ | hx)
  · cases hp
  · cases hp
  · cases hp
  · injection hp with hp
    subst hp
    exact List.eq_of_mem_replicate hv
  · cases hps : mk.psf with
    | none => rw [hps] at hx; cases hx
    | some q =>
      rw [hps] at hx
      simp only [List.mem_singleton] at hx
      subst hx
      injection hp with hp
      subst hp
      exact List.eq_of_mem_replicate hv

theorem appends_take (l : List (String × Hdu)) (k : Nat) : (appends l).take k = appends (l.take k) := by
  simp [appends, List.map_take]

/-- **C53 (the list of operations is the write).** -/
theorem C53_steps_are_write {cfg : MakerCfg} {hn : Bool} {objs : List InputObj} {images : List SrcImage}
    {psf : Option (List PsfModel)} {psfInfo : Option String} {md : String} {mk mk' : Maker} {f : Fits}
    (hi : init cfg hn objs images psf psfInfo md = .ok mk) (hw : mk.write = .ok (mk', f)) :
    runSteps [] mk'.steps = .ok f.hdus := by
  obtain ⟨w, in0, h⟩ := written hi hw
  have h := h.1
  rw [runSteps_eq_writeData mk' h.ready.types, h.write_eq]
  rfl

/-- **C53.** Stop a successful write after any number `k` of its operations.
The file on disk then holds the first HDUs of the finished file, in the same order and under the same names.
Tables that are present are identical to the finished ones.
Images that are present have the finished size, and each of their pixels is either the finished value or zero. -/
theorem C53_interrupted_write_is_prefix {cfg : MakerCfg} {hn : Bool} {objs : List InputObj} {images : List SrcImage}
    {psf : Option (List PsfModel)} {psfInfo : Option String} {md : String} {mk mk' : Maker} {f : Fits}
    (hi : init cfg hn objs images psf psfInfo md = .ok mk) (hw : mk.write = .ok (mk', f))
    (hwf : ∀ ps, psf = some ps → PsfWF ps) (k : Nat) :
    ∃ part, runSteps [] (mk'.steps.take k) = .ok part ∧ FileBefore part f.hdus := by
  obtain ⟨w, in0, h⟩ := written hi hw
  have h := h.1
  have hall := C53_steps_are_write hi hw
  have hgp := goodPuts h.ready h.write_eq (fun ps hps => hwf ps (by rw [← h.psf_eq]; exact hps))
  -- every prefix runs
  obtain ⟨part, hpart⟩ : ∃ part, runSteps [] (mk'.steps.take k) = .ok part := by
    rw [← List.take_append_drop k mk'.steps, runSteps_append] at hall
    obtain ⟨p, hp, _⟩ := Res.bind_eq_ok.mp hall
    exact ⟨p, hp⟩
  refine ⟨part, hpart, Bef.fileBefore ?_⟩
  set A := mk'.tableHdus ++ mk'.reservedHdus with hA
  set P := mk'.types.flatMap mk'.typeSteps ++ mk'.psfSteps with hP
  have hst : mk'.steps = appends A ++ (P ++ appends mk'.psfInfoHdus) := by
    unfold steps; rw [List.append_assoc]
  -- the first phase leaves reserved, blank images
  have hAF : Bef A f.hdus := by
    rw [hst, runSteps_append, runSteps_appends, List.nil_append] at hall
    simp only [Res.ok_bind] at hall
    rw [runSteps_append] at hall
    obtain ⟨h2, hh2, hall⟩ := Res.bind_eq_ok.mp hall
    rw [runSteps_appends] at hall
    injection hall with hall
    rw [← hall]
    exact ((run_puts hgp hh2).2 (SameShape.refl A)).bef (blank_reserved mk')
  rw [hst] at hpart
  by_cases hk : k ≤ (appends A).length
  · rw [List.take_append_of_le_length hk, appends_take, runSteps_appends, List.nil_append] at hpart
    injection hpart with hpart
    subst hpart
    exact hAF.take k
  · rw [List.take_append, List.take_of_length_le (by omega), runSteps_append, runSteps_appends, List.nil_append] at hpart
    simp only [Res.ok_bind] at hpart
    by_cases hk2 : k - (appends A).length ≤ P.length
    · rw [List.take_append_of_le_length hk2] at hpart
      exact (run_puts (a := A) (fun r hr => hgp r (List.mem_of_mem_take hr)) hpart).1 hAF
    · have hz : (appends mk'.psfInfoHdus).length ≤ 1 := by
        unfold appends psfInfoHdus
        cases mk'.psfInfo <;> simp
      rw [List.take_of_length_le (by rw [List.length_append]; omega)] at hpart
      rw [hst, runSteps_append, runSteps_appends, List.nil_append] at hall
      simp only [Res.ok_bind] at hall
      rw [hpart] at hall
      injection hall with hall
      subst hall
      exact Bef.refl _

/-- Steps that write pixels, whatever they are. -/
def OnlyPuts (l : List (Res WriteOp)) : Prop := ∀ r ∈ l, ∀ op, r = .ok op → ∃ ext s d, op = .put ext s d

theorem run_onlyPuts {l : List (Res WriteOp)} (hl : OnlyPuts l) {a hs hs' : List (String × Hdu)}
    (hr : runSteps hs l = .ok hs') (h : SameShape a hs) : SameShape a hs' := by
  induction l generalizing hs with
  | nil => simp only [runSteps, foldRes] at hr; injection hr with hr; subst hr; exact h
  | cons r t ih =>
    obtain ⟨m, hm, hr⟩ := foldRes_cons_ok.mp hr
    obtain ⟨op, hop, hm⟩ := Res.bind_eq_ok.mp hm
    obtain ⟨ext, s, d, rfl⟩ := hl r (by simp) op hop
    exact ih (fun r hr => hl r (by simp [hr])) hr (h.put hm)

theorem onlyPuts (mk : Maker) : OnlyPuts (mk.types.flatMap mk.typeSteps ++ mk.psfSteps) := by
  intro r hmem op hop
  subst hop
  rcases List.mem_append.mp hmem with hmem | hmem
  · obtain ⟨t, ht, hmem⟩ := List.mem_flatMap.mp hmem
    obtain ⟨fi, hfi, hmem⟩ := List.mem_flatMap.mp hmem
    unfold fileSteps at hmem
    cases hri : readImage mk.cfg fi.2 t with
    | error e => rw [hri] at hmem; simp at hmem
    | ok q =>
      rw [hri] at hmem
      cases q with
      | none => simp at hmem
      | some src =>
        dsimp only at hmem
        obtain ⟨o, ho, hmem⟩ := List.mem_flatMap.mp hmem
        obtain ⟨s, hs, hid, sub, hsub, rfl⟩ := mem_cutoutSteps hmem
        exact ⟨_, _, _, rfl⟩
  · unfold psfSteps at hmem
    cases hp : mk.psf with
    | none => rw [hp] at hmem; cases hmem
    | some psf =>
      rw [hp] at hmem
      dsimp only at hmem
      obtain ⟨o, ho, hmem⟩ := List.mem_flatMap.mp hmem
      obtain ⟨s, hs, hps⟩ := mem_psfObjSteps hmem
      unfold psfWrite at hps
      obtain ⟨p, hpg, hps⟩ := Res.bind_eq_ok.mp hps
      dsimp only at hps
      split at hps
      · cases hps
      · injection hps with hps
        exact ⟨_, _, _, hps.symm⟩

/-- **C53 (writes that fail).** Also when some later operation of the write raises: whatever is on disk after `k` completed operations
starts with the complete tables, and every image present already has its reserved size.
`expected` is the list of tables and reserved (blank) images that the write starts from. -/
theorem C53_failed_write_keeps_catalogue (mk : Maker) (k : Nat) {part : List (String × Hdu)}
    (h : runSteps [] (mk.steps.take k) = .ok part) :
    ∃ expected, expected <+: (mk.tableHdus ++ mk.reservedHdus ++ mk.psfInfoHdus) ∧ expected.length = part.length ∧
      ∀ (j : Nat) (n : String) (hd : Hdu), expected[j]? = some (n, hd) → ∃ hd', part[j]? = some (n, hd') ∧
        (hd = hd' ∨ ∃ p p' : List ℚ, hd = .image p ∧ hd' = .image p' ∧ p.length = p'.length) := by
  suffices hs : ∃ expected, expected <+: (mk.tableHdus ++ mk.reservedHdus ++ mk.psfInfoHdus) ∧ SameShape expected part by
    obtain ⟨e, h1, h2⟩ := hs
    refine ⟨e, h1, h2.length_eq, ?_⟩
    intro j n hd hj
    obtain ⟨hjl, hje⟩ := List.getElem?_eq_some_iff.mp hj
    have hjl' : j < part.length := by rw [← h2.length_eq]; exact hjl
    have := (List.forall₂_iff_get.mp h2).2 j hjl hjl'
    simp only [List.get_eq_getElem, hje] at this
    refine ⟨part[j].2, ?_, this.2⟩
    rw [List.getElem?_eq_getElem hjl', Option.some.injEq]
    exact Prod.ext this.1.symm rfl
  set A := mk.tableHdus ++ mk.reservedHdus with hA
  set P := mk.types.flatMap mk.typeSteps ++ mk.psfSteps with hP
  have hst : mk.steps = appends A ++ (P ++ appends mk.psfInfoHdus) := by
    unfold steps; rw [List.append_assoc]
  have hop := onlyPuts mk
  rw [hst] at h
  by_cases hk : k ≤ (appends A).length
  · rw [List.take_append_of_le_length hk, appends_take, runSteps_appends, List.nil_append] at h
    injection h with h
    subst h
    exact ⟨A.take k, (List.take_prefix k A).trans (List.prefix_append _ _), SameShape.refl _⟩
  · rw [List.take_append, List.take_of_length_le (by omega), runSteps_append, runSteps_appends, List.nil_append] at h
    simp only [Res.ok_bind] at h
    rw [List.take_append, runSteps_append] at h
    obtain ⟨h2, hh2, h⟩ := Res.bind_eq_ok.mp h
    have hs := run_onlyPuts (a := A) (fun r hr => hop r (List.mem_of_mem_take hr)) hh2 (SameShape.refl A)
    rw [appends_take, runSteps_appends] at h
    injection h with h
    subst h
    refine ⟨A ++ mk.psfInfoHdus.take (k - (appends A).length - P.length), ?_, ?_⟩
    · exact (List.prefix_append_right_inj A).mpr (List.take_prefix _ _)
    · have := SameShape.refl (mk.psfInfoHdus.take (k - (appends A).length - P.length))
      unfold SameShape at hs this ⊢
      exact List.rel_append hs this

end Maker
end Meds

namespace Meds.Ex

/-- Number of operations of the example write, the HDU count and the nonzero pixels of the first image after `k` of them. -/
def interrupted (k : Nat) : Option (Nat × Nat × Nat) :=
  match run cfg objs images (some psfs) with
  | .ok (mk', _) =>
    match runSteps [] (mk'.steps.take k) with
    | .ok hs => some (mk'.steps.length, hs.length, match Fits.lookup hs "image_cutouts" with
        | some (.image p) => (p.filter (· ≠ 0)).length
        | _ => 0)
    | .error _ => none
  | .error _ => none

-- the example write has 29 operations: 8 HDUs, then 15 cutouts and 5 PSF images, then the PSF table.
-- after 2 and 10 operations it is genuinely incomplete
example : interrupted 2 = some (29, 2, 0) := by decide +kernel
example : interrupted 10 = some (29, 8, 20) := by decide +kernel
example : interrupted 29 = some (29, 9, 42) := by decide +kernel

end Meds.Ex
