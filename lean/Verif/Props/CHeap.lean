import Verif.Model.CHeap
import Verif.Lemmas.Basic
import Mathlib.Data.List.Nodup
import Mathlib.Data.List.TakeWhile

/-!
# C86: the memory of the C reader

Claim as first stated: a program that opens a file, frees what it gets and calls `meds_free` leaves nothing behind.  This is false (`C86_counterexample`).
`C86_exact_partial` says how many blocks stay behind, for every file and every program, and that nothing is freed twice.
-/

namespace Meds.Spec
open C

/-- The columns of `metadata` the reader asks for, in order, and whether it takes them for strings. -/
def metaColumns : List (String × Bool) :=
  [("cat_file", true), ("coadd_file", true), ("coadd_srclist", true), ("cutout_file", true), ("magzp_ref", false), ("DESDATA", true),
   ("se_hdu", false), ("se_wt_hdu", false), ("se_badpix_hdu", false), ("sky_hdu", false), ("seg_hdu", false), ("coadd_hdu", false), ("coadd_wt_hdu", false),
   ("coadd_seg_hdu", false), ("fake_coadd_seg", false), ("coaddcat_file", true), ("medsconf", true), ("min_boxsize", true), ("max_boxsize", true)]

/-- The columns before the first one that is missing or cannot be read. -/
def readColumns (m : String → Col) : List (String × Bool) := metaColumns.takeWhile (fun c => m c.1 == .good)

/-- The columns from there on. -/
def spoiltColumns (m : String → Col) : List (String × Bool) := metaColumns.dropWhile (fun c => m c.1 == .good)

/-- Blocks lost by one opening and closing of a file with this table: one for each string column that is there but comes after a failure, and the one for `DESDATA`. -/
def metaLost (m : String → Col) : Nat :=
  (spoiltColumns m).countP (fun c => c.2 && m c.1 != .absent) + (if ("DESDATA", true) ∈ readColumns m then 1 else 0)

/-- The file has a table of objects with all columns. -/
def hasObjects (f : FileView) (rows : List RowView) : Prop := f.opens = true ∧ f.objects = some rows ∧ rows ≠ [] ∧ f.columns = true

/-- The file can be opened, and this is its metadata. -/
def Opens (f : FileView) (m : String → Col) : Prop :=
  (∃ rows, hasObjects f rows ∧ ∀ r ∈ rows, r.fails = none) ∧ (∃ info, f.info = some info ∧ info ≠ [] ∧ ∀ r ∈ info, r = true) ∧ f.metadata = some m

/-- A read of the table of objects fails. -/
def RowFails (f : FileView) : Prop := ∃ rows, hasObjects f rows ∧ ∃ r ∈ rows, r.fails ≠ none

/-- The operations that ask for an extension that is not there. -/
def missing : Op → Bool
  | .cutout .noExtension => true
  | .pointer .noExtension => true
  | _ => false

/-- Blocks lost by a program. -/
inductive Lost (f : FileView) (ops : List Op) : Nat → Prop
  | opened {m : String → Col} (h : Opens f m) : Lost f ops (metaLost m + ops.countP missing)
  | rowFails (h : RowFails f) : Lost f ops 4
  | notOpened (h : ∀ m, ¬ Opens f m) (h' : ¬ RowFails f) : Lost f ops 0

/-- No block is in use twice, and the next one is not in use. -/
def Fresh (h : Heap) : Prop := h.live.Nodup ∧ ∀ b ∈ h.live, b < h.next

end Meds.Spec

namespace Meds.C
open Spec

/-- From `h` to `h'`, after which the blocks `L` are in use. -/
structure Leads (h h' : Heap) (L : List Nat) : Prop where
  live : h'.live.Perm L
  fresh : Fresh h → Fresh h'

theorem Leads.refl {h : Heap} {L : List Nat} (hp : h.live.Perm L) : Leads h h L := ⟨hp, id⟩

theorem Leads.trans {h h' h'' : Heap} {L L' : List Nat} (a : Leads h h' L) (b : Leads h' h'' L') : Leads h h'' L' :=
  ⟨b.live, fun x => b.fresh (a.fresh x)⟩

theorem Leads.perm {h h' : Heap} {L L' : List Nat} (a : Leads h h' L) (p : L.Perm L') : Leads h h' L' := ⟨a.live.trans p, a.fresh⟩

theorem malloc_leads (h : Heap) : Leads h (malloc h).2 ((malloc h).1 :: h.live) := by
  refine ⟨List.Perm.refl _, fun hf => ?_⟩
  constructor
  · exact List.nodup_cons.mpr ⟨fun hb => Nat.lt_irrefl _ (hf.2 _ hb), hf.1⟩
  · intro b hb
    rcases List.mem_cons.mp hb with rfl | hb
    · exact Nat.lt_succ_self _
    · exact Nat.lt_succ_of_lt (hf.2 b hb)

theorem malloc_leads' {h : Heap} {L : List Nat} (hp : h.live.Perm L) : Leads h (malloc h).2 ((malloc h).1 :: L) :=
  (malloc_leads h).perm (hp.cons _)

theorem free_leads {h : Heap} {b : Nat} {L : List Nat} (hp : h.live.Perm (b :: L)) : ∃ h', free h (some b) = .ok h' ∧ Leads h h' L := by
  have hm : b ∈ h.live := hp.mem_iff.mpr (List.mem_cons_self ..)
  refine ⟨{ h with live := h.live.erase b }, by simp only [free, hm, if_true], ?_, ?_⟩
  · exact ((List.perm_cons_erase hm).symm.trans hp).cons_inv
  · intro hf
    exact ⟨hf.1.erase b, fun c hc => hf.2 c (List.mem_of_mem_erase hc)⟩

theorem freeOpt_leads {h : Heap} {o : Option Nat} {L : List Nat} (hp : h.live.Perm (o.toList ++ L)) : ∃ h', free h o = .ok h' ∧ Leads h h' L := by
  cases o with
  | none => exact ⟨h, rfl, Leads.refl hp⟩
  | some b => exact free_leads hp

theorem mallocs_leads (n : Nat) (h : Heap) : Leads h (mallocs n h).2 ((mallocs n h).1 ++ h.live) ∧ (mallocs n h).1.length = n := by
  induction n generalizing h with
  | zero => exact ⟨Leads.refl (List.Perm.refl _), rfl⟩
  | succ n ih =>
    obtain ⟨h1, h2⟩ := ih (malloc h).2
    refine ⟨((malloc_leads h).trans h1).perm ?_, by simp only [mallocs, List.length_cons, h2]⟩
    have := (malloc_leads h).live
    simp only [mallocs]
    exact ((List.Perm.append_left _ this).trans (List.perm_middle))

theorem frees_leads {ps L : List Nat} {h : Heap} (hp : h.live.Perm (ps ++ L)) : ∃ h', frees h ps = .ok h' ∧ Leads h h' L := by
  induction ps generalizing h with
  | nil => exact ⟨h, rfl, Leads.refl hp⟩
  | cons p ps ih =>
    obtain ⟨h1, e1, l1⟩ := free_leads hp
    obtain ⟨h2, e2, l2⟩ := ih l1.live
    exact ⟨h2, foldRes_cons_ok.mpr ⟨h1, e1, e2⟩, l1.trans l2⟩

theorem freess_leads {ps : List (List Nat)} {L : List Nat} {h : Heap} (hp : h.live.Perm (ps.flatten ++ L)) :
    ∃ h', foldRes frees h ps = .ok h' ∧ Leads h h' L := by
  induction ps generalizing h with
  | nil => exact ⟨h, rfl, Leads.refl hp⟩
  | cons p ps ih =>
    rw [List.flatten_cons, List.append_assoc] at hp
    obtain ⟨h1, e1, l1⟩ := frees_leads hp
    obtain ⟨h2, e2, l2⟩ := ih l1.live
    exact ⟨h2, foldRes_cons_ok.mpr ⟨h1, e1, e2⟩, l1.trans l2⟩

theorem fieldsNew_leads (k n : Nat) (h : Heap) : Leads h (fieldsNew k n h).2 ((fieldsNew k n h).1.flatten ++ h.live) := by
  induction n generalizing h with
  | zero => exact Leads.refl (List.Perm.refl _)
  | succ n ih =>
    have h1 := (mallocs_leads k h).1
    refine (h1.trans (ih _)).perm ?_
    have := h1.live
    simp only [fieldsNew, List.flatten_cons]
    refine (List.Perm.append_left _ this).trans ?_
    rw [← List.append_assoc]
    exact List.perm_append_comm.append_right _

/-- The blocks of a catalogue. -/
def CatMem.blocks (c : CatMem) : List Nat := c.self :: c.data :: c.objs.flatten

theorem catLike (k n : Nat) (h : Heap) {c : CatMem} {h' : Heap}
    (hc : c = ⟨(malloc h).1, (malloc (malloc h).2).1, (fieldsNew k n (malloc (malloc h).2).2).1⟩) (hh : h' = (fieldsNew k n (malloc (malloc h).2).2).2) :
    Leads h h' (c.blocks ++ h.live) := by
  subst hc hh
  have h1 := malloc_leads h
  have h2 := malloc_leads (malloc h).2
  have h3 := fieldsNew_leads k n (malloc (malloc h).2).2
  refine ((h1.trans h2).trans h3).perm ?_
  have p1 := h1.live
  have p2 := h2.live
  simp only [CatMem.blocks, List.cons_append]
  refine (List.Perm.append_left _ p2).trans ?_
  refine (List.Perm.append_left _ (p1.cons _)).trans ?_
  refine List.perm_middle.trans ?_
  exact (List.Perm.cons _ List.perm_middle).trans (List.Perm.swap ..)

theorem catNew_leads (n : Nat) (h : Heap) : Leads h (catNew n h).2 ((catNew n h).1.blocks ++ h.live) := catLike 9 n h rfl rfl

theorem infoNew_leads (n : Nat) (h : Heap) : Leads h (infoNew n h).2 ((infoNew n h).1.blocks ++ h.live) := catLike 4 n h rfl rfl

theorem catFree_leads {h : Heap} {c : CatMem} {L : List Nat} (hp : h.live.Perm (c.blocks ++ L)) : ∃ h', catFree h (some c) = .ok h' ∧ Leads h h' L := by
  have hp' : h.live.Perm (c.objs.flatten ++ c.data :: c.self :: L) := by
    refine hp.trans ?_
    simp only [CatMem.blocks, List.cons_append]
    exact ((List.Perm.swap ..).trans (List.Perm.cons _ List.perm_middle.symm)).trans List.perm_middle.symm
  obtain ⟨h1, e1, l1⟩ := freess_leads hp'
  obtain ⟨h2, e2, l2⟩ := free_leads l1.live
  obtain ⟨h3, e3, l3⟩ := free_leads l2.live
  refine ⟨h3, ?_, (l1.trans l2).trans l3⟩
  simp only [catFree, e1, e2, e3, Res.ok_bind]

theorem infoFree_leads {h : Heap} {c : CatMem} {L : List Nat} (hp : h.live.Perm (c.blocks ++ L)) : ∃ h', infoFree h (some c) = .ok h' ∧ Leads h h' L :=
  catFree_leads hp

theorem loadRows_leads {rows : List RowView} {nd : Nat} {t L : List Nat} {h : Heap} (ht : t.length = 4) (hp : h.live.Perm (t ++ L)) :
    ∃ o h' t', loadRows rows nd t h = .ok (o, h') ∧ t'.length = 4 ∧ Leads h h' (t' ++ L) ∧
      (((∀ r ∈ rows, r.fails = none) ∧ o = some t') ∨ ((∃ r ∈ rows, r.fails ≠ none) ∧ o = none)) := by
  induction rows generalizing nd t h with
  | nil => exact ⟨some t, h, t, rfl, ht, Leads.refl hp, .inl ⟨by simp, rfl⟩⟩
  | cons r rs ih =>
    by_cases hlt : (r.fails.any (· < 10)) = true
    · refine ⟨none, h, t, ?_, ht, Leads.refl hp, .inr ⟨⟨r, List.mem_cons_self .., ?_⟩, rfl⟩⟩
      · simp only [loadRows, hlt, if_true]
      · intro hn
        rw [hn] at hlt
        exact absurd hlt (by simp)
    · have key : ∃ nd' t' h', (if r.ncutout > nd then do
          let h ← frees h t
          .ok (r.ncutout, mallocs 4 h)
        else .ok (nd, t, h) : Res (Nat × List Nat × Heap)) = .ok (nd', t', h') ∧ t'.length = 4 ∧ Leads h h' (t' ++ L) := by
        by_cases hn : r.ncutout > nd
        · obtain ⟨h1, e1, l1⟩ := frees_leads hp
          obtain ⟨l2, k2⟩ := mallocs_leads 4 h1
          refine ⟨r.ncutout, (mallocs 4 h1).1, (mallocs 4 h1).2, ?_, k2, ?_⟩
          · rw [if_pos hn, e1, Res.ok_bind]
          · exact (l1.trans l2).perm (List.Perm.append_left _ l1.live)
        · exact ⟨nd, t, h, by rw [if_neg hn], ht, Leads.refl hp⟩
      obtain ⟨nd', t', h', e, k, l⟩ := key
      have step : loadRows (r :: rs) nd t h = if r.fails.isSome then .ok (none, h') else loadRows rs nd' t' h' := by
        rw [loadRows, if_neg hlt, e, Res.ok_bind]
      by_cases hs : r.fails.isSome = true
      · refine ⟨none, h', t', ?_, k, l, .inr ⟨⟨r, List.mem_cons_self .., ?_⟩, rfl⟩⟩
        · rw [step, if_pos hs]
        · intro hn
          rw [hn] at hs
          exact absurd hs (by simp)
      · obtain ⟨o, h2, t2, e2, k2, l2, hor⟩ := ih (nd := nd') k l.live
        refine ⟨o, h2, t2, by rw [step, if_neg hs, e2], k2, l.trans l2, ?_⟩
        rcases hor with ⟨ha, ho⟩ | ⟨⟨q, hq, hf⟩, ho⟩
        · left
          refine ⟨fun q hq => ?_, ho⟩
          rcases List.mem_cons.mp hq with rfl | hq
          · exact Option.not_isSome_iff_eq_none.mp hs
          · exact ha q hq
        · right
          exact ⟨⟨q, List.mem_cons_of_mem _ hq, hf⟩, ho⟩

theorem loadTable_leads (rows : List RowView) (h : Heap) :
    ∃ h' lost, Leads h h' (lost ++ h.live) ∧
      (((∀ r ∈ rows, r.fails = none) ∧ loadTable true rows h = .ok (true, h') ∧ lost = []) ∨
        ((∃ r ∈ rows, r.fails ≠ none) ∧ loadTable true rows h = .ok (false, h') ∧ lost.length = 4)) := by
  obtain ⟨l1, k1⟩ := mallocs_leads 4 h
  obtain ⟨o, h2, t2, e2, k2, l2, hor⟩ := loadRows_leads (rows := rows) (nd := 20) k1 l1.live
  rcases hor with ⟨ha, rfl⟩ | ⟨ha, rfl⟩
  · obtain ⟨h3, e3, l3⟩ := frees_leads l2.live
    refine ⟨h3, [], (l1.trans l2).trans l3, .inl ⟨ha, ?_, rfl⟩⟩
    simp only [loadTable, e2, Res.ok_bind, e3, Bool.true_eq_false, if_false]
  · refine ⟨h2, t2, l1.trans l2, .inr ⟨ha, ?_, k2⟩⟩
    simp only [loadTable, e2, Res.ok_bind, Bool.true_eq_false, if_false]

/-- What `read_object_table` does in each case. -/
theorem readObjectTable_leads (f : FileView) (hop : f.opens = true) (h : Heap) :
    ∃ o h' lost, readObjectTable f h = .ok (o, h') ∧ Leads h h' ((o.elim [] CatMem.blocks) ++ lost ++ h.live) ∧
      (((∃ rows, hasObjects f rows ∧ ∀ r ∈ rows, r.fails = none) ∧ o.isSome ∧ lost = []) ∨ (RowFails f ∧ o = none ∧ lost.length = 4) ∨
        ((∀ rows, ¬ hasObjects f rows) ∧ o = none ∧ lost = [])) := by
  cases hob : f.objects with
  | none =>
    refine ⟨none, h, [], by simp only [readObjectTable, hob], Leads.refl (List.Perm.refl _), .inr (.inr ⟨?_, rfl, rfl⟩)⟩
    rintro rows ⟨-, h2, -⟩
    rw [hob] at h2
    cases h2
  | some rows =>
    by_cases hr : rows.length = 0
    · refine ⟨none, h, [], by simp only [readObjectTable, hob, hr, if_true], Leads.refl (List.Perm.refl _), .inr (.inr ⟨?_, rfl, rfl⟩)⟩
      rintro rows' ⟨-, h2, h3, -⟩
      rw [hob] at h2
      injection h2 with h2
      exact h3 (h2 ▸ List.length_eq_zero_iff.mp hr)
    · have l1 := catNew_leads rows.length h
      have hne : rows ≠ [] := fun e => hr (by rw [e]; rfl)
      cases hcol : f.columns with
      | false =>
        obtain ⟨h3, e3, l3⟩ := catFree_leads l1.live
        refine ⟨none, h3, [], ?_, l1.trans l3, .inr (.inr ⟨?_, rfl, rfl⟩)⟩
        · simp only [readObjectTable, hob, hr, if_false, hcol, loadTable, if_true, Res.ok_bind, e3]
          rfl
        · rintro rows' ⟨-, -, -, h4⟩
          rw [hcol] at h4
          cases h4
      | true =>
        have ho : hasObjects f rows := ⟨hop, hob, hne, hcol⟩
        obtain ⟨h2, lost, l2, hor⟩ := loadTable_leads rows (catNew rows.length h).2
        rcases hor with ⟨ha, e2, rfl⟩ | ⟨ha, e2, k2⟩
        · refine ⟨some (catNew rows.length h).1, h2, [], ?_, ?_, .inl ⟨⟨rows, ho, ha⟩, rfl, rfl⟩⟩
          · simp only [readObjectTable, hob, hr, if_false, hcol, e2, Res.ok_bind, if_true]
          · refine (l1.trans l2).perm ?_
            simpa using l1.live
        · have p : h2.live.Perm ((catNew rows.length h).1.blocks ++ (lost ++ h.live)) := by
            refine l2.live.trans ((List.Perm.append_left _ l1.live).trans ?_)
            rw [← List.append_assoc, ← List.append_assoc]
            exact List.perm_append_comm.append_right _
          obtain ⟨h3, e3, l3⟩ := catFree_leads p
          refine ⟨none, h3, lost, ?_, (l1.trans l2).trans l3, .inr (.inl ⟨⟨rows, ho, ha⟩, rfl, k2⟩)⟩
          simp only [readObjectTable, hob, hr, if_false, hcol, e2, Res.ok_bind, e3]
          rfl

theorem readImageInfo_leads (f : FileView) (h : Heap) :
    ∃ o h', readImageInfo f h = .ok (o, h') ∧ Leads h h' ((o.elim [] CatMem.blocks) ++ h.live) ∧
      (o.isSome ↔ ∃ info, f.info = some info ∧ info ≠ [] ∧ ∀ r ∈ info, r = true) := by
  cases hob : f.info with
  | none => exact ⟨none, h, by simp only [readImageInfo, hob], Leads.refl (List.Perm.refl _), by simp⟩
  | some rows =>
    by_cases hr : rows.length = 0
    · refine ⟨none, h, by simp only [readImageInfo, hob, hr, if_true], Leads.refl (List.Perm.refl _), ?_⟩
      have := List.length_eq_zero_iff.mp hr
      simp [this]
    · have l1 := infoNew_leads rows.length h
      have hne : rows ≠ [] := fun e => hr (by rw [e]; rfl)
      cases hall : rows.all id with
      | true =>
        refine ⟨some (infoNew rows.length h).1, (infoNew rows.length h).2, ?_, l1, ?_⟩
        · simp only [readImageInfo, hob, hr, if_false, hall, if_true]
        · simp only [Option.isSome_some, true_iff]
          exact ⟨rows, rfl, hne, by simpa using hall⟩
      | false =>
        obtain ⟨h3, e3, l3⟩ := infoFree_leads l1.live
        refine ⟨none, h3, ?_, l1.trans l3, ?_⟩
        · simp only [readImageInfo, hob, hr, if_false, hall, e3]
          rfl
        · simp only [Option.isSome_none, Bool.false_eq_true, false_iff]
          rintro ⟨info, hi, -, ha⟩
          injection hi with hi
          subst hi
          have : rows.all id = true := List.all_eq_true.mpr (fun r hr => ha r hr)
          rw [this] at hall
          cases hall

/-- The columns of a list of entries. -/
def asColumns (es : List (String × Kind)) : List (String × Bool) := es.map (fun e => (e.1, decide (e.2 = .string ∨ e.2 = .atol)))

theorem metaEntries_columns : asColumns metaEntries = metaColumns := by decide +kernel

/-- The blocks of the strings that could be read. -/
def strBlocks (l : List (String × Option Nat)) : List Nat := (l.map (fun e => e.2.toList)).flatten

/-- A string column that is there. -/
def present (m : String → Col) (c : String × Bool) : Bool := c.2 && m c.1 != .absent

/-- Which strings of these columns can be read. -/
def readable (m : String → Col) (st : Bool) (cs : List (String × Bool)) : List (String × Bool) :=
  if st then (cs.filter (·.2)).map (fun c => (c.1, false))
  else ((cs.takeWhile (fun c => m c.1 == .good)).filter (·.2)).map (fun c => (c.1, true)) ++
    ((cs.dropWhile (fun c => m c.1 == .good)).filter (·.2)).map (fun c => (c.1, false))

theorem absent_good : (Col.absent == Col.good) = false := rfl

theorem bad_good : (Col.bad == Col.good) = false := rfl

theorem readable_string (m : String → Col) (n : String) (cs : List (String × Bool)) (st : Bool) (h : st = true ∨ m n ≠ .good) :
    readable m st ((n, true) :: cs) = (n, false) :: readable m true cs := by
  cases st with
  | true => simp [readable]
  | false =>
    have hn : (m n == .good) = false := by
      rcases h with h | h
      · cases h
      · cases hm : m n with
        | good => exact absurd hm h
        | absent => rfl
        | bad => rfl
    simp [readable, hn]

theorem count_string (m : String → Col) (n : String) (b : Bool) (cs : List (String × Bool)) (st : Bool) (h : st = true ∨ m n ≠ .good) :
    (if st then (n, b) :: cs else ((n, b) :: cs).dropWhile (fun c => m c.1 == .good)).countP (present m) =
      cs.countP (present m) + (if present m (n, b) then 1 else 0) := by
  cases st with
  | true => simp [List.countP_cons]
  | false =>
    have hn : (m n == .good) = false := by
      rcases h with h | h
      · cases h
      · cases hm : m n with
        | good => exact absurd hm h
        | absent => rfl
        | bad => rfl
    simp [hn, List.countP_cons]

theorem metaReads_leads (m : String → Col) (es : List (String × Kind)) (st : Bool) (h : Heap) :
    ∃ lost, Leads h (metaReads m es st h).2 (strBlocks (metaReads m es st h).1 ++ lost ++ h.live) ∧
      lost.length = (if st then asColumns es else (asColumns es).dropWhile (fun c => m c.1 == .good)).countP (present m) ∧
      ((metaReads m es st h).1.map (fun e => (e.1, e.2.isSome))) = readable m st (asColumns es) := by
  induction es generalizing st h with
  | nil => exact ⟨[], Leads.refl (List.Perm.refl _), by cases st <;> rfl, by cases st <;> rfl⟩
  | cons e es ih =>
    by_cases hk : e.2 = .string ∨ e.2 = .atol
    · have hcols : asColumns (e :: es) = (e.1, true) :: asColumns es := by simp [asColumns, hk]
      have hreads : metaReads m (e :: es) st h = ((e.1, (stringByName (m e.1) st h).1.1) ::
          (metaReads m es (stringByName (m e.1) st h).1.2 (stringByName (m e.1) st h).2).1,
          (metaReads m es (stringByName (m e.1) st h).1.2 (stringByName (m e.1) st h).2).2) := by
        rw [metaReads, if_pos hk]
      rw [hreads, hcols]
      by_cases hgood : st = false ∧ m e.1 = .good
      · obtain ⟨rfl, hm⟩ := hgood
        obtain ⟨lost, l, k, r⟩ := ih false (malloc h).2
        have hs : stringByName (m e.1) false h = ((some (malloc h).1, false), (malloc h).2) := by simp [stringByName, hm]
        rw [hs]
        refine ⟨lost, ?_, ?_, ?_⟩
        · have := ((malloc_leads h).trans l).perm (List.Perm.append_left _ (malloc_leads h).live)
          exact this.perm List.perm_middle
        · simpa [hm] using k
        · simp only [List.map_cons, r, Option.isSome_some]
          simp [readable, hm]
      · have hor : st = true ∨ m e.1 ≠ .good := by
          cases st with
          | true => exact .inl rfl
          | false => exact .inr (fun hm => hgood ⟨rfl, hm⟩)
        rw [count_string m e.1 true _ st hor, readable_string m e.1 _ st hor]
        cases hm : m e.1 with
        | absent =>
          obtain ⟨lost, l, k, r⟩ := ih true h
          refine ⟨lost, l, ?_, ?_⟩
          · rw [if_pos rfl] at k
            simp only [k, present, hm]
            rfl
          · simp only [stringByName, List.map_cons, r, Option.isSome_none]
        | bad =>
          obtain ⟨lost, l, k, r⟩ := ih true (malloc h).2
          refine ⟨lost ++ [(malloc h).1], ?_, ?_, ?_⟩
          · have := ((malloc_leads h).trans l).perm (List.Perm.append_left _ (malloc_leads h).live)
            rw [List.append_assoc, List.append_assoc]
            rw [List.append_assoc] at this
            exact this
          · rw [if_pos rfl] at k
            simp only [List.length_append, List.length_singleton, k, present, hm]
            rfl
          · simp only [stringByName, List.map_cons, r, Option.isSome_none]
        | good =>
          have hst : st = true := by
            rcases hor with h | h
            · exact h
            · exact absurd hm h
          subst hst
          obtain ⟨lost, l, k, r⟩ := ih true (malloc h).2
          refine ⟨lost ++ [(malloc h).1], ?_, ?_, ?_⟩
          · have := ((malloc_leads h).trans l).perm (List.Perm.append_left _ (malloc_leads h).live)
            rw [List.append_assoc, List.append_assoc]
            rw [List.append_assoc] at this
            exact this
          · rw [if_pos rfl] at k
            simp only [List.length_append, List.length_singleton, k, present, hm]
            rfl
          · simp only [stringByName, if_true, List.map_cons, r, Option.isSome_none]
    · have hcols : asColumns (e :: es) = (e.1, false) :: asColumns es := by simp only [asColumns, List.map_cons, hk, decide_false]
      have hreads : metaReads m (e :: es) st h = metaReads m es (numberByName (m e.1) st) h := by rw [metaReads, if_neg hk]
      obtain ⟨lost, l, k, r⟩ := ih (numberByName (m e.1) st) h
      rw [hreads, hcols]
      refine ⟨lost, l, k.trans ?_, r.trans ?_⟩
      · cases st <;> cases hm : m e.1 <;> simp [numberByName, absent_good, bad_good, hm, present, bne]
      · cases st <;> cases hm : m e.1 <;>
          simp [numberByName, absent_good, bad_good, hm, readable, bne]

theorem readable_names (m : String → Col) (cs : List (String × Bool)) : (readable m false cs).map (·.1) = (cs.filter (·.2)).map (·.1) := by
  conv_rhs => rw [← List.takeWhile_append_dropWhile (p := fun c : String × Bool => m c.1 == .good) (l := cs)]
  simp only [readable, Bool.false_eq_true, if_false, List.map_append, List.map_map, List.filter_append]
  rfl

/-- The blocks `meds_meta_free` frees. -/
def MetaMem.blocks (m : MetaMem) : List Nat :=
  (m.str "cat_file").toList ++ ((m.str "coadd_file").toList ++ ((m.str "coaddcat_file").toList ++ ((m.str "coadd_srclist").toList ++
    ((m.str "cutout_file").toList ++ ((m.str "medsconf").toList ++ [m.self])))))

theorem metaFree_leads {h : Heap} {m : MetaMem} {L : List Nat} (hp : h.live.Perm (m.blocks ++ L)) : ∃ h', metaFree h (some m) = .ok h' ∧ Leads h h' L := by
  simp only [MetaMem.blocks, List.append_assoc] at hp
  obtain ⟨h1, e1, l1⟩ := freeOpt_leads hp
  obtain ⟨h2, e2, l2⟩ := freeOpt_leads l1.live
  obtain ⟨h3, e3, l3⟩ := freeOpt_leads l2.live
  obtain ⟨h4, e4, l4⟩ := freeOpt_leads l3.live
  obtain ⟨h5, e5, l5⟩ := freeOpt_leads l4.live
  obtain ⟨h6, e6, l6⟩ := freeOpt_leads l5.live
  obtain ⟨h7, e7, l7⟩ := free_leads l6.live
  refine ⟨h7, ?_, (((((l1.trans l2).trans l3).trans l4).trans l5).trans l6).trans l7⟩
  simp only [metaFree, foldRes, e1, e2, e3, e4, e5, e6, Res.ok_bind, e7]

/-- The nine strings. -/
def nine (o1 o2 o3 o4 o5 o6 o7 o8 o9 : Option Nat) : List (String × Option Nat) :=
  [("cat_file", o1), ("coadd_file", o2), ("coadd_srclist", o3), ("cutout_file", o4), ("DESDATA", o5), ("coaddcat_file", o6), ("medsconf", o7),
   ("min_boxsize", o8), ("max_boxsize", o9)]

theorem nine_blocks (self : Nat) (o1 o2 o3 o4 o5 o6 o7 o8 o9 : Option Nat) :
    (MetaMem.mk self (nine o1 o2 o3 o4 o5 o6 o7 o8 o9)).blocks =
      o1.toList ++ (o2.toList ++ (o6.toList ++ (o3.toList ++ (o4.toList ++ (o7.toList ++ [self]))))) := rfl

theorem nine_min (o1 o2 o3 o4 o5 o6 o7 o8 o9 : Option Nat) : ((nine o1 o2 o3 o4 o5 o6 o7 o8 o9).lookup "min_boxsize").join = o8 := rfl

theorem nine_max (o1 o2 o3 o4 o5 o6 o7 o8 o9 : Option Nat) : ((nine o1 o2 o3 o4 o5 o6 o7 o8 o9).lookup "max_boxsize").join = o9 := rfl

/-- `DESDATA` is read if and only if nothing fails up to there. -/
theorem desdata_read {m : String → Col} {l : List (String × Option Nat)} (hl : l.map (fun e => (e.1, e.2.isSome)) = readable m false metaColumns)
    {o : Option Nat} (ho : ("DESDATA", o) ∈ l) : o.isSome = true ↔ ("DESDATA", true) ∈ readColumns m := by
  have hmem : ("DESDATA", o.isSome) ∈ readable m false metaColumns := by
    rw [← hl]
    exact List.mem_map_of_mem (f := fun e : String × Option Nat => (e.1, e.2.isSome)) ho
  have hnd : ((readable m false metaColumns).map (·.1)).Nodup := by
    rw [readable_names]
    decide +kernel
  constructor
  · intro hs
    rw [hs] at hmem
    simp only [readable, Bool.false_eq_true, if_false, List.mem_append, List.mem_map, List.mem_filter] at hmem
    rcases hmem with ⟨c, ⟨hc, hb⟩, he⟩ | ⟨c, -, he⟩
    · injection he with h1 h2
      obtain ⟨c1, c2⟩ := c
      dsimp only at h1 hb
      subst h1 hb
      exact hc
    · injection he with h1 h2
      cases h2
  · intro hm
    have hmem' : ("DESDATA", true) ∈ readable m false metaColumns := by
      simp only [readable, Bool.false_eq_true, if_false, List.mem_append, List.mem_map, List.mem_filter]
      exact .inl ⟨("DESDATA", true), ⟨hm, rfl⟩, rfl⟩
    have := List.inj_on_of_nodup_map hnd hmem hmem' rfl
    injection this

theorem readMetaMem_leads {f : FileView} {m : String → Col} (hf : f.metadata = some m) (h : Heap) :
    ∃ mt h' lost, readMetaMem f h = .ok (some mt, h') ∧ Leads h h' (mt.blocks ++ (lost ++ h.live)) ∧ lost.length = metaLost m := by
  have l0 := malloc_leads h
  obtain ⟨lost, l1, k1, r1⟩ := metaReads_leads m metaEntries false (malloc h).2
  rw [metaEntries_columns] at k1 r1
  have names := congrArg (List.map Prod.fst) r1
  rw [List.map_map, show (List.map Prod.fst (readable m false metaColumns)) = _ from readable_names m metaColumns] at names
  have hdes : ∀ o, ("DESDATA", o) ∈ (metaReads m metaEntries false (malloc h).2).1 → (o.isSome = true ↔ ("DESDATA", true) ∈ readColumns m) :=
    fun o ho => desdata_read r1 ho
  generalize hr : metaReads m metaEntries false (malloc h).2 = r at *
  obtain ⟨strs, hp⟩ := r
  dsimp only at *
  obtain ⟨⟨n1, o1⟩, s1, rfl, hn1, names⟩ := List.map_eq_cons_iff.mp names
  obtain ⟨⟨n2, o2⟩, s2, rfl, hn2, names⟩ := List.map_eq_cons_iff.mp names
  obtain ⟨⟨n3, o3⟩, s3, rfl, hn3, names⟩ := List.map_eq_cons_iff.mp names
  obtain ⟨⟨n4, o4⟩, s4, rfl, hn4, names⟩ := List.map_eq_cons_iff.mp names
  obtain ⟨⟨n5, o5⟩, s5, rfl, hn5, names⟩ := List.map_eq_cons_iff.mp names
  obtain ⟨⟨n6, o6⟩, s6, rfl, hn6, names⟩ := List.map_eq_cons_iff.mp names
  obtain ⟨⟨n7, o7⟩, s7, rfl, hn7, names⟩ := List.map_eq_cons_iff.mp names
  obtain ⟨⟨n8, o8⟩, s8, rfl, hn8, names⟩ := List.map_eq_cons_iff.mp names
  obtain ⟨⟨n9, o9⟩, s9, rfl, hn9, names⟩ := List.map_eq_cons_iff.mp names
  have hs9 := List.map_eq_nil_iff.mp names
  subst hs9
  dsimp only [Function.comp] at hn1 hn2 hn3 hn4 hn5 hn6 hn7 hn8 hn9
  subst hn1 hn2 hn3 hn4 hn5 hn6 hn7 hn8 hn9
  have hd5 := hdes o5 (by simp)
  have p1 : hp.live.Perm (o8.toList ++ (o9.toList ++ ((o1.toList ++ (o2.toList ++ (o6.toList ++ (o3.toList ++ (o4.toList ++ (o7.toList ++ [(malloc h).1]))))))
      ++ ((lost ++ o5.toList) ++ h.live)))) := by
    refine l1.live.trans ((List.Perm.append_left _ l0.live).trans ?_)
    rw [List.perm_iff_count]
    intro x
    simp only [strBlocks, List.map_cons, List.map_nil, List.flatten_cons, List.flatten_nil, List.count_append, List.count_cons, List.count_nil]
    omega
  obtain ⟨h2, e2, l2⟩ := freeOpt_leads p1
  obtain ⟨h3, e3, l3⟩ := freeOpt_leads l2.live
  refine ⟨⟨(malloc h).1, nine o1 o2 o3 o4 o5 o6 o7 o8 o9⟩, h3, lost ++ o5.toList, ?_, ?_, ?_⟩
  · have hm : (malloc h).2 = (malloc h).2 := rfl
    simp only [readMetaMem, hf, hr]
    change (free hp (((nine o1 o2 o3 o4 o5 o6 o7 o8 o9).lookup "min_boxsize").join) >>= fun h =>
      free h (((nine o1 o2 o3 o4 o5 o6 o7 o8 o9).lookup "max_boxsize").join) >>= fun h => Except.ok (some _, h)) = _
    rw [nine_min, nine_max, e2, Res.ok_bind, e3, Res.ok_bind]
    rfl
  · rw [nine_blocks]
    exact ((l0.trans l1).trans l2).trans l3
  · rw [List.length_append, k1, metaLost, spoiltColumns]
    congr 1
    by_cases hd : ("DESDATA", true) ∈ readColumns m
    · rw [if_pos hd]
      have := hd5.mpr hd
      obtain ⟨b, rfl⟩ := Option.isSome_iff_exists.mp this
      rfl
    · rw [if_neg hd]
      cases o5 with
      | none => rfl
      | some b => exact absurd (hd5.mp rfl) hd

/-- The blocks `meds_free` frees. -/
def MedsMem.blocks (m : MedsMem) : List Nat := m.self :: m.path :: (m.cat.blocks ++ (m.info.blocks ++ m.metadata.blocks))

theorem freeMem_leads {h : Heap} {m : MedsMem} {L : List Nat} (hp : h.live.Perm (m.blocks ++ L)) : ∃ h', freeMem h (some m) = .ok h' ∧ Leads h h' L := by
  have p : h.live.Perm (m.path :: (m.cat.blocks ++ (m.info.blocks ++ (m.metadata.blocks ++ (m.self :: L))))) := by
    refine hp.trans ?_
    rw [List.perm_iff_count]
    intro x
    simp only [MedsMem.blocks, List.count_append, List.count_cons]
    omega
  obtain ⟨h1, e1, l1⟩ := free_leads p
  obtain ⟨h2, e2, l2⟩ := catFree_leads l1.live
  obtain ⟨h3, e3, l3⟩ := infoFree_leads l2.live
  obtain ⟨h4, e4, l4⟩ := metaFree_leads l3.live
  obtain ⟨h5, e5, l5⟩ := free_leads l4.live
  refine ⟨h5, ?_, (((l1.trans l2).trans l3).trans l4).trans l5⟩
  simp only [freeMem, e1, e2, e3, e4, e5, Res.ok_bind]

/-- What `meds_open` does in each case. -/
theorem openMem_leads (f : FileView) (h : Heap) :
    ∃ o h' lost, openMem f h = .ok (o, h') ∧ Leads h h' ((o.elim [] MedsMem.blocks) ++ (lost ++ h.live)) ∧
      ((∃ m, Opens f m ∧ o.isSome ∧ lost.length = metaLost m) ∨ (RowFails f ∧ o = none ∧ lost.length = 4) ∨
        ((∀ m, ¬ Opens f m) ∧ ¬ RowFails f ∧ o = none ∧ lost.length = 0)) := by
  cases hop : f.opens with
  | false =>
    refine ⟨none, h, [], by simp only [openMem, hop, if_true], Leads.refl (List.Perm.refl _), .inr (.inr ⟨?_, ?_, rfl, rfl⟩)⟩
    · rintro m ⟨⟨rows, ⟨h1, -⟩, -⟩, -⟩
      rw [hop] at h1
      cases h1
    · rintro ⟨rows, ⟨h1, -⟩, -⟩
      rw [hop] at h1
      cases h1
  | true =>
    have hstep : openMem f h = (readObjectTable f h >>= fun c => match c.1 with
      | none => .ok (none, c.2)
      | some cat => do
        let i ← readImageInfo f c.2
        match i.1 with
        | none => do
          let h ← catFree i.2 (some cat)
          .ok (none, h)
        | some info => do
          let m ← readMetaMem f i.2
          match m.1 with
          | none => do
            let h ← catFree m.2 (some cat)
            let h ← infoFree h (some info)
            .ok (none, h)
          | some mt => .ok (some ⟨(malloc m.2).1, (malloc (malloc m.2).2).1, cat, info, mt⟩, (malloc (malloc m.2).2).2)) := by
      simp only [openMem, hop, Bool.true_eq_false, if_false]
      rfl
    rw [hstep]
    obtain ⟨o1, h1, lost1, e1, l1, hor⟩ := readObjectTable_leads f hop h
    rw [e1, Res.ok_bind]
    rcases hor with ⟨⟨rows, hrows, hall⟩, hs, rfl⟩ | ⟨hrf, rfl, k⟩ | ⟨hno, rfl, rfl⟩
    · obtain ⟨cat, rfl⟩ := Option.isSome_iff_exists.mp hs
      have hrf : ¬ RowFails f := by
        rintro ⟨rows', ⟨-, h2, -⟩, r, hr, hne⟩
        rw [hrows.2.1] at h2
        injection h2 with h2
        subst h2
        exact hne (hall r hr)
      simp only [Option.elim_some, List.append_nil] at l1
      obtain ⟨o2, h2, e2, l2, hi⟩ := readImageInfo_leads f h1
      simp only [e2, Res.ok_bind]
      cases o2 with
      | none =>
        have p : h2.live.Perm (cat.blocks ++ h.live) := l2.live.trans (by simpa using l1.live)
        obtain ⟨h3, e3, l3⟩ := catFree_leads p
        refine ⟨none, h3, [], by simp only [e3, Res.ok_bind], (l1.trans l2).trans l3, .inr (.inr ⟨?_, hrf, rfl, rfl⟩)⟩
        rintro m ⟨-, h2, -⟩
        exact absurd (hi.mpr h2) (by simp)
      | some info =>
        simp only [Option.elim_some] at l2
        have l2' : Leads h h2 (info.blocks ++ (cat.blocks ++ h.live)) := (l1.trans l2).perm (List.Perm.append_left _ l1.live)
        cases hmd : f.metadata with
        | none =>
          have p : h2.live.Perm (cat.blocks ++ (info.blocks ++ h.live)) := by
            refine l2'.live.trans ?_
            rw [← List.append_assoc, ← List.append_assoc]
            exact List.perm_append_comm.append_right _
          obtain ⟨h3, e3, l3⟩ := catFree_leads p
          obtain ⟨h4, e4, l4⟩ := infoFree_leads l3.live
          refine ⟨none, h4, [], by simp only [readMetaMem, hmd, Res.ok_bind, e3, e4], (l2'.trans l3).trans l4, .inr (.inr ⟨?_, hrf, rfl, rfl⟩)⟩
          rintro m ⟨-, -, h2⟩
          rw [hmd] at h2
          cases h2
        | some m =>
          obtain ⟨mt, h3, lost, e3, l3, k3⟩ := readMetaMem_leads hmd h2
          have l4 := malloc_leads h3
          have l5 := malloc_leads (malloc h3).2
          refine ⟨some ⟨(malloc h3).1, (malloc (malloc h3).2).1, cat, info, mt⟩, (malloc (malloc h3).2).2, lost, by simp only [e3, Res.ok_bind], ?_,
            .inl ⟨m, ⟨⟨rows, hrows, hall⟩, hi.mp rfl, hmd⟩, rfl, k3⟩⟩
          refine (((l2'.trans l3).trans l4).trans l5).perm ?_
          refine (l4.live.cons _).trans ?_
          refine ((l3.live.cons _).cons _).trans ?_
          refine (((List.Perm.append_left _ (List.Perm.append_left _ l2'.live)).cons _).cons _).trans ?_
          rw [List.perm_iff_count]
          intro x
          simp only [MedsMem.blocks, Option.elim_some, List.count_append, List.count_cons]
          omega
    · exact ⟨none, h1, lost1, rfl, by simpa using l1, .inr (.inl ⟨hrf, rfl, k⟩)⟩
    · refine ⟨none, h1, [], rfl, by simpa using l1, .inr (.inr ⟨?_, ?_, rfl, rfl⟩)⟩
      · rintro m ⟨⟨rows, h2, -⟩, -⟩
        exact hno rows h2
      · rintro ⟨rows, h2, -⟩
        exact hno rows h2

/-- The blocks of what a program holds. -/
def Held.blocks : Held → List Nat
  | .cut c => [c.pix, c.rows, c.self]
  | .pix p => [p]

theorem heldFree_leads {h : Heap} {x : Held} {L : List Nat} (hp : h.live.Perm (x.blocks ++ L)) : ∃ h', heldFree h x = .ok h' ∧ Leads h h' L := by
  cases x with
  | pix p => exact free_leads hp
  | cut c =>
    obtain ⟨h1, e1, l1⟩ := free_leads hp
    obtain ⟨h2, e2, l2⟩ := free_leads l1.live
    obtain ⟨h3, e3, l3⟩ := free_leads l2.live
    refine ⟨h3, ?_, (l1.trans l2).trans l3⟩
    simp only [heldFree, cutoutFree, e1, e2, e3, Res.ok_bind]

/-- The blocks of all that a program holds. -/
def heldBlocks (hs : List Held) : List Nat := (hs.map Held.blocks).flatten

theorem heldFrees_leads {hs : List Held} {L : List Nat} {h : Heap} (hp : h.live.Perm (heldBlocks hs ++ L)) :
    ∃ h', foldRes heldFree h hs = .ok h' ∧ Leads h h' L := by
  induction hs generalizing h with
  | nil => exact ⟨h, rfl, Leads.refl hp⟩
  | cons x xs ih =>
    have p : h.live.Perm (x.blocks ++ (heldBlocks xs ++ L)) := by simpa [heldBlocks] using hp
    obtain ⟨h1, e1, l1⟩ := heldFree_leads p
    obtain ⟨h2, e2, l2⟩ := ih l1.live
    exact ⟨h2, foldRes_cons_ok.mpr ⟨h1, e1, e2⟩, l1.trans l2⟩

theorem heldBlocks_eraseIdx {hs : List Held} {k : Nat} {x : Held} (hx : hs[k]? = some x) : (heldBlocks hs).Perm (x.blocks ++ heldBlocks (hs.eraseIdx k)) := by
  induction hs generalizing k with
  | nil => simp at hx
  | cons y ys ih =>
    cases k with
    | zero =>
      simp only [List.getElem?_cons_zero, Option.some.injEq] at hx
      subst hx
      exact List.Perm.refl _
    | succ k =>
      simp only [List.getElem?_cons_succ] at hx
      have := ih hx
      simp only [heldBlocks, List.map_cons, List.flatten_cons, List.eraseIdx_cons_succ] at *
      rw [List.perm_iff_count] at *
      intro z
      have := this z
      simp only [List.count_append] at *
      omega

theorem pixels_leads (r : Read) (h : Heap) :
    ∃ o h' lost, pixels r h = .ok (o, h') ∧ Leads h h' (o.toList ++ (lost ++ h.live)) ∧ lost.length = if r = .noExtension then 1 else 0 := by
  cases r with
  | badIndex => exact ⟨none, h, [], rfl, Leads.refl (List.Perm.refl _), rfl⟩
  | noExtension => exact ⟨none, _, [_], rfl, malloc_leads h, rfl⟩
  | readFails =>
    obtain ⟨h1, e1, l1⟩ := free_leads (malloc_leads h).live
    exact ⟨none, h1, [], by simp only [pixels, e1, Res.ok_bind], (malloc_leads h).trans l1, rfl⟩
  | good => exact ⟨some (malloc h).1, _, [], rfl, malloc_leads h, rfl⟩

theorem opStep_leads (held : List Held) (h : Heap) (o : Op) {L : List Nat} (hp : h.live.Perm (heldBlocks held ++ L)) :
    ∃ held' h' lost, opStep (held, h) o = .ok (held', h') ∧ Leads h h' (heldBlocks held' ++ (lost ++ L)) ∧ lost.length = if missing o then 1 else 0 := by
  cases o with
  | cutout r =>
    obtain ⟨p, h1, lost, e1, l1, k1⟩ := pixels_leads r h
    have hk : lost.length = if missing (.cutout r) then 1 else 0 := by rw [k1]; cases r <;> rfl
    cases p with
    | none =>
      refine ⟨held, h1, lost, by simp only [opStep, cutoutMem, e1, Res.ok_bind], ?_, hk⟩
      refine l1.perm ((List.Perm.append_left _ hp).trans ?_)
      rw [← List.append_assoc, ← List.append_assoc]
      exact List.perm_append_comm.append_right _
    | some pix =>
      have l2 := malloc_leads h1
      have l3 := malloc_leads (malloc h1).2
      refine ⟨.cut ⟨(malloc h1).1, (malloc (malloc h1).2).1, pix⟩ :: held, (malloc (malloc h1).2).2, lost, by simp only [opStep, cutoutMem, e1, Res.ok_bind], ?_, hk⟩
      refine ((l1.trans l2).trans l3).perm ((l2.live.cons _).trans (((l1.live.cons _).cons _).trans ?_))
      rw [List.perm_iff_count] at hp ⊢
      intro x
      have := hp x
      simp only [heldBlocks, List.map_cons, List.flatten_cons, Held.blocks, Option.toList_some, List.count_append, List.count_cons, List.count_nil] at *
      omega
  | pointer r =>
    obtain ⟨p, h1, lost, e1, l1, k1⟩ := pixels_leads r h
    have hk : lost.length = if missing (.pointer r) then 1 else 0 := by rw [k1]; cases r <;> rfl
    cases p with
    | none =>
      refine ⟨held, h1, lost, by simp only [opStep, e1, Res.ok_bind], ?_, hk⟩
      refine l1.perm ((List.Perm.append_left _ hp).trans ?_)
      rw [← List.append_assoc, ← List.append_assoc]
      exact List.perm_append_comm.append_right _
    | some pix =>
      refine ⟨.pix pix :: held, h1, lost, by simp only [opStep, e1, Res.ok_bind], ?_, hk⟩
      refine l1.perm ?_
      rw [List.perm_iff_count] at hp ⊢
      intro x
      have := hp x
      simp only [heldBlocks, List.map_cons, List.flatten_cons, Held.blocks, Option.toList_some, List.count_append, List.count_cons, List.count_nil] at *
      omega
  | write =>
    obtain ⟨h1, e1, l1⟩ := free_leads (malloc_leads' hp).live
    exact ⟨held, h1, [], by simp only [opStep, e1, Res.ok_bind], (malloc_leads h).trans l1, rfl⟩
  | free k =>
    cases hk : held[k]? with
    | none => exact ⟨held, h, [], by simp only [opStep, hk], Leads.refl hp, rfl⟩
    | some x =>
      have p : h.live.Perm (x.blocks ++ (heldBlocks (held.eraseIdx k) ++ L)) := by
        rw [← List.append_assoc]
        exact hp.trans ((heldBlocks_eraseIdx hk).append_right _)
      obtain ⟨h1, e1, l1⟩ := heldFree_leads p
      exact ⟨held.eraseIdx k, h1, [], by simp only [opStep, hk, e1, Res.ok_bind], l1, rfl⟩

theorem ops_leads (ops : List Op) (held : List Held) (h : Heap) {L : List Nat} (hp : h.live.Perm (heldBlocks held ++ L)) :
    ∃ held' h' lost, foldRes opStep (held, h) ops = .ok (held', h') ∧ Leads h h' (heldBlocks held' ++ (lost ++ L)) ∧ lost.length = ops.countP missing := by
  induction ops generalizing held h L with
  | nil => exact ⟨held, h, [], rfl, Leads.refl hp, rfl⟩
  | cons o os ih =>
    obtain ⟨held1, h1, lost1, e1, l1, k1⟩ := opStep_leads held h o hp
    obtain ⟨held2, h2, lost2, e2, l2, k2⟩ := ih held1 h1 l1.live
    refine ⟨held2, h2, lost2 ++ lost1, foldRes_cons_ok.mpr ⟨_, e1, e2⟩, ?_, ?_⟩
    · rw [List.append_assoc]
      exact l1.trans l2
    · rw [List.length_append, k1, k2, List.countP_cons]

/-- A program that opens a file, uses it in any way, frees what it got and closes the file never frees a block that is not in use, leaves all other blocks as they were, and
leaves behind exactly the blocks of `Lost`. -/
theorem C86_exact_partial (f : FileView) (ops : List Op) (h : Heap) (hf : Fresh h) :
    ∃ h' lost, session f ops h = .ok h' ∧ h'.live.Perm (lost ++ h.live) ∧ Fresh h' ∧ Lost f ops lost.length := by
  obtain ⟨o, h1, lost1, e1, l1, hor⟩ := openMem_leads f h
  rcases hor with ⟨m, hm, hs, k1⟩ | ⟨hrf, rfl, k⟩ | ⟨hno, hrf, rfl, k⟩
  · obtain ⟨x, rfl⟩ := Option.isSome_iff_exists.mp hs
    obtain ⟨held, h2, lost2, e2, l2, k2⟩ := ops_leads ops [] h1 (L := x.blocks ++ (lost1 ++ h.live)) l1.live
    obtain ⟨h3, e3, l3⟩ := heldFrees_leads l2.live
    have p : h3.live.Perm (x.blocks ++ ((lost1 ++ lost2) ++ h.live)) := by
      refine l3.live.trans ?_
      rw [List.perm_iff_count]
      intro z
      simp only [List.count_append]
      omega
    obtain ⟨h4, e4, l4⟩ := freeMem_leads p
    refine ⟨h4, lost1 ++ lost2, ?_, l4.live, (((l1.trans l2).trans l3).trans l4).fresh hf, ?_⟩
    · simp only [session, e1, e2, e3, e4, Res.ok_bind]
    · rw [List.length_append, k1, k2]
      exact .opened hm
  · refine ⟨h1, lost1, by simp only [session, e1, Res.ok_bind], l1.live, l1.fresh hf, ?_⟩
    rw [k]
    exact .rowFails hrf
  · refine ⟨h1, lost1, by simp only [session, e1, Res.ok_bind], l1.live, l1.fresh hf, ?_⟩
    rw [k]
    exact .notOpened hno hrf

/-- The number of blocks that stay behind is determined by the file and the program. -/
theorem C86_lost_unique {f : FileView} {ops : List Op} {a b : Nat} (ha : Lost f ops a) (hb : Lost f ops b) : a = b := by
  have excl : ∀ m, Opens f m → RowFails f → False := by
    rintro m ⟨⟨rows, ⟨-, h2, -⟩, hall⟩, -⟩ ⟨rows', ⟨-, h2', -⟩, r, hr, hne⟩
    rw [h2] at h2'
    injection h2' with h2'
    subst h2'
    exact hne (hall r hr)
  cases ha with
  | opened h =>
    cases hb with
    | opened h' =>
      have := h.2.2.symm.trans h'.2.2
      injection this with this
      subst this
      rfl
    | rowFails h' => exact (excl _ h h').elim
    | notOpened h' _ => exact absurd h (h' _)
  | rowFails h =>
    cases hb with
    | opened h' => exact (excl _ h' h).elim
    | rowFails _ => rfl
    | notOpened _ h' => exact absurd h h'
  | notOpened h h2 =>
    cases hb with
    | opened h' => exact absurd h' (h _)
    | rowFails h' => exact absurd h' h2
    | notOpened _ _ => rfl

/-- Nothing stays behind for a file without any of the string columns, if no missing extension is asked for. -/
theorem C86_clean_partial (f : FileView) (m : String → Col) (ops : List Op) (h : Heap) (hf : Fresh h) (ho : Opens f m)
    (hm : ∀ c ∈ metaColumns, c.2 = true → m c.1 = .absent) (hops : ∀ o ∈ ops, missing o = false) :
    ∃ h', session f ops h = .ok h' ∧ h'.live.Perm h.live := by
  obtain ⟨h', lost, e, p, -, hl⟩ := C86_exact_partial f ops h hf
  have h0 : metaLost m + ops.countP missing = 0 := by
    have h1 : ops.countP missing = 0 := List.countP_eq_zero.mpr (fun o ho => by rw [hops o ho]; decide)
    have h2 : (spoiltColumns m).countP (fun c => c.2 && m c.1 != .absent) = 0 := by
      refine List.countP_eq_zero.mpr (fun c hc => ?_)
      have hmem : c ∈ metaColumns := (List.dropWhile_sublist _).subset hc
      cases hb : c.2 with
      | false => simp
      | true =>
        rw [hm c hmem hb]
        decide
    have h3 : ("DESDATA", true) ∉ readColumns m := by
      intro hd
      have := List.mem_takeWhile_imp hd
      rw [hm ("DESDATA", true) (by decide +kernel) rfl] at this
      cases this
    rw [metaLost, h1, h2, if_neg h3]
  have := C86_lost_unique hl (.opened ho)
  rw [h0] at this
  rw [List.length_eq_zero_iff.mp this] at p
  exact ⟨h', e, p⟩

/-- What stays behind adds up. -/
theorem C86_adds_up_partial (runs : List (FileView × List Op)) (h : Heap) (hf : Fresh h) :
    ∃ h' lost ns, foldRes (fun h r => session r.1 r.2 h) h runs = .ok h' ∧ h'.live.Perm (lost ++ h.live) ∧
      List.Forall₂ (fun r n => Lost r.1 r.2 n) runs ns ∧ lost.length = ns.sum := by
  induction runs generalizing h with
  | nil => exact ⟨h, [], [], rfl, List.Perm.refl _, .nil, rfl⟩
  | cons r rs ih =>
    obtain ⟨h1, l1, e1, p1, f1, k1⟩ := C86_exact_partial r.1 r.2 h hf
    obtain ⟨h2, l2, ns, e2, p2, k2, s2⟩ := ih h1 f1
    refine ⟨h2, l2 ++ l1, l1.length :: ns, foldRes_cons_ok.mpr ⟨h1, e1, e2⟩, ?_, .cons k1 k2, ?_⟩
    · rw [List.append_assoc]
      exact p2.trans (List.Perm.append_left _ p1)
    · rw [List.length_append, s2, List.sum_cons, Nat.add_comm]

/-- A file in which everything can be read. -/
def fullFile : FileView := ⟨true, some [⟨3, none⟩, ⟨25, none⟩], true, some [true, true], some (fun _ => .good)⟩

/-- The claim as first stated is false: the block of `DESDATA` stays behind. -/
theorem C86_counterexample : ¬ ∀ (f : FileView) (ops : List Op) (h' : Heap), (∀ o ∈ ops, missing o = false) → session f ops ⟨[], 0⟩ = .ok h' → h'.live = [] := by
  intro hall
  have h : (match session fullFile [] ⟨[], 0⟩ with | .ok h' => decide (h'.live.length = 1) | .error _ => false) = true := by decide +kernel
  split at h
  · rename_i h' he
    have := hall fullFile [] h' (by simp) he
    rw [this] at h
    exact absurd h (by decide)
  · cases h

/-! ## Examples -/

theorem fullFile_opens : Opens fullFile (fun _ => .good) :=
  ⟨⟨_, ⟨rfl, rfl, by decide, rfl⟩, by decide⟩, ⟨_, rfl, by decide, by decide⟩, rfl⟩

/-- A program that asks for a cutout, for a missing extension, for a pointer, frees the cutout, and leaves the pointer to the end: two blocks stay behind. -/
example : Lost fullFile [.cutout .good, .cutout .noExtension, .pointer .good, .write, .free 1] 2 :=
  .opened fullFile_opens

example : (match session fullFile [.cutout .good, .cutout .noExtension, .pointer .good, .write, .free 1] ⟨[7], 8⟩ with
    | .ok h' => decide (h'.live.length = 3 ∧ 7 ∈ h'.live) | .error _ => false) = true := by decide +kernel

example : Fresh ⟨[7], 8⟩ := ⟨by decide, by decide⟩

/-- Freeing a cutout twice would be caught. -/
example : (match session fullFile [.cutout .good] ⟨[], 0⟩ with | .ok _ => true | .error _ => false) = true ∧
    heldFree ⟨[], 3⟩ (.cut ⟨0, 1, 2⟩) = .error .unmodelled := by decide +kernel

/-- A file as the maker of this package writes it has no `cat_file`: the strings that are there are lost. -/
example : metaLost (fun n => if n ∈ ["magzp_ref", "medsconf", "min_boxsize"] then .good else .absent) = 2 := by decide +kernel

/-- A file for `C86_clean_partial`. -/
example : Opens { fullFile with metadata := some (fun n => if n = "magzp_ref" then .good else .absent) } (fun n => if n = "magzp_ref" then .good else .absent) ∧
    ∀ c ∈ metaColumns, c.2 = true → (fun n => if n = "magzp_ref" then Col.good else Col.absent) c.1 = .absent :=
  ⟨⟨⟨_, ⟨rfl, rfl, by decide, rfl⟩, by decide⟩, ⟨_, rfl, by decide, by decide⟩, rfl⟩, by decide +kernel⟩

/-- A table whose second row cannot be read. -/
example : RowFails { fullFile with objects := some [⟨3, none⟩, ⟨25, some 11⟩] } :=
  ⟨_, ⟨rfl, rfl, by decide, rfl⟩, ⟨25, some 11⟩, by simp, by simp⟩

end Meds.C
