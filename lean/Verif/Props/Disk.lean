import Verif.Spec.Disk
import Verif.Lemmas.Extract
import Verif.Examples.Maker

/-!
# C23: what an extraction does to its input file
-/

namespace Meds
open Spec Disk

namespace Extract
variable {nm : String → String}

/-! ### Lemmas -/

theorem put_same (d : Disk) (e : String) (n : Option Node) : put d e n e = n := by simp [put]
theorem put_other {d : Disk} {e x : String} (n : Option Node) (h : x ≠ e) : put d e n x = d x := by simp [put, h]

theorem fileAt_congr {d d' : Disk} {n : Nat} {e : String} (h : ∀ x, OnPath nm d e x → d' x = d x) : fileAt nm d' n e = fileAt nm d n e := by
  induction n generalizing e with
  | zero => unfold fileAt; rw [h e (.here e)]
  | succ n ih =>
    unfold fileAt
    rw [h e (.here e)]
    cases hd : d e with
    | none => rfl
    | some v =>
      cases v with
      | file f => rfl
      | link p => exact ih (fun x hx => h x (.next hd hx))

theorem fileAt_onPath {d : Disk} {n : Nat} {e x : String} {f : Fits} (h : fileAt nm d n e = some f) (hx : OnPath nm d e x) : d x ≠ none := by
  induction hx generalizing n with
  | here e => intro hn; unfold fileAt at h; rw [hn] at h; cases h
  | next hl _ ih =>
    unfold fileAt at h
    rw [hl] at h
    cases n with
    | zero => cases h
    | succ n => exact ih h

/-- Removing an entry on the way makes the file disappear. -/
theorem fileAt_removed {d : Disk} {n : Nat} {e x : String} (hx : OnPath nm d e x) : fileAt nm (put d x none) n e = none := by
  induction hx generalizing n with
  | here e => unfold fileAt; rw [put_same]
  | @next e p x hl _ ih =>
    unfold fileAt
    by_cases he : e = x
    · rw [he, put_same]
    · rw [put_other _ he, hl]
      cases n with
      | zero => rfl
      | succ n => exact ih

theorem fileAt_mono {d : Disk} {n k : Nat} {e : String} {f : Fits} (h : fileAt nm d n e = some f) (hk : n ≤ k) : fileAt nm d k e = some f := by
  induction n generalizing e k with
  | zero =>
    unfold fileAt at h ⊢
    cases hd : d e with
    | none => rw [hd] at h; cases h
    | some v =>
      rw [hd] at h
      cases v with
      | file g => exact h
      | link p => cases h
  | succ n ih =>
    unfold fileAt at h ⊢
    cases hd : d e with
    | none => rw [hd] at h; cases h
    | some v =>
      rw [hd] at h
      cases v with
      | file g => exact h
      | link p =>
        obtain ⟨k, rfl⟩ : ∃ j, k = j + 1 := ⟨k - 1, by omega⟩
        exact ih h (by omega)

theorem fileAt_sub {d : Disk} {n : Nat} {e x : String} {f : Fits} (h : fileAt nm d n e = some f) (hx : OnPath nm d e x) : ∃ k ≤ n, fileAt nm d k x = some f := by
  induction hx generalizing n with
  | here e => exact ⟨n, le_refl _, h⟩
  | next hl _ ih =>
    unfold fileAt at h
    rw [hl] at h
    cases n with
    | zero => cases h
    | succ n =>
      obtain ⟨k, hk, hf⟩ := ih h
      exact ⟨k, by omega, hf⟩

theorem target_free {d : Disk} {n : Nat} {e e' : String} (h : target nm d n e = some e') (hn : fileAt nm d n e = none) : d e' = none := by
  induction n generalizing e with
  | zero =>
    unfold target at h
    unfold fileAt at hn
    cases hd : d e with
    | none => rw [hd] at h; injection h with h; rw [← h, hd]
    | some v =>
      rw [hd] at h hn
      cases v with
      | file g => cases hn
      | link p => cases h
  | succ n ih =>
    unfold target at h
    unfold fileAt at hn
    cases hd : d e with
    | none => rw [hd] at h; injection h with h; rw [← h, hd]
    | some v =>
      rw [hd] at h hn
      cases v with
      | file g => cases hn
      | link p => exact ih h hn

/-- Where the output goes after clobbering: its own entry, or one that did not exist. -/
theorem target_after {d : Disk} {p e : String} (h : target nm (removeIfExists nm d p) 40 (nm p) = some e) : e = nm p ∨ d e = none := by
  unfold removeIfExists at h
  split at h
  · unfold target at h
    rw [put_same] at h
    injection h with h
    exact .inl h.symm
  · rename_i hx
    refine .inr (target_free h ?_)
    unfold pathExists readPath at hx
    cases hf : fileAt nm d 40 (nm p) with
    | none => rfl
    | some _ => rw [hf] at hx; exact absurd rfl hx

/-- The output entry after clobbering is empty. -/
theorem target_empty {d : Disk} {p e : String} (h : target nm (removeIfExists nm d p) 40 (nm p) = some e) : removeIfExists nm d p e = none := by
  unfold removeIfExists at h ⊢
  split at h
  · rename_i hx
    rw [if_pos hx]
    unfold target at h
    rw [put_same] at h
    injection h with h
    rw [← h, put_same]
  · rename_i hx
    rw [if_neg hx]
    refine target_free h ?_
    unfold pathExists readPath at hx
    cases hf : fileAt nm d 40 (nm p) with
    | none => rfl
    | some _ => rw [hf] at hx; exact absurd rfl hx

theorem removeIfExists_other {d : Disk} {p x : String} (h : x ≠ nm p) : removeIfExists nm d p x = d x := by
  unfold removeIfExists
  split
  · exact put_other _ h
  · rfl

theorem writeSteps_other {d : Disk} {e : String} {hs : List (String × Hdu)} {ss : List HduStep} {d' : Disk} (h : d' ∈ (writeSteps d e hs ss).1)
    {x : String} (hx : x ≠ e) : d' x = d x := by
  induction ss generalizing d hs with
  | nil => cases h
  | cons s t ih =>
    cases s with
    | error y => cases h
    | ok y =>
      unfold writeSteps at h
      rcases List.mem_cons.mp h with h | h
      · rw [h]; exact put_other _ hx
      · rw [ih h, put_other _ hx]

/-- Entries that exist and are not the output's stay as they are during construction. -/
theorem construct_other {d d' : Disk} {r : Request} (h : d' ∈ (construct nm d r).1) {x : String} (hx : x ≠ nm r.subFile) (hd : d x ≠ none) : d' x = d x := by
  unfold construct at h
  split at h
  · cases h
  split at h
  · cases h
  unfold writeOut at h
  dsimp only at h
  split at h
  · simp only [List.mem_singleton] at h
    rw [h]
    exact removeIfExists_other hx
  · rename_i e he
    have hxe : x ≠ e := by
      intro hxe
      rcases target_after he with h' | h'
      · exact hx (by rw [hxe, h'])
      · exact hd (by rw [hxe, h'])
    dsimp only at h
    rcases List.mem_cons.mp h with h | h
    · rw [h]; exact removeIfExists_other hx
    rcases List.mem_cons.mp h with h | h
    · rw [h, put_other _ hxe]; exact removeIfExists_other hx
    · rw [writeSteps_other h hxe, put_other _ hxe]; exact removeIfExists_other hx

theorem after_eq_or_mem (d : Disk) (r : Request) : afterConstruct nm d r = d ∨ afterConstruct nm d r ∈ (construct nm d r).1 := by
  unfold afterConstruct
  cases h : (construct nm d r).1.getLast? with
  | none => exact .inl rfl
  | some x => exact .inr (List.mem_of_getLast? h)

theorem after_other {d : Disk} {r : Request} {x : String} (hx : x ≠ nm r.subFile) (hd : d x ≠ none) : afterConstruct nm d r x = d x := by
  rcases after_eq_or_mem (nm := nm) d r with h | h
  · rw [h]
  · exact construct_other h hx hd

theorem closes_other {d : Disk} {r : Request} (n : Nat) {x : String} (hx : x ≠ nm r.subFile) : closes nm d r n x = d x := by
  induction n with
  | zero => rfl
  | succ n ih =>
    unfold closes close
    split
    · rw [removeIfExists_other hx, ih]
    · exact ih

theorem construct_no_input {d : Disk} {r : Request} (h : readPath nm d r.medsFile = none) : (construct nm d r).1 = [] := by
  unfold construct
  split
  · rfl
  · rw [h]

/-! ### Theorems -/

/-- **C23 (partial)** If opening the input does not go through the directory entry of the output file, the input has the same contents at every moment: before,
after every disk operation of the constructor (successful or not), and after any number of closings.  Missing from the full claim: paths that lead
through the output's entry; see the counterexamples. -/
theorem C23_input_unchanged_partial {d d' : Disk} {r : Request} (hsafe : ¬ OnPath nm d (nm r.medsFile) (nm r.subFile)) (h : Reached nm d r d') :
    readPath nm d' r.medsFile = readPath nm d r.medsFile := by
  have hne : ∀ x, OnPath nm d (nm r.medsFile) x → x ≠ nm r.subFile := fun x hx he => hsafe (he ▸ hx)
  cases hr : readPath nm d r.medsFile with
  | none =>
    have hc := construct_no_input hr
    cases h with
    | start => exact hr
    | building hm => rw [hc] at hm; cases hm
    | closed n =>
      have ha : afterConstruct nm d r = d := by unfold afterConstruct; rw [hc]; rfl
      rw [← hr]
      unfold readPath
      refine fileAt_congr (fun x hx => ?_)
      rw [closes_other n (hne x hx), ha]
  | some f =>
    rw [← hr]
    unfold readPath at hr ⊢
    refine fileAt_congr (fun x hx => ?_)
    have hnn := fileAt_onPath hr hx
    cases h with
    | start => rfl
    | building hm => exact construct_other hm (hne x hx) hnn
    | closed n => rw [closes_other n (hne x hx)]; exact after_other (hne x hx) hnn

/-- **C23 (what happens otherwise)** If the input can be read, the checks pass and opening the input goes through the output's directory entry, the input is gone at
some moment during construction: it cannot be recovered after an interruption there. -/
theorem C23_alias_destroys_input {d : Disk} {r : Request} {f : Fits} (hp : OnPath nm d (nm r.medsFile) (nm r.subFile)) (hc : r.check = .ok ())
    (hr : readPath nm d r.medsFile = some f) : ∃ d', Reached nm d r d' ∧ readPath nm d' r.medsFile = none := by
  refine ⟨removeIfExists nm d r.subFile, .building ?_, ?_⟩
  · unfold construct
    rw [hc]
    dsimp only
    rw [hr]
    unfold writeOut
    dsimp only
    split
    · exact List.mem_singleton_self _
    · exact List.mem_cons_self ..
  · obtain ⟨k, hk, hf⟩ := fileAt_sub hr hp
    have : pathExists nm d r.subFile = true := by
      unfold pathExists readPath
      rw [fileAt_mono hf hk]
      rfl
    unfold removeIfExists
    rw [if_pos this]
    exact fileAt_removed hp

/-- **C23 (what happens otherwise)** The same name for input and output: the constructor raises without touching the disk, but with `cleanup` the destructor
removes the input. -/
theorem C23_same_name_removed {d : Disk} {r : Request} (hs : r.medsFile = r.subFile) (hcl : r.cleans = true) :
    (∃ e, construct nm d r = ([], some e)) ∧ readPath nm (closes nm (afterConstruct nm d r) r 1) r.medsFile = none := by
  have hc : ∃ e, r.check = .error e := by
    unfold Request.check
    simp only [hs, if_true]
    split
    · exact ⟨_, rfl⟩
    · exact ⟨_, rfl⟩
    · split
      · exact ⟨_, rfl⟩
      · exact ⟨_, rfl⟩
  obtain ⟨e, he⟩ := hc
  have hb : construct nm d r = ([], some e) := by unfold construct; rw [he]
  refine ⟨⟨e, hb⟩, ?_⟩
  have ha : afterConstruct nm d r = d := by unfold afterConstruct; rw [hb]; rfl
  rw [ha]
  unfold closes close closes
  rw [if_pos hcl, hs]
  unfold removeIfExists
  split
  · exact fileAt_removed (.here _)
  · rename_i hx
    unfold pathExists at hx
    cases hr : readPath nm d r.subFile with
    | none => rfl
    | some _ => rw [hr] at hx; exact absurd rfl hx

/-! ### The steps are the extraction -/

theorem mapRes_id_cons {α : Type} (v : α) (t : List (Res α)) : mapRes id (.ok v :: t) = (do let y ← mapRes id t; .ok (v :: y)) := by
  rw [mapRes.eq_2]
  simp only [id]
  cases mapRes id t <;> rfl

theorem mapRes_id_append {α : Type} (a b : List (Res α)) : mapRes id (a ++ b) = (do let x ← mapRes id a; let y ← mapRes id b; .ok (x ++ y)) := by
  induction a with
  | nil => simp only [List.nil_append]; cases h : mapRes id b <;> rfl
  | cons s t ih =>
    cases s with
    | error e => rfl
    | ok v =>
      rw [List.cons_append, mapRes_id_cons, mapRes_id_cons, ih]
      cases mapRes id t with
      | error e => rfl
      | ok x => cases mapRes id b <;> rfl

theorem mapRes_id_ok {α : Type} (l : List α) : mapRes id (l.map (.ok : α → Res α)) = .ok l := by
  induction l with
  | nil => rfl
  | cons x t ih =>
    show mapRes id (.ok x :: _) = _
    unfold mapRes
    simp only [id]
    rw [ih]

theorem mapRes_id_map {α β : Type} (g : α → Res β) (l : List α) : mapRes id (l.map g) = mapRes g l := by
  induction l with
  | nil => rfl
  | cons x t ih =>
    rw [List.map_cons]
    unfold mapRes
    simp only [id]
    rw [ih]

theorem tableSteps_eq (f : Fits) : mapRes id (tableSteps f) = (do let i ← f.imageInfo; let m ← f.metaTable; .ok [("image_info", Hdu.info i), ("metadata", .metadata m)]) := by
  unfold tableSteps
  cases f.imageInfo with
  | error e => rfl
  | ok i => cases f.metaTable <;> rfl

theorem rangeCutoutSteps_eq (f : Fits) (r : Int × Int) (psf : Option (Int × Int)) : mapRes id (rangeCutoutSteps f r psf) = rangeCutouts f r psf := by
  unfold rangeCutoutSteps rangeCutouts
  split
  · exact mapRes_id_ok _
  · rw [mapRes_id_append, mapRes_id_map]
    have : mapRes id (psfSteps f psf) = psfHdu f psf := by
      cases psf with
      | none => rfl
      | some p =>
        unfold psfSteps psfHdu sliceExt
        dsimp only
        cases f.imageSlice "psf" p.1 p.2 <;> rfl
    rw [this]

theorem numberCutoutSteps_eq (f : Fits) (r : List (Int × Int)) (psf : Option (List (Int × Int))) :
    mapRes id (numberCutoutSteps f r psf) = numberCutouts f r psf := by
  unfold numberCutoutSteps numberCutouts
  split
  · exact mapRes_id_ok _
  · rw [mapRes_id_append, mapRes_id_map]
    have : mapRes id (numberPsfSteps f psf) = numberPsfHdu f psf := by
      cases psf with
      | none => rfl
      | some p =>
        unfold numberPsfSteps numberPsfHdu
        dsimp only
        cases gatherExt f p "psf" <;> rfl
    rw [this]

/-- All steps together write exactly the file that the extraction functions return, and fail with the same exception (for requests that pass the checks). -/
theorem steps_are_extraction (f : Fits) {r : Request} (hc : r.check = .ok ()) :
    mapRes id (r.job.steps f) = (extracted f r.job).map (·.hdus) := by
  obtain ⟨mf, sf, cl, j⟩ := r
  cases j with
  | range a b c =>
    have hab : ¬ b < a := by
      intro h
      unfold Request.check at hc
      dsimp only at hc
      split at hc
      · cases hc
      · cases hc
    show mapRes id (rangeSteps f a b c) = (extractRange f a b c).map (·.hdus)
    unfold extractRange
    rw [if_neg hab]
    unfold range rangeSteps rangeHead stepsOf
    cases f.objects with
    | error e => rfl
    | ok t =>
      simp only [Res.ok_bind]
      cases sliceRows t.rows a (b + 1) with
      | error e => rfl
      | ok rows =>
        simp only [Res.ok_bind]
        cases rowRange rows with
        | error e => rfl
        | ok rr =>
          simp only [Res.ok_bind]
          cases psfRange f t.dtype (shiftRows rr.1 rows) with
          | error e => rfl
          | ok psf =>
            simp only [Res.ok_bind]
            rw [mapRes_id_cons, mapRes_id_append, mapRes_id_append, tableSteps_eq, rangeCutoutSteps_eq, mapRes_id_ok]
            cases f.imageInfo with
            | error e => rfl
            | ok i =>
              simp only [Res.ok_bind]
              cases f.metaTable with
              | error e => rfl
              | ok m =>
                simp only [Res.ok_bind]
                cases rangeCutouts f rr psf with
                | error e => rfl
                | ok cuts => rfl
  | catalog =>
    show mapRes id (catalogSteps f) = (extractCatalog f).map (·.hdus)
    unfold catalogSteps extractCatalog
    cases f.objects with
    | error e => rfl
    | ok t =>
      show mapRes id (.ok _ :: _) = _
      rw [mapRes_id_cons, tableSteps_eq]
      simp only [Res.ok_bind]
      cases f.imageInfo with
      | error e => rfl
      | ok i => cases f.metaTable <;> rfl
  | numbers sorts ns =>
    have hn : ns.Nodup := by
      by_contra h
      unfold Request.check at hc
      dsimp only at hc
      rw [if_neg h] at hc
      cases hc
    have hl : ns.length ≠ 0 := by
      intro h
      unfold Request.check at hc
      dsimp only at hc
      rw [if_pos hn] at hc
      split at hc
      · cases hc
      · cases hc
    show mapRes id (numberSteps sorts f (ns.insertionSort (· ≤ ·))) = (extractNumbers sorts f ns).map (·.hdus)
    unfold extractNumbers
    rw [if_pos hn, if_neg hl]
    generalize ns.insertionSort (· ≤ ·) = nums
    unfold byNumber numberSteps numberHead stepsOf
    cases f.objects with
    | error e => rfl
    | ok t =>
      simp only [Res.ok_bind]
      cases numberInds t nums with
      | error e => rfl
      | ok inds =>
        simp only [Res.ok_bind]
        cases takeRows sorts t.rows inds with
        | error e => rfl
        | ok rows =>
          simp only [Res.ok_bind]
          cases rowRanges rows with
          | error e => rfl
          | ok rs =>
            simp only [Res.ok_bind]
            cases newStarts rs rows with
            | error e => rfl
            | ok rows1 =>
              simp only [Res.ok_bind]
              cases numberPsf f t.dtype rows1 with
              | error e => rfl
              | ok p =>
                simp only [Res.ok_bind]
                rw [mapRes_id_cons, mapRes_id_append, tableSteps_eq, numberCutoutSteps_eq]
                cases f.imageInfo with
                | error e => rfl
                | ok i =>
                  simp only [Res.ok_bind]
                  cases f.metaTable with
                  | error e => rfl
                  | ok m =>
                    simp only [Res.ok_bind]
                    cases numberCutouts f rs p.2 with
                    | error e => rfl
                    | ok cuts => rfl

theorem writeSteps_last {d : Disk} {e : String} {hs : List (String × Hdu)} {ss : List HduStep} (hd : d e = some (.file ⟨hs⟩)) :
    ∃ ws, ws <+: ss ∧ (((writeSteps d e hs ss).1.getLast?).getD d) e = some (.file ⟨hs ++ ws.filterMap (fun s => s.toOption)⟩) ∧
      (∀ s ∈ ws, ∃ v, s = .ok v) ∧
      (∀ l, mapRes id ss = .ok l → (writeSteps d e hs ss).2 = none ∧ ws = ss ∧ ws.filterMap (fun s => s.toOption) = l) ∧
      (∀ x, mapRes id ss = .error x → (writeSteps d e hs ss).2 = some x) := by
  induction ss generalizing d hs with
  | nil =>
    refine ⟨[], List.prefix_refl _, by simpa [writeSteps] using hd, by simp, ?_, ?_⟩
    · intro l hl; injection hl with hl; subst hl; exact ⟨rfl, rfl, rfl⟩
    · intro x hx; cases hx
  | cons s t ih =>
    cases s with
    | error y =>
      refine ⟨[], List.nil_prefix, by simpa [writeSteps] using hd, by simp, ?_, ?_⟩
      · intro l hl; cases hl
      · intro x hx
        unfold mapRes at hx
        simp only [id] at hx
        injection hx with hx
        subst hx; rfl
    | ok v =>
      obtain ⟨ws, h1, h2, h3, h4, h5⟩ := ih (d := put d e (some (.file ⟨hs ++ [v]⟩))) (hs := hs ++ [v]) (put_same _ _ _)
      refine ⟨.ok v :: ws, List.cons_prefix_cons.mpr ⟨rfl, h1⟩, ?_, ?_, ?_, ?_⟩
      · unfold writeSteps
        dsimp only
        rw [List.getLast?_cons]
        simp only [Option.getD_some]
        rw [h2]
        simp [Except.toOption]
      · intro s hs
        rcases List.mem_cons.mp hs with rfl | hs
        · exact ⟨v, rfl⟩
        · exact h3 s hs
      · intro l hl
        rw [mapRes_id_cons] at hl
        obtain ⟨l', e1, e2⟩ := Res.bind_eq_ok.mp hl
        injection e2 with e2
        obtain ⟨g1, g2, g3⟩ := h4 l' e1
        refine ⟨?_, by rw [g2], ?_⟩
        · unfold writeSteps; exact g1
        · rw [← e2, ← g3]
          rfl
      · intro x hx
        rw [mapRes_id_cons] at hx
        cases hm : mapRes id t with
        | ok l => rw [hm] at hx; cases hx
        | error y =>
          rw [hm] at hx
          injection hx with hx
          subst hx
          unfold writeSteps
          exact h5 _ hm

theorem target_onPath {d : Disk} {n : Nat} {e e' : String} (h : target nm d n e = some e') : OnPath nm d e e' := by
  induction n generalizing e with
  | zero =>
    unfold target at h
    cases hd : d e with
    | none => rw [hd] at h; injection h with h; subst h; exact .here _
    | some v =>
      rw [hd] at h
      cases v with
      | file g => injection h with h; subst h; exact .here _
      | link p => cases h
  | succ n ih =>
    unfold target at h
    cases hd : d e with
    | none => rw [hd] at h; injection h with h; subst h; exact .here _
    | some v =>
      rw [hd] at h
      cases v with
      | file g => injection h with h; subst h; exact .here _
      | link p => exact .next hd (ih h)

theorem fileAt_target {d d' : Disk} {n : Nat} {e e' : String} {g : Fits} (h : target nm d n e = some e') (ho : ∀ x, x ≠ e' → d' x = d x)
    (hf : d' e' = some (.file g)) : fileAt nm d' n e = some g := by
  induction n generalizing e with
  | zero =>
    unfold target at h
    unfold fileAt
    by_cases hx : e = e'
    · rw [hx, hf]
    · rw [ho e hx]
      cases hde : d e with
      | none => rw [hde] at h; injection h with h; exact absurd h hx
      | some v =>
        rw [hde] at h
        cases v with
        | file g => injection h with h; exact absurd h hx
        | link p => cases h
  | succ n ih =>
    unfold target at h
    unfold fileAt
    by_cases hx : e = e'
    · rw [hx, hf]
    · rw [ho e hx]
      cases hde : d e with
      | none => rw [hde] at h; injection h with h; exact absurd h hx
      | some v =>
        rw [hde] at h
        cases v with
        | file g => injection h with h; exact absurd h hx
        | link p => exact ih h

/-- The output file on disk: if the constructor returns, opening the output path gives the file that the extraction functions compute from the input's contents;
if it raises after the output was opened, what is there is the beginning of that file, and it stays there without `cleanup`. -/
theorem C23_output_on_disk {d : Disk} {r : Request} {f : Fits} (hc : r.check = .ok ()) (hr : readPath nm d r.medsFile = some f)
    (ht : target nm (removeIfExists nm d r.subFile) 40 (nm r.subFile) ≠ none) :
    (∀ g, extracted f r.job = .ok g → (construct nm d r).2 = none ∧ readPath nm (afterConstruct nm d r) r.subFile = some g) ∧
    (∀ x, extracted f r.job = .error x → (construct nm d r).2 = some x ∧
      ∃ ws, ws <+: r.job.steps f ∧ (∀ s ∈ ws, ∃ v, s = .ok v) ∧
        readPath nm (afterConstruct nm d r) r.subFile = some ⟨ws.filterMap (fun s => s.toOption)⟩) := by
  obtain ⟨e, he⟩ := Option.ne_none_iff_exists'.mp ht
  have hstep := steps_are_extraction f hc
  have hcon : construct nm d r = writeOut nm d r f := by
    unfold construct; rw [hc]; dsimp only; rw [hr]
  let d1 := removeIfExists nm d r.subFile
  let d2 := put d1 e (some (.file ⟨[]⟩))
  have hwo : writeOut nm d r f = (d1 :: d2 :: (writeSteps d2 e [] (r.job.steps f)).1, (writeSteps d2 e [] (r.job.steps f)).2) := by
    unfold writeOut; dsimp only; rw [he]
  obtain ⟨ws, h1, h2, h3, h4, h5⟩ := writeSteps_last (d := d2) (e := e) (hs := []) (ss := r.job.steps f) (put_same _ _ _)
  have hafter : afterConstruct nm d r = ((writeSteps d2 e [] (r.job.steps f)).1.getLast?).getD d2 := by
    unfold afterConstruct
    rw [hcon, hwo]
    dsimp only
    rw [List.getLast?_cons, List.getLast?_cons]
    rfl
  have hread : readPath nm (afterConstruct nm d r) r.subFile = some ⟨ws.filterMap (fun s => s.toOption)⟩ := by
    unfold readPath
    refine fileAt_target he ?_ (by rw [hafter]; simpa using h2)
    intro x hx
    rw [hafter]
    cases hl : (writeSteps d2 e [] (r.job.steps f)).1.getLast? with
    | none => exact put_other _ hx
    | some y =>
      have := writeSteps_other (List.mem_of_getLast? hl) hx
      simp only [Option.getD_some]
      rw [this]
      exact put_other _ hx
  constructor
  · intro g hg
    rw [hg] at hstep
    obtain ⟨q1, q2, q3⟩ := h4 g.hdus hstep
    refine ⟨by rw [hcon, hwo]; exact q1, ?_⟩
    rw [hread, q3]
  · intro x hx
    rw [hx] at hstep
    exact ⟨by rw [hcon, hwo]; exact h5 x hstep, ws, h1, h3, hread⟩

end Extract

namespace Ex
open Extract

/-- A small catalogue-only file. -/
def tiny : Fits := ⟨[("object_data", .objects { dtype := med.cat.dtype, rows := [] }), ("image_info", .info []), ("metadata", .metadata "m")]⟩

/-- A directory with one file, "a.fits"; other spellings of its name are normalised by `nm`. -/
def disk : Disk := fun e => if e = "a.fits" then some (.file tiny) else if e = "link.fits" then some (.link "a.fits") else none

def nm (p : String) : String := if p = "./a.fits" then "a.fits" else p

/-- **C23 (counterexample)** Same name with cleanup: ValueError, and the input is removed by the destructor. -/
theorem C23_counterexample_cleanup : ∃ d', Reached nm disk ⟨"a.fits", "a.fits", true, .catalog⟩ d' ∧
    readPath nm disk "a.fits" = some tiny ∧ readPath nm d' "a.fits" = none :=
  ⟨_, .closed 1, by rfl, (C23_same_name_removed (nm := nm) (d := disk) (r := ⟨"a.fits", "a.fits", true, .catalog⟩) rfl rfl).2⟩

/-- **C23 (counterexample)** Another spelling of the same file, no cleanup: the check of the names does not notice, the input is removed on opening the output. -/
theorem C23_counterexample_alias : ∃ d', Reached nm disk ⟨"a.fits", "./a.fits", false, .catalog⟩ d' ∧
    readPath nm disk "a.fits" = some tiny ∧ readPath nm d' "a.fits" = none := by
  obtain ⟨d', h1, h2⟩ := C23_alias_destroys_input (nm := nm) (d := disk) (r := ⟨"a.fits", "./a.fits", false, .catalog⟩) (f := tiny) (.here _) rfl rfl
  exact ⟨d', h1, rfl, h2⟩

/-- An input given through a link, the output being the file it points to. -/
example : ∃ d', Reached nm disk ⟨"link.fits", "a.fits", false, .catalog⟩ d' ∧ readPath nm disk "link.fits" = some tiny ∧ readPath nm d' "link.fits" = none := by
  obtain ⟨d', h1, h2⟩ := C23_alias_destroys_input (nm := nm) (d := disk) (r := ⟨"link.fits", "a.fits", false, .catalog⟩) (f := tiny)
    (.next (p := "a.fits") rfl (.here _)) rfl rfl
  exact ⟨d', h1, rfl, h2⟩

/-- An output beside the input meets the hypothesis of `C23_input_unchanged_partial`, also if the output is a link to the input. -/
example : ¬ OnPath nm disk (nm "a.fits") (nm "link.fits") := by
  intro h
  generalize hx : nm "a.fits" = x at h
  generalize hy : nm "link.fits" = y at h
  cases h with
  | here => rw [← hy] at hx; simp [nm] at hx
  | next hl _ => rw [← hx] at hl; simp [disk, nm] at hl

example : (construct nm disk ⟨"a.fits", "link.fits", false, .catalog⟩).2 = none ∧
    readPath nm (afterConstruct nm disk ⟨"a.fits", "link.fits", false, .catalog⟩) "link.fits" = some tiny :=
  (C23_output_on_disk (f := tiny) rfl rfl (by simp [removeIfExists, pathExists, readPath, fileAt, target, nm, disk, put])).1 tiny rfl

end Ex
end Meds
