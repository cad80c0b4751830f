import Verif.Spec.Temporary
import Verif.Props.Disk

/-! Helpers for C123: entries of the disk, and which objects can still be closed. -/

namespace Meds.Temp
open Disk Extract Spec

variable {nm : String → String} {p p' : Prog} {d d' : Disk} {r : Request} {e x : String} {g : Fits} {k j : Nat}

/-! ### The disk -/

theorem removed_none (d : Disk) (q : String) : readPath nm (removeIfExists nm d q) q = none := by
  unfold removeIfExists
  split
  · exact fileAt_removed (.here _)
  · rename_i hx
    unfold pathExists at hx
    cases hr : readPath nm d q with
    | none => rfl
    | some _ => rw [hr] at hx; exact absurd rfl hx

theorem removeIfExists_links {q : String} {l : String} (h : removeIfExists nm d q x = some (.link l)) : d x = some (.link l) := by
  unfold removeIfExists at h
  split at h
  · unfold put at h
    split at h
    · cases h
    · exact h
  · exact h

theorem put_file_links {l : String} (h : put d e (some (.file g)) x = some (.link l)) : d x = some (.link l) := by
  unfold put at h
  split at h
  · cases h
  · exact h

theorem writeSteps_links {hs : List (String × Hdu)} {ss : List HduStep} (h : d' ∈ (writeSteps d e hs ss).1) {l : String} (hl : d' x = some (.link l)) : d x = some (.link l) := by
  induction ss generalizing d hs with
  | nil => cases h
  | cons s t ih =>
    cases s with
    | error y => cases h
    | ok y =>
      unfold writeSteps at h
      rcases List.mem_cons.mp h with h | h
      · rw [h] at hl
        exact put_file_links hl
      · exact put_file_links (ih h)

theorem construct_links (h : d' ∈ (construct nm d r).1) {l : String} (hl : d' x = some (.link l)) : d x = some (.link l) := by
  unfold construct at h
  split at h
  · cases h
  split at h
  · cases h
  unfold writeOut at h
  dsimp only at h
  split at h
  · simp only [List.mem_singleton] at h
    rw [h] at hl
    exact removeIfExists_links hl
  · dsimp only at h
    rcases List.mem_cons.mp h with h | h
    · rw [h] at hl; exact removeIfExists_links hl
    rcases List.mem_cons.mp h with h | h
    · rw [h] at hl; exact removeIfExists_links (put_file_links hl)
    · exact removeIfExists_links (put_file_links (writeSteps_links h hl))

theorem after_links {l : String} (hl : afterConstruct nm d r x = some (.link l)) : d x = some (.link l) := by
  rcases after_eq_or_mem (nm := nm) d r with h | h
  · rw [h] at hl; exact hl
  · exact construct_links h hl

theorem close_links {l : String} (hl : Extract.close nm d r x = some (.link l)) : d x = some (.link l) := by
  unfold Extract.close at hl
  split at hl
  · exact removeIfExists_links hl
  · exact hl

theorem close_other (hx : x ≠ nm r.subFile) : Extract.close nm d r x = d x := by
  unfold Extract.close
  split
  · exact removeIfExists_other hx
  · rfl

/-- A constructor that returned. -/
theorem construct_ok (h : (construct nm d r).2 = none) :
    ∃ f g, readPath nm d r.medsFile = some f ∧ extracted f r.job = .ok g ∧ readPath nm (afterConstruct nm d r) r.subFile = some g := by
  have h0 := h
  unfold construct at h
  split at h
  · cases h
  rename_i u hc
  split at h
  · cases h
  rename_i f hf
  have ht : target nm (removeIfExists nm d r.subFile) 40 (nm r.subFile) ≠ none := by
    intro ht
    unfold writeOut at h
    dsimp only at h
    rw [ht] at h
    cases h
  obtain ⟨h1, h2⟩ := C23_output_on_disk hc hf ht
  cases hx : extracted f r.job with
  | ok g => exact ⟨f, g, hf, hx, (h1 g hx).2⟩
  | error y =>
    rw [(h2 y hx).1] at h0
    cases h0

/-- A file entry that is read directly. -/
theorem readPath_file {q : String} (h : readPath nm d q = some g) (hl : ∀ l, d (nm q) ≠ some (.link l)) : d (nm q) = some (.file g) := by
  unfold readPath fileAt at h
  cases hd : d (nm q) with
  | none => rw [hd] at h; cases h
  | some n =>
    rw [hd] at h
    cases n with
    | file f => injection h with h; rw [h]
    | link l => exact absurd hd (hl l)

theorem file_readPath {q : String} (h : d (nm q) = some (.file g)) : readPath nm d q = some g := by
  unfold readPath fileAt
  rw [h]

/-! ### References -/

theorem refers_iff : p.refers k = true ↔ (∃ v ∈ p.vars, v.2 = k) ∨ k ∈ p.blocks := by
  unfold Prog.refers
  simp only [Bool.or_eq_true, List.any_eq_true, decide_eq_true_eq, List.contains_iff_mem]

theorem lookup_refers (h : p.lookup x = some k) : p.refers k = true := by
  obtain ⟨v, h1, h2⟩ := Option.map_eq_some_iff.mp h
  exact refers_iff.mpr (.inl ⟨v, List.mem_of_find?_eq_some h1, h2⟩)

theorem closeObj_vars : (closeObj nm p k).vars = p.vars ∧ (closeObj nm p k).blocks = p.blocks ∧ (closeObj nm p k).objs = p.objs := by
  unfold closeObj
  split <;> exact ⟨rfl, rfl, rfl⟩

theorem release_vars : (release nm p k).vars = p.vars ∧ (release nm p k).blocks = p.blocks ∧ (release nm p k).objs = p.objs := by
  unfold release
  split
  · exact ⟨rfl, rfl, rfl⟩
  · exact closeObj_vars

theorem refers_congr (h1 : p'.vars = p.vars) (h2 : p'.blocks = p.blocks) : p'.refers k = p.refers k := by
  unfold Prog.refers
  rw [h1, h2]

theorem bind_vars : (bind nm p x k).vars = (x, k) :: p.vars.filter (fun v => v.1 ≠ x) ∧ (bind nm p x k).blocks = p.blocks ∧ (bind nm p x k).objs = p.objs := by
  unfold bind
  dsimp only
  split
  · exact ⟨release_vars.1, release_vars.2.1, release_vars.2.2⟩
  · exact ⟨rfl, rfl, rfl⟩

theorem bind_refers (h : (bind nm p x k).refers j = true) : p.refers j = true ∨ j = k := by
  obtain ⟨h1, h2, _⟩ := bind_vars (nm := nm) (p := p) (x := x) (k := k)
  rcases refers_iff.mp h with ⟨v, hv, rfl⟩ | hb
  · rw [h1] at hv
    rcases List.mem_cons.mp hv with rfl | hv
    · exact .inr rfl
    · exact .inl (refers_iff.mpr (.inl ⟨v, (List.mem_filter.mp hv).1, rfl⟩))
  · rw [h2] at hb
    exact .inl (refers_iff.mpr (.inr hb))

theorem new_objs (p : Prog) (r : Request) : (new nm p r).1.vars = p.vars ∧ (new nm p r).1.blocks = p.blocks ∧
    ((new nm p r).2 = none → (new nm p r).1.objs = p.objs ++ [r] ∧ (new nm p r).1.disk = afterConstruct nm p.disk r ∧ (construct nm p.disk r).2 = none) ∧
    (∀ err, (new nm p r).2 = some err → (new nm p r).1.objs = p.objs) := by
  unfold new
  split
  · exact ⟨rfl, rfl, fun h => by simp at h, fun _ _ => rfl⟩
  · rename_i h
    exact ⟨rfl, rfl, fun _ => ⟨rfl, rfl, h⟩, fun _ h => by simp at h⟩

/-! ### One entry of the disk during a step -/

theorem closeObj_keep (h : ∀ r, p.objs[k]? = some r → r.cleans = true → nm r.subFile ≠ e) : (closeObj nm p k).disk e = p.disk e := by
  unfold closeObj
  split
  · rename_i r hr
    by_cases hc : r.cleans = true
    · exact close_other (Ne.symm (h r hr hc))
    · dsimp only
      unfold Extract.close
      rw [if_neg hc]
  · rfl

theorem new_keep (h : nm r.subFile ≠ e) (hd : p.disk e ≠ none) : (new nm p r).1.disk e = p.disk e := by
  unfold new
  split
  · dsimp only
    rw [close_other (Ne.symm h), after_other (Ne.symm h) hd]
  · exact after_other (Ne.symm h) hd

theorem release_keep (h : ∀ r, p.objs[k]? = some r → r.cleans = true → nm r.subFile = e → p.refers k = true) : (release nm p k).disk e = p.disk e := by
  unfold release
  split
  · rfl
  · rename_i hn
    exact closeObj_keep fun r hr hc he => hn (h r hr hc he)

theorem bind_keep (h : ∀ j r, p.lookup x = some j → p.objs[j]? = some r → r.cleans = true → nm r.subFile = e → (bind nm p x k).refers j = true) : (bind nm p x k).disk e = p.disk e := by
  have hb := bind_vars (nm := nm) (p := p) (x := x) (k := k)
  unfold bind
  dsimp only
  split
  · rename_i j hj
    refine release_keep fun r hr hc he => ?_
    have := h j r hj hr hc he
    rw [refers_congr (p := { p with vars := (x, k) :: p.vars.filter (fun v => v.1 ≠ x) }) hb.1 hb.2.1] at this
    exact this
  · rfl

/-- Everything that is referred to has been constructed. -/
def Sound (p : Prog) : Prop := ∀ j, p.refers j = true → j < p.objs.length

theorem objs_old {l : List Request} (hj : j < p.objs.length) : (p.objs ++ l)[j]? = p.objs[j]? := List.getElem?_append_left hj

/-- What is referred to after a step was so before, or is new. -/
theorem act_refers (hs : Sound p) {a : Act} (h : (act nm p a).1.refers j = true) :
    (p.refers j = true ∧ (act nm p a).1.objs[j]? = p.objs[j]?) ∨ (∃ r, request? a = some r ∧ (act nm p a).2 = none ∧ j = p.objs.length ∧ (act nm p a).1.objs[j]? = some r) := by
  cases a with
  | make x r =>
    unfold act at h ⊢
    dsimp only at h ⊢
    obtain ⟨n1, n2, n3, n4⟩ := new_objs (nm := nm) p r
    split at h
    · rename_i p1 err he
      rw [he] at n1 n2 n4
      dsimp only at n1 n2 n4 h
      dsimp only
      rw [refers_congr n1 n2] at h
      exact .inl ⟨h, by rw [n4 err rfl]⟩
    · rename_i p1 he
      rw [he] at n1 n2 n3
      dsimp only at n1 n2 n3 h
      dsimp only
      obtain ⟨b1, b2, b3⟩ := bind_vars (nm := nm) (p := p1) (x := x) (k := p.objs.length)
      rw [b3, (n3 rfl).1]
      rcases bind_refers h with h | h
      · rw [refers_congr n1 n2] at h
        exact .inl ⟨h, objs_old (hs j h)⟩
      · refine .inr ⟨r, rfl, rfl, h, ?_⟩
        rw [h]
        simp
  | enter x r =>
    unfold act at h ⊢
    dsimp only at h ⊢
    obtain ⟨n1, n2, n3, n4⟩ := new_objs (nm := nm) p r
    split at h
    · rename_i p1 err he
      rw [he] at n1 n2 n4
      dsimp only at n1 n2 n4 h
      dsimp only
      rw [refers_congr n1 n2] at h
      exact .inl ⟨h, by rw [n4 err rfl]⟩
    · rename_i p1 he
      rw [he] at n1 n2 n3
      dsimp only at n1 n2 n3 h
      dsimp only
      obtain ⟨b1, b2, b3⟩ := bind_vars (nm := nm) (p := { p1 with blocks := p.objs.length :: p1.blocks }) (x := x) (k := p.objs.length)
      rw [b3]
      dsimp only
      rw [(n3 rfl).1]
      have key : p.refers j = true ∨ j = p.objs.length := by
        rcases bind_refers h with h | h
        · rcases refers_iff.mp h with h | h
          · rw [show ({ p1 with blocks := p.objs.length :: p1.blocks } : Prog).vars = p.vars from n1] at h
            exact .inl (refers_iff.mpr (.inl h))
          · rcases List.mem_cons.mp h with h | h
            · exact .inr h
            · exact .inl (refers_iff.mpr (.inr (n2 ▸ h)))
        · exact .inr h
      rcases key with h | h
      · exact .inl ⟨h, objs_old (hs j h)⟩
      · refine .inr ⟨r, rfl, rfl, h, ?_⟩
        rw [h]
        simp
  | leave =>
    unfold act at h ⊢
    dsimp only at h ⊢
    split at h
    · rename_i hb
      exact .inl ⟨h, rfl⟩
    · rename_i k bs hb
      dsimp only at h ⊢
      obtain ⟨v1, v2, v3⟩ := release_vars (nm := nm) (p := { closeObj nm p k with blocks := bs }) (k := k)
      obtain ⟨c1, c2, c3⟩ := closeObj_vars (nm := nm) (p := p) (k := k)
      rw [v3]
      refine .inl ⟨?_, by dsimp only; rw [c3]⟩
      rw [refers_congr v1 v2] at h
      rcases refers_iff.mp h with h | h
      · exact refers_iff.mpr (.inl (c1 ▸ h))
      · exact refers_iff.mpr (.inr (by rw [hb]; exact List.mem_cons_of_mem _ h))
  | copy y x =>
    unfold act at h ⊢
    dsimp only at h ⊢
    split at h
    · rename_i hl
      exact .inl ⟨h, rfl⟩
    · rename_i k hl
      dsimp only at h ⊢
      obtain ⟨b1, b2, b3⟩ := bind_vars (nm := nm) (p := p) (x := y) (k := k)
      rw [b3]
      rcases bind_refers h with h | h
      · exact .inl ⟨h, rfl⟩
      · exact .inl ⟨h ▸ lookup_refers hl, rfl⟩
  | del x =>
    unfold act at h ⊢
    dsimp only at h ⊢
    split at h
    · rename_i hl
      exact .inl ⟨h, rfl⟩
    · rename_i k hl
      dsimp only at h ⊢
      obtain ⟨v1, v2, v3⟩ := release_vars (nm := nm) (p := { p with vars := p.vars.filter (fun v => v.1 ≠ x) }) (k := k)
      rw [v3]
      refine .inl ⟨?_, rfl⟩
      rw [refers_congr v1 v2] at h
      rcases refers_iff.mp h with ⟨v, h, e⟩ | h
      · exact refers_iff.mpr (.inl ⟨v, (List.mem_filter.mp h).1, e⟩)
      · exact refers_iff.mpr (.inr h)
  | close x =>
    unfold act at h ⊢
    dsimp only at h ⊢
    split at h
    · rename_i hl
      exact .inl ⟨h, rfl⟩
    · rename_i k hl
      dsimp only at h ⊢
      obtain ⟨c1, c2, c3⟩ := closeObj_vars (nm := nm) (p := p) (k := k)
      rw [c3]
      rw [refers_congr c1 c2] at h
      exact .inl ⟨h, rfl⟩
  | call r =>
    unfold act at h ⊢
    dsimp only at h ⊢
    obtain ⟨n1, n2, n3, n4⟩ := new_objs (nm := nm) p r
    split at h
    · rename_i p1 err he
      rw [he] at n1 n2 n4
      dsimp only at n1 n2 n4 h
      dsimp only
      rw [refers_congr n1 n2] at h
      exact .inl ⟨h, by rw [n4 err rfl]⟩
    · rename_i p1 he
      rw [he] at n1 n2 n3
      dsimp only at n1 n2 n3 h
      dsimp only
      obtain ⟨c1, c2, c3⟩ := closeObj_vars (nm := nm) (p := p1) (k := p.objs.length)
      rw [c3, (n3 rfl).1]
      rw [refers_congr c1 c2, refers_congr n1 n2] at h
      exact .inl ⟨h, objs_old (hs j h)⟩
  | save q f =>
    unfold act at h ⊢
    dsimp only at h ⊢
    split at h <;> exact .inl ⟨h, rfl⟩

theorem act_objs_length (p : Prog) (a : Act) : p.objs.length ≤ (act nm p a).1.objs.length ∧ ∀ r, request? a = some r → (act nm p a).2 = none → (act nm p a).1.objs.length = p.objs.length + 1 := by
  cases a with
  | make x r =>
    unfold act
    dsimp only
    obtain ⟨n1, n2, n3, n4⟩ := new_objs (nm := nm) p r
    split
    · rename_i p1 err he
      rw [he] at n4
      exact ⟨by rw [n4 err rfl], fun _ _ h => by simp at h⟩
    · rename_i p1 he
      rw [he] at n3
      have : (bind nm p1 x p.objs.length).objs.length = p.objs.length + 1 := by
        rw [bind_vars.2.2, (n3 rfl).1]; simp
      exact ⟨by dsimp only; omega, fun _ _ _ => this⟩
  | enter x r =>
    unfold act
    dsimp only
    obtain ⟨n1, n2, n3, n4⟩ := new_objs (nm := nm) p r
    split
    · rename_i p1 err he
      rw [he] at n4
      exact ⟨by rw [n4 err rfl], fun _ _ h => by simp at h⟩
    · rename_i p1 he
      rw [he] at n3
      have : (bind nm { p1 with blocks := p.objs.length :: p1.blocks } x p.objs.length).objs.length = p.objs.length + 1 := by
        rw [bind_vars.2.2]; dsimp only; rw [(n3 rfl).1]; simp
      exact ⟨by dsimp only; omega, fun _ _ _ => this⟩
  | call r =>
    unfold act
    dsimp only
    obtain ⟨n1, n2, n3, n4⟩ := new_objs (nm := nm) p r
    split
    · rename_i p1 err he
      rw [he] at n4
      exact ⟨by rw [n4 err rfl], fun _ _ h => by simp at h⟩
    · rename_i p1 he
      rw [he] at n3
      have : (closeObj nm p1 p.objs.length).objs.length = p.objs.length + 1 := by
        rw [closeObj_vars.2.2, (n3 rfl).1]; simp
      exact ⟨by dsimp only; omega, fun _ _ _ => this⟩
  | leave =>
    refine ⟨?_, fun r h => by cases h⟩
    unfold act
    dsimp only
    split
    · exact le_refl _
    · dsimp only
      rw [release_vars.2.2]
      dsimp only
      rw [closeObj_vars.2.2]
  | copy y x =>
    refine ⟨?_, fun r h => by cases h⟩
    unfold act
    dsimp only
    split
    · exact le_refl _
    · dsimp only
      rw [bind_vars.2.2]
  | del x =>
    refine ⟨?_, fun r h => by cases h⟩
    unfold act
    dsimp only
    split
    · exact le_refl _
    · dsimp only
      rw [release_vars.2.2]
  | close x =>
    refine ⟨?_, fun r h => by cases h⟩
    unfold act
    dsimp only
    split
    · exact le_refl _
    · dsimp only
      rw [closeObj_vars.2.2]
  | save q f =>
    refine ⟨?_, fun r h => by cases h⟩
    unfold act
    dsimp only
    split <;> exact le_refl _

theorem act_sound (hs : Sound p) (a : Act) : Sound (act nm p a).1 := by
  intro j hj
  obtain ⟨h1, h2⟩ := act_objs_length (nm := nm) p a
  rcases act_refers hs hj with ⟨h, _⟩ | ⟨r, h, h0, e, _⟩
  · have := hs j h
    omega
  · have := h2 r h h0
    omega

/-- A file stays as it is during a step that does not write to its entry, if every object that would remove it is neither closed nor destroyed by the step. -/
theorem act_keep (hs : Sound p) {a : Act} (hd : p.disk e = some (.file g)) (hw : ∀ q, written? a = some q → nm q ≠ e)
    (hprot : ∀ j r, p.objs[j]? = some r → p.refers j = true → r.cleans = true → nm r.subFile = e → ¬ Closes p j a ∧ (act nm p a).1.refers j = true) :
    (act nm p a).1.disk e = some (.file g) := by
  have hne : p.disk e ≠ none := by rw [hd]; simp
  cases a with
  | make x r =>
    have hr := hw r.subFile rfl
    unfold act at hprot ⊢
    dsimp only at hprot ⊢
    obtain ⟨n1, n2, n3, n4⟩ := new_objs (nm := nm) p r
    have hk := new_keep (p := p) hr hne
    split
    · rename_i p1 err he
      rw [he] at hk
      exact hk.trans hd
    · rename_i p1 he
      rw [he] at hk n1 n2 n3 hprot
      dsimp only at hk n1 n2 n3 hprot ⊢
      rw [bind_keep, hk, hd]
      intro j r' hl hr' hc hsub
      have hl' : p.lookup x = some j := by unfold Prog.lookup at hl ⊢; rw [← n1]; exact hl
      have hj := hs j (lookup_refers hl')
      rw [(n3 rfl).1, objs_old hj] at hr'
      exact (hprot j r' hr' (lookup_refers hl') hc hsub).2
  | enter x r =>
    have hr := hw r.subFile rfl
    unfold act at hprot ⊢
    dsimp only at hprot ⊢
    obtain ⟨n1, n2, n3, n4⟩ := new_objs (nm := nm) p r
    have hk := new_keep (p := p) hr hne
    split
    · rename_i p1 err he
      rw [he] at hk
      exact hk.trans hd
    · rename_i p1 he
      rw [he] at hk n1 n2 n3 hprot
      dsimp only at hk n1 n2 n3 hprot ⊢
      rw [bind_keep]
      · exact hk.trans hd
      intro j r' hl hr' hc hsub
      have hl' : p.lookup x = some j := by unfold Prog.lookup at hl ⊢; rw [← n1]; exact hl
      have hj := hs j (lookup_refers hl')
      dsimp only at hr'
      rw [(n3 rfl).1, objs_old hj] at hr'
      exact (hprot j r' hr' (lookup_refers hl') hc hsub).2
  | leave =>
    unfold act at hprot ⊢
    dsimp only at hprot ⊢
    split
    · exact hd
    · rename_i k bs hb
      rw [hb] at hprot
      dsimp only at hprot ⊢
      have hk : p.refers k = true := refers_iff.mpr (.inr (by rw [hb]; exact List.mem_cons_self))
      have hno : ∀ r, p.objs[k]? = some r → r.cleans = true → nm r.subFile ≠ e := fun r hr hc hsub =>
        (hprot k r hr hk hc hsub).1 (.inr ⟨rfl, by rw [hb]; rfl⟩)
      rw [release_keep]
      · dsimp only
        rw [closeObj_keep hno, hd]
      · intro r hr hc hsub
        dsimp only at hr
        rw [closeObj_vars.2.2] at hr
        exact absurd hsub (hno r hr hc)
  | copy y x =>
    unfold act at hprot ⊢
    dsimp only at hprot ⊢
    split
    · exact hd
    · rename_i k hl
      rw [hl] at hprot
      dsimp only at hprot ⊢
      rw [bind_keep, hd]
      intro j r hj hr hc hsub
      exact (hprot j r hr (lookup_refers hj) hc hsub).2
  | del x =>
    unfold act at hprot ⊢
    dsimp only at hprot ⊢
    split
    · exact hd
    · rename_i k hl
      rw [hl] at hprot
      dsimp only at hprot ⊢
      rw [release_keep]
      · exact hd
      · intro r hr hc hsub
        have := (hprot k r hr (lookup_refers hl) hc hsub).2
        rw [refers_congr release_vars.1 release_vars.2.1] at this
        exact this
  | close x =>
    unfold act at hprot ⊢
    dsimp only at hprot ⊢
    split
    · exact hd
    · rename_i k hl
      dsimp only
      rw [closeObj_keep, hd]
      intro r hr hc hsub
      exact (hprot k r hr (lookup_refers hl) hc hsub).1 (.inl ⟨x, rfl, hl⟩)
  | call r =>
    have hr := hw r.subFile rfl
    unfold act
    dsimp only
    obtain ⟨n1, n2, n3, n4⟩ := new_objs (nm := nm) p r
    have hk := new_keep (p := p) hr hne
    split
    · rename_i p1 err he
      rw [he] at hk
      exact hk.trans hd
    · rename_i p1 he
      rw [he] at hk n3
      dsimp only at hk n3 ⊢
      rw [closeObj_keep, hk, hd]
      intro r' hr' _ hsub
      rw [(n3 rfl).1] at hr'
      simp at hr'
      subst hr'
      exact hr hsub
  | save q f =>
    have hq := hw q rfl
    unfold act
    dsimp only
    split
    · dsimp only
      rw [removeIfExists_other (Ne.symm hq), hd]
    · rename_i e' he
      dsimp only
      rw [put_other, removeIfExists_other (Ne.symm hq), hd]
      rintro rfl
      rcases target_after he with h | h
      · exact hq h.symm
      · exact hne h

/-! ### Programs -/

theorem acts_cons (p : Prog) (a : Act) (as : List Act) :
    acts nm p (a :: as) = if (act nm p a).2 = none then acts nm (act nm p a).1 as else act nm p a := by
  rw [acts]
  split
  · rename_i p1 err he
    rw [he, if_neg (by simp)]
  · rename_i p1 he
    rw [he, if_pos rfl]

theorem acts_sound (hs : Sound p) (as : List Act) : Sound (acts nm p as).1 := by
  induction as generalizing p with
  | nil => exact hs
  | cons a as ih =>
    rw [acts_cons]
    split
    · exact ih (act_sound hs a)
    · exact act_sound hs a

theorem begin_sound (d : Disk) : Sound (begin d) := by
  intro j hj
  rw [refers_iff] at hj
  simp [begin] at hj

/-- A file that one object in use may remove, and that nothing else touches. -/
theorem acts_keep (hs : Sound p) {as : List Act} (hd : p.disk e = some (.file g)) (hw : ∀ a ∈ as, ∀ q, written? a = some q → nm q ≠ e)
    (hp : ∀ j r, p.objs[j]? = some r → p.refers j = true → r.cleans = true → nm r.subFile = e → j = k) (hu : InUse nm k p as) :
    (acts nm p as).1.disk e = some (.file g) := by
  induction as generalizing p with
  | nil => exact hd
  | cons a as ih =>
    obtain ⟨u1, u2, u3⟩ := hu
    have u4 : (act nm p a).1.refers k = true := by
      cases as with
      | nil => exact u3
      | cons b bs => exact u3.1
    have hstep : (act nm p a).1.disk e = some (.file g) := by
      refine act_keep hs hd (hw a List.mem_cons_self) ?_
      intro j r hr hj hc hsub
      obtain rfl := hp j r hr hj hc hsub
      exact ⟨u2, u4⟩
    rw [acts_cons]
    split
    · rename_i hn
      refine ih (act_sound hs a) hstep (fun b hb => hw b (List.mem_cons_of_mem _ hb)) ?_ u3
      intro j r hr hj hc hsub
      rcases act_refers hs hj with ⟨h1, h2⟩ | ⟨r', h1, _, _, h3⟩
      · exact hp j r (h2 ▸ hr) h1 hc hsub
      · rw [h3] at hr
        injection hr with hr
        subst hr
        refine absurd hsub (hw a List.mem_cons_self _ ?_)
        cases a <;> first | (injection h1 with h1; subst h1; rfl) | cases h1
    · exact hstep

/-- A file that nothing touches. -/
theorem acts_away (hs : Sound p) {as : List Act} (hd : p.disk e = some (.file g)) (hw : ∀ a ∈ as, ∀ q, written? a = some q → nm q ≠ e)
    (hp : ∀ j r, p.objs[j]? = some r → p.refers j = true → nm r.subFile ≠ e) : (acts nm p as).1.disk e = some (.file g) := by
  induction as generalizing p with
  | nil => exact hd
  | cons a as ih =>
    have hstep : (act nm p a).1.disk e = some (.file g) := act_keep hs hd (hw a List.mem_cons_self) fun j r hr hj _ hsub => absurd hsub (hp j r hr hj)
    rw [acts_cons]
    split
    · refine ih (act_sound hs a) hstep (fun b hb => hw b (List.mem_cons_of_mem _ hb)) ?_
      intro j r hr hj
      rcases act_refers hs hj with ⟨h1, h2⟩ | ⟨r', h1, _, _, h3⟩
      · exact hp j r (h2 ▸ hr) h1
      · rw [h3] at hr
        injection hr with hr
        subst hr
        refine hw a List.mem_cons_self _ ?_
        cases a <;> first | (injection h1 with h1; subst h1; rfl) | cases h1
    · exact hstep

/-! ### Steps that make an object -/

theorem act_sound' {a : Act} {p1 : Prog} {o : Option Err} (hs : Sound p) (h : act nm p a = (p1, o)) : Sound p1 := by
  have := act_sound (nm := nm) hs a
  rw [h] at this
  exact this

theorem act_made_vars {a : Act} {p1 : Prog} (ha : a = .make x r ∨ a = .enter x r) (h : act nm p a = (p1, none)) :
    p1.vars = (x, p.objs.length) :: p.vars.filter (fun v => v.1 ≠ x) ∧ (∀ j ∈ p1.blocks, j ∈ p.blocks ∨ j = p.objs.length) := by
  obtain ⟨n1, n2, _⟩ := new_objs (nm := nm) p r
  rcases ha with rfl | rfl
  · unfold act at h
    dsimp only at h
    split at h
    · cases h
    · rename_i p' he
      rw [he] at n1 n2
      dsimp only at n1 n2
      injection h with h _
      rw [← h, bind_vars.1, bind_vars.2.1, n1, n2]
      exact ⟨rfl, fun j hj => .inl hj⟩
  · unfold act at h
    dsimp only at h
    split at h
    · cases h
    · rename_i p' he
      rw [he] at n1 n2
      dsimp only at n1 n2
      injection h with h _
      rw [← h, bind_vars.1, bind_vars.2.1]
      dsimp only
      rw [n1, n2]
      refine ⟨rfl, fun j hj => ?_⟩
      rcases List.mem_cons.mp hj with h | h
      · exact .inr h
      · exact .inl h

theorem act_made {a : Act} {p1 : Prog} (hs : Sound p) (ha : a = .make x r ∨ a = .enter x r) (h : act nm p a = (p1, none)) (hlink : ∀ l, p.disk (nm r.subFile) ≠ some (.link l))
    (hothers : ∀ j r', p.objs[j]? = some r' → p.refers j = true → r'.cleans = true → nm r'.subFile ≠ nm r.subFile) :
    ∃ f g, readPath nm p.disk r.medsFile = some f ∧ extracted f r.job = .ok g ∧ p1.disk (nm r.subFile) = some (.file g) ∧ p1.objs = p.objs ++ [r] := by
  obtain ⟨n1, n2, n3, _⟩ := new_objs (nm := nm) p r
  have key : ∀ (q : Prog), q.vars = p.vars → q.objs = p.objs ++ [r] → q.disk = afterConstruct nm p.disk r → (bind nm q x p.objs.length).disk (nm r.subFile) = afterConstruct nm p.disk r (nm r.subFile) := by
    intro q h1 h2 h3
    rw [bind_keep, h3]
    intro j r' hl hr' hc hsub
    have hl' : p.lookup x = some j := by unfold Prog.lookup at hl ⊢; rw [← h1]; exact hl
    rw [h2, objs_old (hs j (lookup_refers hl'))] at hr'
    exact absurd hsub (hothers j r' hr' (lookup_refers hl') hc)
  rcases ha with rfl | rfl
  · unfold act at h
    dsimp only at h
    split at h
    · cases h
    · rename_i p' he
      rw [he] at n1 n2 n3
      dsimp only at n1 n2 n3
      obtain ⟨m1, m2, m3⟩ := n3 rfl
      obtain ⟨f, g, e1, e2, e3⟩ := construct_ok m3
      injection h with h _
      refine ⟨f, g, e1, e2, ?_, by rw [← h, bind_vars.2.2, m1]⟩
      rw [← h, key p' n1 m1 m2]
      exact readPath_file e3 fun l hl => hlink l (after_links hl)
  · unfold act at h
    dsimp only at h
    split at h
    · cases h
    · rename_i p' he
      rw [he] at n1 n2 n3
      dsimp only at n1 n2 n3
      obtain ⟨m1, m2, m3⟩ := n3 rfl
      obtain ⟨f, g, e1, e2, e3⟩ := construct_ok m3
      injection h with h _
      refine ⟨f, g, e1, e2, ?_, by rw [← h, bind_vars.2.2]; exact m1⟩
      rw [← h, key { p' with blocks := p.objs.length :: p'.blocks } n1 m1 m2]
      exact readPath_file e3 fun l hl => hlink l (after_links hl)

/-! ### Closing and destruction -/

theorem closeObj_gone (hr : p.objs[k]? = some r) (hc : r.cleans = true) : readPath nm (closeObj nm p k).disk r.subFile = none := by
  unfold closeObj
  rw [hr]
  dsimp only
  unfold Extract.close
  rw [if_pos hc]
  exact removed_none _ _

theorem release_gone (hr : p.objs[k]? = some r) (hc : r.cleans = true) (h : p.refers k = false) : readPath nm (release nm p k).disk r.subFile = none := by
  unfold release
  rw [h]
  exact closeObj_gone hr hc

theorem release_none (j : Nat) (h : readPath nm p.disk r.subFile = none) (hr : p.objs[j]? = some r) : readPath nm (release nm p j).disk r.subFile = none := by
  unfold release
  split
  · exact h
  · unfold closeObj
    rw [hr]
    dsimp only
    unfold Extract.close
    split
    · exact removed_none _ _
    · exact h

/-- A variable refers to one object. -/
def Names (p : Prog) : Prop := ∀ v ∈ p.vars, ∀ w ∈ p.vars, v.1 = w.1 → v = w

theorem names_lookup (hn : Names p) {v : String × Nat} (hv : v ∈ p.vars) : p.lookup v.1 = some v.2 := by
  unfold Prog.lookup
  cases hf : p.vars.find? (fun w => w.1 = v.1) with
  | none =>
    have := List.find?_eq_none.mp hf v hv
    simp at this
  | some w =>
    have h1 := List.mem_of_find?_eq_some hf
    have h2 := List.find?_some hf
    simp only [decide_eq_true_eq] at h2
    rw [hn w h1 v hv h2]
    rfl

theorem names_congr (hn : Names p) (h : p'.vars = p.vars) : Names p' := by
  intro v hv w hw
  rw [h] at hv hw
  exact hn v hv w hw

theorem names_filter (hn : Names p) (h : p'.vars = p.vars.filter (fun v => v.1 ≠ x)) : Names p' := by
  intro v hv w hw
  rw [h] at hv hw
  exact hn v (List.mem_filter.mp hv).1 w (List.mem_filter.mp hw).1

theorem names_bind (hn : Names p) (h : p'.vars = (x, k) :: p.vars.filter (fun v => v.1 ≠ x)) : Names p' := by
  intro v hv w hw hvw
  rw [h] at hv hw
  rcases List.mem_cons.mp hv with rfl | hv <;> rcases List.mem_cons.mp hw with rfl | hw
  · rfl
  · have := (List.mem_filter.mp hw).2
    simp [← hvw] at this
  · have := (List.mem_filter.mp hv).2
    simp [hvw] at this
  · exact hn v (List.mem_filter.mp hv).1 w (List.mem_filter.mp hw).1 hvw

theorem act_names (hn : Names p) (a : Act) : Names (act nm p a).1 := by
  cases a with
  | make x r =>
    unfold act
    dsimp only
    have n1 := (new_objs (nm := nm) p r).1
    split
    · rename_i p1 err he
      rw [he] at n1
      exact names_congr hn n1
    · rename_i p1 he
      rw [he] at n1
      exact names_bind (names_congr hn n1) bind_vars.1
  | enter x r =>
    unfold act
    dsimp only
    have n1 := (new_objs (nm := nm) p r).1
    split
    · rename_i p1 err he
      rw [he] at n1
      exact names_congr hn n1
    · rename_i p1 he
      rw [he] at n1
      exact names_bind (p := { p1 with blocks := p.objs.length :: p1.blocks }) (names_congr hn n1) bind_vars.1
  | leave =>
    unfold act
    dsimp only
    split
    · exact hn
    · exact names_congr hn (release_vars.1.trans closeObj_vars.1)
  | copy y x =>
    unfold act
    dsimp only
    split
    · exact hn
    · exact names_bind hn bind_vars.1
  | del x =>
    unfold act
    dsimp only
    split
    · exact hn
    · exact names_filter hn release_vars.1
  | close x =>
    unfold act
    dsimp only
    split
    · exact hn
    · exact names_congr hn closeObj_vars.1
  | call r =>
    unfold act
    dsimp only
    have n1 := (new_objs (nm := nm) p r).1
    split
    · rename_i p1 err he
      rw [he] at n1
      exact names_congr hn n1
    · rename_i p1 he
      rw [he] at n1
      exact names_congr hn (closeObj_vars.1.trans n1)
  | save q f =>
    unfold act
    dsimp only
    split <;> exact names_congr hn rfl

theorem acts_names (hn : Names p) (as : List Act) : Names (acts nm p as).1 := by
  induction as generalizing p with
  | nil => exact hn
  | cons a as ih =>
    rw [acts_cons]
    split
    · exact ih (act_names hn a)
    · exact act_names hn a

theorem begin_names (d : Disk) : Names (begin d) := by
  intro v hv
  simp [begin] at hv

/-- Rebinding a variable: what it referred to is destroyed if that was the last reference. -/
theorem bind_gone (hn : Names p) (hr : p.objs[k]? = some r) (hc : r.cleans = true) (hk : p.refers k = true) (h : (bind nm p x j).refers k = false) :
    readPath nm (bind nm p x j).disk r.subFile = none := by
  obtain ⟨b1, b2, b3⟩ := bind_vars (nm := nm) (p := p) (x := x) (k := j)
  have hl : p.lookup x = some k := by
    rcases refers_iff.mp hk with ⟨v, hv, rfl⟩ | hv
    · have hvx : v.1 = x := by
        by_contra hne
        have : (bind nm p x j).refers v.2 = true := refers_iff.mpr (.inl ⟨v, by rw [b1]; exact List.mem_cons_of_mem _ (List.mem_filter.mpr ⟨hv, by simpa using hne⟩), rfl⟩)
        rw [h] at this
        cases this
      rw [← hvx]
      exact names_lookup hn hv
    · have : (bind nm p x j).refers k = true := refers_iff.mpr (.inr (by rw [b2]; exact hv))
      rw [h] at this
      cases this
  have hn := h
  rw [refers_congr (p := { p with vars := (x, j) :: p.vars.filter (fun v => v.1 ≠ x) }) b1 b2] at hn
  unfold bind
  rw [hl]
  exact release_gone (p := { p with vars := (x, j) :: p.vars.filter (fun v => v.1 ≠ x) }) hr hc hn

/-- A step that closes an object, or takes the last reference away. -/
theorem act_gone (hs : Sound p) (hn : Names p) {a : Act} (hr : p.objs[k]? = some r) (hc : r.cleans = true) (hk : p.refers k = true) (h0 : (act nm p a).2 = none)
    (h : Closes p k a ∨ (act nm p a).1.refers k = false) : readPath nm (act nm p a).1.disk r.subFile = none := by
  have hkl := hs k hk
  cases a with
  | make x r1 =>
    have h := h.resolve_left (by rintro (⟨_, h, _⟩ | ⟨h, _⟩) <;> cases h)
    unfold act at h h0 ⊢
    dsimp only at h h0 ⊢
    obtain ⟨n1, n2, n3, _⟩ := new_objs (nm := nm) p r1
    split at h
    · rename_i he; rw [he] at h0; cases h0
    · rename_i p1 he
      rw [he] at n1 n2 n3
      exact bind_gone (names_congr hn n1) (by rw [(n3 rfl).1, objs_old hkl]; exact hr) hc (by rw [refers_congr n1 n2]; exact hk) h
  | enter x r1 =>
    have h := h.resolve_left (by rintro (⟨_, h, _⟩ | ⟨h, _⟩) <;> cases h)
    unfold act at h h0 ⊢
    dsimp only at h h0 ⊢
    obtain ⟨n1, n2, n3, _⟩ := new_objs (nm := nm) p r1
    split at h
    · rename_i he; rw [he] at h0; cases h0
    · rename_i p1 he
      rw [he] at n1 n2 n3
      refine bind_gone (p := { p1 with blocks := p.objs.length :: p1.blocks }) (names_congr hn n1) ?_ hc ?_ h
      · dsimp only
        rw [(n3 rfl).1, objs_old hkl]
        exact hr
      · rcases refers_iff.mp hk with ⟨v, hv, e⟩ | hv
        · exact refers_iff.mpr (.inl ⟨v, n1 ▸ hv, e⟩)
        · exact refers_iff.mpr (.inr (List.mem_cons_of_mem _ (n2 ▸ hv)))
  | leave =>
    unfold act at h h0 ⊢
    dsimp only at h h0 ⊢
    split at h
    · rename_i hb; rw [hb] at h0; cases h0
    · rename_i j bs hb
      have hjk : j = k := by
        rcases h with (⟨_, h, _⟩ | ⟨_, h⟩) | h
        · cases h
        · rw [hb] at h; simpa using h
        · by_contra hne
          have : (release nm { closeObj nm p j with blocks := bs } j).refers k = true := by
            obtain ⟨q1, q2, _⟩ := release_vars (nm := nm) (p := { closeObj nm p j with blocks := bs }) (k := j)
            rcases refers_iff.mp hk with ⟨v, hv, e⟩ | hv
            · exact refers_iff.mpr (.inl ⟨v, by rw [q1]; dsimp only; rw [closeObj_vars.1]; exact hv, e⟩)
            · refine refers_iff.mpr (.inr ?_)
              rw [q2]
              rw [hb] at hv
              rcases List.mem_cons.mp hv with e | e
              · exact absurd e.symm hne
              · exact e
          rw [h] at this
          cases this
      subst hjk
      exact release_none (p := { closeObj nm p j with blocks := bs }) j (closeObj_gone hr hc) (by dsimp only; rw [closeObj_vars.2.2]; exact hr)
  | copy y x =>
    have h := h.resolve_left (by rintro (⟨_, h, _⟩ | ⟨h, _⟩) <;> cases h)
    unfold act at h h0 ⊢
    dsimp only at h h0 ⊢
    split at h
    · rename_i hb; rw [hb] at h0; cases h0
    · exact bind_gone hn hr hc hk h
  | del x =>
    have h := h.resolve_left (by rintro (⟨_, h, _⟩ | ⟨h, _⟩) <;> cases h)
    unfold act at h h0 ⊢
    dsimp only at h h0 ⊢
    split at h
    · rename_i hb; rw [hb] at h0; cases h0
    · rename_i j hj
      rw [refers_congr (p := { p with vars := p.vars.filter (fun v => v.1 ≠ x) }) release_vars.1 release_vars.2.1] at h
      have hjk : j = k := by
        rcases refers_iff.mp hk with ⟨v, hv, rfl⟩ | hv
        · have hvx : v.1 = x := by
            by_contra hne
            have : Prog.refers { p with vars := p.vars.filter (fun v => v.1 ≠ x) } v.2 = true := refers_iff.mpr (.inl ⟨v, List.mem_filter.mpr ⟨hv, by simpa using hne⟩, rfl⟩)
            rw [h] at this
            cases this
          have := names_lookup hn hv
          rw [hvx, hj] at this
          injection this
        · have : Prog.refers { p with vars := p.vars.filter (fun v => v.1 ≠ x) } k = true := refers_iff.mpr (.inr hv)
          rw [h] at this
          cases this
      subst hjk
      exact release_gone (p := { p with vars := p.vars.filter (fun v => v.1 ≠ x) }) hr hc h
  | close x =>
    unfold act at h h0 ⊢
    dsimp only at h h0 ⊢
    split at h
    · rename_i hb; rw [hb] at h0; cases h0
    · rename_i j hj
      have hjk : j = k := by
        rcases h with (⟨_, h, h'⟩ | ⟨h, _⟩) | h
        · injection h with h
          subst h
          rw [hj] at h'
          injection h'
        · cases h
        · rw [refers_congr closeObj_vars.1 closeObj_vars.2.1, hk] at h
          cases h
      subst hjk
      exact closeObj_gone hr hc
  | call r1 =>
    have h := h.resolve_left (by rintro (⟨_, h, _⟩ | ⟨h, _⟩) <;> cases h)
    unfold act at h h0 ⊢
    dsimp only at h h0 ⊢
    obtain ⟨n1, n2, _⟩ := new_objs (nm := nm) p r1
    split at h
    · rename_i he; rw [he] at h0; cases h0
    · rename_i p1 he
      rw [he] at n1 n2
      rw [refers_congr (closeObj_vars.1.trans n1) (closeObj_vars.2.1.trans n2), hk] at h
      cases h
  | save q f =>
    have h := h.resolve_left (by rintro (⟨_, h, _⟩ | ⟨h, _⟩) <;> cases h)
    unfold act at h
    dsimp only at h
    split at h
    all_goals
      dsimp only at h
      rw [refers_congr (p := p) (by rfl) (by rfl), hk] at h
      cases h

/-! ### Nothing is left -/

/-- No symbolic links. -/
def Plain (d : Disk) : Prop := ∀ e l, d e ≠ some (.link l)

theorem plain_target (hp : Plain d) (n : Nat) (q : String) : target nm d n q = some q := by
  unfold target
  split
  · rename_i l h
    exact absurd h (hp q l)
  · rfl

theorem plain_read (hp : Plain d) {q : String} (h : readPath nm d q = none) : d (nm q) = none := by
  unfold readPath fileAt at h
  split at h
  · rename_i hx; exact hx
  · cases h
  · rename_i l hx
    exact absurd hx (hp _ l)

theorem plain_remove (hp : Plain d) (q : String) : Plain (removeIfExists nm d q) := fun _ _ h => hp _ _ (removeIfExists_links h)

theorem construct_plain (hp : Plain d) (h : d' ∈ (construct nm d r).1) (hx : x ≠ nm r.subFile) : d' x = d x := by
  unfold construct at h
  split at h
  · cases h
  split at h
  · cases h
  unfold writeOut at h
  dsimp only at h
  rw [plain_target (plain_remove hp _)] at h
  dsimp only at h
  rcases List.mem_cons.mp h with h | h
  · rw [h, removeIfExists_other hx]
  rcases List.mem_cons.mp h with h | h
  · rw [h, put_other _ hx, removeIfExists_other hx]
  · rw [writeSteps_other h hx, put_other _ hx, removeIfExists_other hx]

theorem after_plain (hp : Plain d) (hx : x ≠ nm r.subFile) : afterConstruct nm d r x = d x := by
  rcases after_eq_or_mem (nm := nm) d r with h | h
  · rw [h]
  · exact construct_plain hp h hx

theorem closeObj_links {l : String} (h : (closeObj nm p k).disk x = some (.link l)) : p.disk x = some (.link l) := by
  unfold closeObj at h
  split at h
  · exact close_links h
  · exact h

theorem release_links {l : String} (h : (release nm p k).disk x = some (.link l)) : p.disk x = some (.link l) := by
  unfold release at h
  split at h
  · exact h
  · exact closeObj_links h

theorem bind_links {l y : String} (h : (bind nm p y k).disk x = some (.link l)) : p.disk x = some (.link l) := by
  unfold bind at h
  dsimp only at h
  split at h
  · have h := release_links h
    exact h
  · exact h

theorem new_links {l : String} (h : (new nm p r).1.disk x = some (.link l)) : p.disk x = some (.link l) := by
  unfold new at h
  split at h
  · exact after_links (close_links h)
  · exact after_links h

theorem act_plain (hp : Plain p.disk) (a : Act) : Plain (act nm p a).1.disk := by
  intro e l h
  refine hp e l ?_
  cases a with
  | make x r =>
    unfold act at h
    dsimp only at h
    split at h
    · rename_i he
      exact new_links (r := r) (by rw [he]; exact h)
    · rename_i he
      exact new_links (r := r) (by rw [he]; exact bind_links h)
  | enter x r =>
    unfold act at h
    dsimp only at h
    split at h
    · rename_i he
      exact new_links (r := r) (by rw [he]; exact h)
    · rename_i p1 he
      have h := bind_links h
      exact new_links (r := r) (by rw [he]; exact h)
  | leave =>
    unfold act at h
    dsimp only at h
    split at h
    · exact h
    · have h := release_links h
      exact closeObj_links h
  | copy y x =>
    unfold act at h
    dsimp only at h
    split at h
    · exact h
    · exact bind_links h
  | del x =>
    unfold act at h
    dsimp only at h
    split at h
    · exact h
    · have h := release_links h
      exact h
  | close x =>
    unfold act at h
    dsimp only at h
    split at h
    · exact h
    · exact closeObj_links h
  | call r =>
    unfold act at h
    dsimp only at h
    split at h
    · rename_i he
      exact new_links (r := r) (by rw [he]; exact h)
    · rename_i he
      exact new_links (r := r) (by rw [he]; exact closeObj_links h)
  | save q f =>
    unfold act at h
    dsimp only at h
    split at h
    · exact removeIfExists_links h
    · exact removeIfExists_links (put_file_links h)

theorem closeObj_shrinks : (closeObj nm p k).disk e = p.disk e ∨ (closeObj nm p k).disk e = none := by
  unfold closeObj
  split
  · dsimp only
    unfold Extract.close
    split
    · unfold removeIfExists
      split
      · unfold put
        split
        · exact .inr rfl
        · exact .inl rfl
      · exact .inl rfl
    · exact .inl rfl
  · exact .inl rfl

theorem release_shrinks : (release nm p k).disk e = p.disk e ∨ (release nm p k).disk e = none := by
  unfold release
  split
  · exact .inl rfl
  · exact closeObj_shrinks

theorem bind_shrinks : (bind nm p x k).disk e = p.disk e ∨ (bind nm p x k).disk e = none := by
  unfold bind
  dsimp only
  split
  · exact release_shrinks
  · exact .inl rfl

theorem new_plain (hp : Plain p.disk) (h : nm r.subFile ≠ e) : (new nm p r).1.disk e = p.disk e := by
  unfold new
  split
  · dsimp only
    rw [close_other (Ne.symm h), after_plain hp (Ne.symm h)]
  · exact after_plain hp (Ne.symm h)

/-- A step that does not write to an entry leaves it or removes it. -/
theorem act_shrinks (hp : Plain p.disk) {a : Act} (hw : ∀ q, written? a = some q → nm q ≠ e) : (act nm p a).1.disk e = p.disk e ∨ (act nm p a).1.disk e = none := by
  cases a with
  | make x r =>
    have hn := new_plain (p := p) hp (hw r.subFile rfl)
    unfold act
    dsimp only
    split
    · rename_i he; rw [he] at hn; exact .inl hn
    · rename_i he
      rw [he] at hn
      rw [← hn]
      exact bind_shrinks
  | enter x r =>
    have hn := new_plain (p := p) hp (hw r.subFile rfl)
    unfold act
    dsimp only
    split
    · rename_i he; rw [he] at hn; exact .inl hn
    · rename_i he
      rw [he] at hn
      rw [← hn]
      exact bind_shrinks
  | leave =>
    unfold act
    dsimp only
    split
    · exact .inl rfl
    · rename_i j bs _
      rcases release_shrinks (nm := nm) (p := { closeObj nm p j with blocks := bs }) (k := j) (e := e) with h | h
      · rw [h]; exact closeObj_shrinks
      · exact .inr h
  | copy y x =>
    unfold act
    dsimp only
    split
    · exact .inl rfl
    · exact bind_shrinks
  | del x =>
    unfold act
    dsimp only
    split
    · exact .inl rfl
    · exact release_shrinks
  | close x =>
    unfold act
    dsimp only
    split
    · exact .inl rfl
    · exact closeObj_shrinks
  | call r =>
    have hn := new_plain (p := p) hp (hw r.subFile rfl)
    unfold act
    dsimp only
    split
    · rename_i he; rw [he] at hn; exact .inl hn
    · rename_i he
      rw [he] at hn
      rw [← hn]
      exact closeObj_shrinks
  | save q f =>
    have hq := hw q rfl
    unfold act
    dsimp only
    rw [plain_target (plain_remove hp _)]
    dsimp only
    rw [put_other _ (Ne.symm hq), removeIfExists_other (Ne.symm hq)]
    exact .inl rfl

/-- A step that raises changes no variable and no object. -/
theorem act_raises {a : Act} {err : Err} (h : (act nm p a).2 = some err) : (act nm p a).1.vars = p.vars ∧ (act nm p a).1.blocks = p.blocks ∧ (act nm p a).1.objs = p.objs := by
  cases a with
  | make x r =>
    obtain ⟨n1, n2, _, n4⟩ := new_objs (nm := nm) p r
    unfold act at h ⊢
    dsimp only at h ⊢
    split
    · rename_i he; rw [he] at n1 n2 n4; exact ⟨n1, n2, n4 _ rfl⟩
    · rename_i he; rw [he] at h; cases h
  | enter x r =>
    obtain ⟨n1, n2, _, n4⟩ := new_objs (nm := nm) p r
    unfold act at h ⊢
    dsimp only at h ⊢
    split
    · rename_i he; rw [he] at n1 n2 n4; exact ⟨n1, n2, n4 _ rfl⟩
    · rename_i he; rw [he] at h; cases h
  | leave =>
    unfold act at h ⊢
    dsimp only at h ⊢
    split
    · exact ⟨rfl, rfl, rfl⟩
    · rename_i he; rw [he] at h; cases h
  | copy y x =>
    unfold act at h ⊢
    dsimp only at h ⊢
    split
    · exact ⟨rfl, rfl, rfl⟩
    · rename_i he; rw [he] at h; cases h
  | del x =>
    unfold act at h ⊢
    dsimp only at h ⊢
    split
    · exact ⟨rfl, rfl, rfl⟩
    · rename_i he; rw [he] at h; cases h
  | close x =>
    unfold act at h ⊢
    dsimp only at h ⊢
    split
    · exact ⟨rfl, rfl, rfl⟩
    · rename_i he; rw [he] at h; cases h
  | call r =>
    obtain ⟨n1, n2, _, n4⟩ := new_objs (nm := nm) p r
    unfold act at h ⊢
    dsimp only at h ⊢
    split
    · rename_i he; rw [he] at n1 n2 n4; exact ⟨n1, n2, n4 _ rfl⟩
    · rename_i he; rw [he] at h; cases h
  | save q f =>
    unfold act
    dsimp only
    split <;> exact ⟨rfl, rfl, rfl⟩

/-- What is at the entry belongs to an object that removes it. -/
def Left (nm : String → String) (e : String) (p : Prog) : Prop :=
  Plain p.disk ∧ (p.disk e ≠ none → ∃ k r, p.objs[k]? = some r ∧ p.refers k = true ∧ r.cleans = true ∧ nm r.subFile = e)

theorem check_cleans (h : r.check = .ok ()) (hc : r.cleanup = true) : r.cleans = true := by
  unfold Request.check at h
  unfold Request.cleans
  split
  · rename_i b ns hj
    rw [hj] at h
    dsimp only at h
    split at h
    · rename_i hn
      simp [hc, hn]
    · cases h
  · exact hc

theorem construct_check (h : (construct nm d r).1 ≠ [] ∨ (construct nm d r).2 = none) : r.check = .ok () := by
  unfold construct at h
  split at h
  · rcases h with h | h
    · exact absurd rfl h
    · cases h
  · rename_i h'; exact h'

/-- A constructor that raised, with `cleanup`, leaves the entry as it was or removes it. -/
theorem raised_shrinks {err : Err} (hp : Plain p.disk) (hc : r.cleanup = true) (h : (new nm p r).2 = some err) :
    (new nm p r).1.disk (nm r.subFile) = p.disk (nm r.subFile) ∨ (new nm p r).1.disk (nm r.subFile) = none := by
  have hpl : Plain (new nm p r).1.disk := fun _ _ h => hp _ _ (new_links h)
  by_cases hcl : r.cleans = true
  · refine .inr (plain_read hpl ?_)
    unfold new at h ⊢
    split
    · dsimp only
      unfold Extract.close
      rw [if_pos hcl]
      exact removed_none _ _
    · rename_i he; rw [he] at h; cases h
  · left
    have : (construct nm p.disk r).1 = [] := by
      by_contra hne
      exact hcl (check_cleans (construct_check (.inl hne)) hc)
    unfold new
    split
    · dsimp only
      unfold Extract.close afterConstruct
      rw [if_neg hcl, this]
      rfl
    · rename_i he
      exact absurd (check_cleans (construct_check (.inr he)) hc) hcl

theorem act_left (hs : Sound p) (hn : Names p) {a : Act} (hi : Left nm e p) (hcl : ∀ r, request? a = some r → nm r.subFile = e → r.cleanup = true)
    (hw : ∀ q f, a = .save q f → nm q ≠ e) : Left nm e (act nm p a).1 := by
  refine ⟨act_plain hi.1 a, fun hd => ?_⟩
  -- the entry was there before, and the step did not write to it
  have old : (act nm p a).1.disk e = p.disk e ∨ (act nm p a).1.disk e = none → ∃ k r, (act nm p a).1.objs[k]? = some r ∧ (act nm p a).1.refers k = true ∧ r.cleans = true ∧ nm r.subFile = e := by
    intro hsh
    have hsh := hsh.resolve_right hd
    obtain ⟨k, r, hr, hk, hc, hsub⟩ := hi.2 (by rw [← hsh]; exact hd)
    cases h2 : (act nm p a).2 with
    | some err =>
      obtain ⟨r1, r2, r3⟩ := act_raises h2
      exact ⟨k, r, by rw [r3]; exact hr, by rw [refers_congr r1 r2]; exact hk, hc, hsub⟩
    | none =>
      cases h3 : (act nm p a).1.refers k with
      | false =>
        have := plain_read (act_plain hi.1 a) (act_gone hs hn hr hc hk h2 (.inr h3))
        rw [hsub] at this
        exact absurd this hd
      | true =>
        rcases act_refers hs h3 with ⟨_, g⟩ | ⟨_, _, _, g, _⟩
        · exact ⟨k, r, by rw [g]; exact hr, h3, hc, hsub⟩
        · have := hs k hk
          omega
  by_cases hwr : ∀ q, written? a = some q → nm q ≠ e
  · exact old (act_shrinks hi.1 hwr)
  · simp only [not_forall, not_not] at hwr
    obtain ⟨q, hq, he⟩ := hwr
    cases a with
    | make x r =>
      injection hq with hq
      subst hq
      have hcu := hcl r rfl he
      cases h2 : (new nm p r).2 with
      | some err =>
        refine old ?_
        have := raised_shrinks hi.1 hcu h2
        rw [he] at this
        unfold act
        dsimp only
        split
        · rename_i h'; rw [h'] at this; exact this
        · rename_i h'; rw [h'] at h2; cases h2
      | none =>
        obtain ⟨n1, n2, n3, _⟩ := new_objs (nm := nm) p r
        obtain ⟨m1, m2, m3⟩ := n3 h2
        refine ⟨p.objs.length, r, ?_, ?_, check_cleans (construct_check (.inr m3)) hcu, he⟩
        · unfold act
          dsimp only
          split
          · rename_i h'; rw [h'] at h2; cases h2
          · rename_i h'
            rw [h'] at m1
            rw [bind_vars.2.2, m1]
            simp
        · unfold act
          dsimp only
          split
          · rename_i h'; rw [h'] at h2; cases h2
          · refine refers_iff.mpr (.inl ⟨(x, p.objs.length), ?_, rfl⟩)
            rw [bind_vars.1]
            exact List.mem_cons_self
    | enter x r =>
      injection hq with hq
      subst hq
      have hcu := hcl r rfl he
      cases h2 : (new nm p r).2 with
      | some err =>
        refine old ?_
        have := raised_shrinks hi.1 hcu h2
        rw [he] at this
        unfold act
        dsimp only
        split
        · rename_i h'; rw [h'] at this; exact this
        · rename_i h'; rw [h'] at h2; cases h2
      | none =>
        obtain ⟨n1, n2, n3, _⟩ := new_objs (nm := nm) p r
        obtain ⟨m1, m2, m3⟩ := n3 h2
        refine ⟨p.objs.length, r, ?_, ?_, check_cleans (construct_check (.inr m3)) hcu, he⟩
        · unfold act
          dsimp only
          split
          · rename_i h'; rw [h'] at h2; cases h2
          · rename_i h'
            rw [h'] at m1
            rw [bind_vars.2.2]
            dsimp only at m1 ⊢
            rw [m1]
            simp
        · unfold act
          dsimp only
          split
          · rename_i h'; rw [h'] at h2; cases h2
          · refine refers_iff.mpr (.inl ⟨(x, p.objs.length), ?_, rfl⟩)
            rw [bind_vars.1]
            exact List.mem_cons_self
    | call r =>
      injection hq with hq
      subst hq
      have hcu := hcl r rfl he
      cases h2 : (new nm p r).2 with
      | some err =>
        refine old ?_
        have := raised_shrinks hi.1 hcu h2
        rw [he] at this
        unfold act
        dsimp only
        split
        · rename_i h'; rw [h'] at this; exact this
        · rename_i h'; rw [h'] at h2; cases h2
      | none =>
        obtain ⟨n1, n2, n3, _⟩ := new_objs (nm := nm) p r
        obtain ⟨m1, m2, m3⟩ := n3 h2
        have hc := check_cleans (construct_check (.inr m3)) hcu
        refine absurd ?_ hd
        have hpl := act_plain (nm := nm) hi.1 (.call r)
        rw [← he]
        refine plain_read hpl ?_
        unfold act
        dsimp only
        split
        · rename_i h'; rw [h'] at h2; cases h2
        · rename_i h'
          rw [h'] at m1
          exact closeObj_gone (by rw [m1]; simp) hc
    | save q' f =>
      injection hq with hq
      subst hq
      exact absurd he (hw q' f rfl)
    | leave => cases hq
    | copy y x => cases hq
    | del x => cases hq
    | close x => cases hq

theorem acts_left (hs : Sound p) (hn : Names p) {as : List Act} (hi : Left nm e p) (hcl : ∀ a ∈ as, ∀ r, request? a = some r → nm r.subFile = e → r.cleanup = true)
    (hw : ∀ q f, Act.save q f ∈ as → nm q ≠ e) : Left nm e (acts nm p as).1 := by
  induction as generalizing p with
  | nil => exact hi
  | cons a as ih =>
    have hstep : Left nm e (act nm p a).1 := act_left hs hn hi (hcl a List.mem_cons_self) fun q f h => hw q f (h ▸ List.mem_cons_self)
    rw [acts_cons]
    split
    · exact ih (act_sound hs a) (act_names hn a) hstep (fun b hb => hcl b (List.mem_cons_of_mem _ hb)) fun q f h => hw q f (List.mem_cons_of_mem _ h)
    · exact hstep

end Meds.Temp
