import Verif.Lemmas.Temporary

/-!
# C123: temporary files

`MEDSExtractor(..., cleanup=True)`, in a `with` block or bound to a variable, is the documented way to get a temporary file that is "cleaned when you are done with it".  The claim that the file is
there as long as the object is in use, and gone afterwards, is false in one half: an older object with the same output path, when it is destroyed, removes the file of the newer one, and
`with ... as x` destroys what `x` was before only after the new file has been written.
-/

namespace Meds.Temp
open Disk Extract Spec

variable {nm : String → String} {d : Disk} {as : List Act} {p p1 : Prog} {err : Option Err} {r r0 : Request} {x : String} {k : Nat}

/-- The full claim: from its construction on, as long as the object is in use, its file is what was extracted. -/
def FileThere (nm : String → String) (p : Prog) (r : Request) (p1 : Prog) (as : List Act) : Prop :=
  InUse nm p.objs.length p1 as → ∃ f g, readPath nm p.disk r.medsFile = some f ∧ extracted f r.job = .ok g ∧ readPath nm (acts nm p1 as).1.disk r.subFile = some g

/-- After any program: an extractor object is made with `x = E(...)` or `with E(...) as x:`.  As long as it is in use its file is there and is what was extracted, if no object with `cleanup` and the
same output path was still referred to, what follows writes nothing to that path, and the path was no symbolic link.  Missing from the full claim: older objects with the same output path. -/
theorem C123_there_partial {as1 as2 : List Act} (h1 : acts nm (begin d) as1 = (p, none)) {a : Act} (ha : a = .make x r ∨ a = .enter x r) (h2 : act nm p a = (p1, none))
    (hlink : ∀ l, p.disk (nm r.subFile) ≠ some (.link l))
    (hothers : ∀ j r', p.objs[j]? = some r' → p.refers j = true → r'.cleans = true → nm r'.subFile ≠ nm r.subFile)
    (hlater : ∀ b ∈ as2, ∀ q, written? b = some q → nm q ≠ nm r.subFile) : FileThere nm p r p1 as2 := by
  intro hu
  have hs : Sound p := by
    have := acts_sound (nm := nm) (begin_sound d) as1
    rw [h1] at this
    exact this
  obtain ⟨f, g, e1, e2, e3, e4⟩ := act_made hs ha h2 hlink hothers
  refine ⟨f, g, e1, e2, file_readPath (acts_keep (k := p.objs.length) (act_sound' hs h2) e3 hlater ?_ hu)⟩
  intro j r' hr' hj hc hsub
  have hj' : (act nm p a).1.refers j = true := by rw [h2]; exact hj
  rcases act_refers hs hj' with ⟨g1, g2⟩ | ⟨r'', _, _, g2, _⟩
  · rw [h2] at g2
    exact absurd hsub (hothers j r' (g2 ▸ hr') g1 hc)
  · exact g2

/-- When an object with `cleanup` is closed, or the last reference to it goes, there is no file at its output path afterwards — whoever wrote it. -/
theorem C123_gone {as1 : List Act} (h1 : acts nm (begin d) as1 = (p, none)) {a : Act} (h2 : act nm p a = (p1, none)) (hr : p.objs[k]? = some r) (hc : r.cleans = true) (hk : p.refers k = true)
    (h : Closes p k a ∨ p1.refers k = false) : readPath nm p1.disk r.subFile = none := by
  have hs : Sound p := by
    have := acts_sound (nm := nm) (begin_sound d) as1
    rw [h1] at this
    exact this
  have hn : Names p := by
    have := acts_names (nm := nm) (begin_names d) as1
    rw [h1] at this
    exact this
  have := act_gone hs hn (a := a) (k := k) hr hc hk (by rw [h2]) (by rw [h2]; exact h)
  rw [h2] at this
  exact this

/-- The other half fails whenever a variable is used again: if `x` is the only reference to an object with `cleanup`, then after `with E(...) as x:` with the same output path, inside the block, there
is no file. -/
theorem C123_reused_variable {as1 : List Act} (h1 : acts nm (begin d) as1 = (p, none)) {a : Act} (ha : a = .make x r ∨ a = .enter x r) (h2 : act nm p a = (p1, none))
    (hx : p.lookup x = some k) (hr : p.objs[k]? = some r0) (hc : r0.cleans = true) (honly : ∀ v ∈ p.vars, v.2 = k → v.1 = x) (hb : k ∉ p.blocks)
    (hsame : nm r0.subFile = nm r.subFile) : readPath nm p1.disk r.subFile = none := by
  have hs : Sound p := by
    have := acts_sound (nm := nm) (begin_sound d) as1
    rw [h1] at this
    exact this
  have hk := lookup_refers hx
  have hkl := hs k hk
  have hno : p1.refers k = false := by
    rw [Bool.eq_false_iff]
    intro hn
    have hv : p1.vars = (x, p.objs.length) :: p.vars.filter (fun v => v.1 ≠ x) ∧ (∀ j ∈ p1.blocks, j ∈ p.blocks ∨ j = p.objs.length) := act_made_vars ha h2
    rcases refers_iff.mp hn with ⟨v, hv1, hv2⟩ | hv1
    · rw [hv.1] at hv1
      rcases List.mem_cons.mp hv1 with rfl | hv1
      · dsimp only at hv2; omega
      · obtain ⟨m1, m2⟩ := List.mem_filter.mp hv1
        simp [honly v m1 hv2] at m2
    · rcases hv.2 k hv1 with h | h
      · exact hb h
      · omega
  have := C123_gone h1 h2 hr hc hk (.inr hno)
  unfold readPath at this ⊢
  rw [← hsame]
  exact this

/-- Files at paths that the program does not write to stay as they are, whatever objects are closed or destroyed. -/
theorem C123_other_files {e : String} {g : Fits} (hd : d e = some (.file g)) (hw : ∀ a ∈ as, ∀ q, written? a = some q → nm q ≠ e) : (acts nm (begin d) as).1.disk e = some (.file g) := by
  refine acts_away (begin_sound d) hd hw ?_
  intro j r hr
  simp [begin] at hr

/-- Nothing is left: without symbolic links, if every extractor that writes to a path has `cleanup` and nothing else writes there, then once nothing refers to an extractor object any more there is no
file at the path — also after exceptions. -/
theorem C123_nothing_left {q : String} (hl : ∀ e l, d e ≠ some (.link l)) (hd : d (nm q) = none) (hcl : ∀ a ∈ as, ∀ r, request? a = some r → nm r.subFile = nm q → r.cleanup = true)
    (hw : ∀ path f, Act.save path f ∈ as → nm path ≠ nm q) (h : acts nm (begin d) as = (p, err)) (hfree : ∀ k, p.refers k = false) : readPath nm p.disk q = none := by
  have hi := acts_left (e := nm q) (as := as) (begin_sound d) (begin_names d) ⟨hl, fun h => absurd hd h⟩ hcl hw
  rw [h] at hi
  cases hx : p.disk (nm q) with
  | none => unfold readPath fileAt; rw [hx]
  | some n =>
    obtain ⟨k, r, _, hk, _⟩ := hi.2 (by rw [hx]; simp)
    rw [hfree k] at hk
    cases hk

/-! ### Examples -/

namespace ExTemp

/-- A directory with one MEDS file. -/
def home : Disk := fun e => if e = "a.fits" then some (.file Ex.tiny) else none

/-- A temporary catalogue. -/
def sub (cleanup : Bool) (path : String) : Request := ⟨"a.fits", path, cleanup, .catalog⟩

/-- Is there a file at the end, and was there no exception? -/
def there (as : List Act) (path : String) : Bool := (acts id (begin home) as).2 == none && (readPath id (acts id (begin home) as).1.disk path).isSome

/-- Is there none, without an exception? -/
def missing (as : List Act) (path : String) : Bool := (acts id (begin home) as).2 == none && (readPath id (acts id (begin home) as).1.disk path).isNone

/-- **C123 (counterexample)** `for ...: with MEDSExtractor(..., cleanup=True) as e:` with one temporary path: in the second block the file is missing, though the object is in use and nothing raised. -/
theorem C123_counterexample : ∃ (as1 : List Act) (p p1 : Prog) (r : Request), acts id (begin home) as1 = (p, none) ∧ act id p (.enter "e" r) = (p1, none) ∧ ¬ FileThere id p r p1 [] := by
  refine ⟨[.enter "e" (sub true "t.fits"), .leave], _, _, sub true "t.fits", rfl, rfl, ?_⟩
  intro h
  obtain ⟨f, g, _, _, h3⟩ := h (by unfold InUse; decide +kernel)
  have h4 := C123_reused_variable (nm := id) (d := home) (as1 := [.enter "e" (sub true "t.fits"), .leave]) (x := "e") (k := 0) (r := sub true "t.fits") (r0 := sub true "t.fits") rfl (.inr rfl) rfl
    (by decide +kernel) rfl rfl (by decide +kernel) (by decide +kernel) rfl
  unfold acts at h3
  rw [h4] at h3
  cases h3

example : missing [.enter "e" (sub true "t.fits"), .leave, .enter "e" (sub true "t.fits")] "t.fits" = true := by decide +kernel
example : missing [.make "e" (sub true "t.fits"), .make "e" (sub true "t.fits")] "t.fits" = true := by decide +kernel

/-- The first block; the second one with another path, another variable, or after `del`. -/
example : there [.enter "e" (sub true "t.fits")] "t.fits" = true := by decide +kernel
example : there [.enter "e" (sub true "t.fits"), .leave, .enter "e" (sub true "u.fits")] "u.fits" = true := by decide +kernel
example : there [.enter "e" (sub true "t.fits"), .leave, .del "e", .enter "e" (sub true "t.fits")] "t.fits" = true := by decide +kernel

/-- Another variable: the file is there until the first variable goes, also inside the block. -/
example : there [.enter "e" (sub true "t.fits"), .leave, .enter "f" (sub true "t.fits")] "t.fits" = true := by decide +kernel
example : missing [.enter "e" (sub true "t.fits"), .leave, .enter "f" (sub true "t.fits"), .del "e"] "t.fits" = true := by decide +kernel

/-- The object is in use while a second variable refers to it. -/
example : there [.make "e" (sub true "t.fits"), .copy "f" "e", .del "e"] "t.fits" = true := by decide +kernel
example : missing [.make "e" (sub true "t.fits"), .copy "f" "e", .del "e", .del "f"] "t.fits" = true := by decide +kernel

/-- The hypotheses of `C123_there_partial`. -/
example : FileThere id (begin home) (sub true "t.fits") (act id (begin home) (.enter "e" (sub true "t.fits"))).1 [.copy "f" "e", .call (sub true "u.fits")] :=
  C123_there_partial (as1 := []) (a := .enter "e" (sub true "t.fits")) (x := "e") rfl (.inr rfl) rfl (fun l h => by simp [begin, home, sub] at h) (fun j r' h => by simp [begin] at h) (by
    intro b hb q hq
    rcases List.mem_cons.mp hb with rfl | hb
    · cases hq
    · rcases List.mem_cons.mp hb with rfl | hb
      · injection hq with hq
        subst hq
        decide +kernel
      · cases hb)

/-- The hypotheses of `C123_nothing_left`: two temporary files, one of them closed by hand, all variables deleted. -/
example : readPath id (acts id (begin home) [.make "e" (sub true "t.fits"), .enter "f" (sub true "t.fits"), .close "e", .leave, .del "e", .del "f"]).1.disk "t.fits" = none :=
  C123_nothing_left (err := none) (fun e l => by unfold home; split <;> simp) rfl (by decide +kernel) (by simp) rfl (fun k => by rfl)

/-- `C123_other_files`: the input. -/
example (as : List Act) (h : ∀ a ∈ as, ∀ q, written? a = some q → q ≠ "a.fits") : (acts id (begin home) as).1.disk "a.fits" = some (.file Ex.tiny) := C123_other_files rfl h

end ExTemp

end Meds.Temp
