import Verif.Lemmas.MakerHeap
import Verif.Examples.Maker

/-!
# C122: makers and the objects of the caller

The caller's arrays, lists and dictionaries are objects that the caller can change after handing them over, and use for several makers.  A maker works with copies, and changes none of the caller's
objects; the PSF objects and `psf_info` alone are used as they are when the file is written.
-/

namespace Meds
open Heap Maker Spec

variable {cast : String → ℚ → ℚ}

/-- Whatever the caller does, in whatever order: the program ends as the one does in which makers are values made at construction.  It raises an exception exactly when that one has no outcome, and
otherwise its files are the same, and the same is in the objects of the caller. -/
theorem C122_makers_are_values (cast : String → ℚ → ℚ) (ops : List Op) :
    (∀ st, run ops (start cast) = .ok st → ∃ s, runV ops (startV cast) = some s ∧ Agree st s) ∧
    (∀ s, runV ops (startV cast) = some s → ∃ st, run ops (start cast) = .ok st ∧ Agree st s) := by
  have h := run_both (inv_start cast) ops
  constructor
  · intro st hs
    rw [hs] at h
    cases hv : runV ops (startV cast) with
    | none => rw [hv] at h; exact h.elim
    | some s => rw [hv] at h; exact ⟨s, rfl, h.agree⟩
  · intro s hv
    rw [hv] at h
    cases hs : run ops (start cast) with
    | error e => rw [hs] at h; exact h.elim
    | ok st => rw [hs] at h; exact ⟨st, rfl, h.agree⟩

theorem reached {ops : List Op} {st : State} (h : run ops (start cast) = .ok st) : ∃ s, runV ops (startV cast) = some s ∧ Inv st s := by
  have hb := run_both (inv_start cast) ops
  rw [h] at hb
  cases hv : runV ops (startV cast) with
  | none => rw [hv] at hb; exact hb.elim
  | some s => rw [hv] at hb; exact ⟨s, rfl, hb⟩

/-- Construction and writing leave every object of the caller as it was, `default_config` and its list of types among them. -/
theorem C122_caller_unchanged {ops : List Op} {st st' : State} (h : run ops (start cast) = .ok st) (op : Op) (hop : (∃ a, op = .make a) ∨ ∃ k, op = .write k)
    (h' : step st op = .ok st') (var : Nat) (v : Val) (hv : Shows st var v) : Shows st' var v := by
  obtain ⟨s, _, I⟩ := reached h
  have hb := step_both I op
  rw [h'] at hb
  have hvars : st'.vars = st.vars := by
    rcases hop with ⟨a, rfl⟩ | ⟨k, rfl⟩
    · have h' : make st a = .ok st' := h'
      rw [make_eq] at h'
      obtain ⟨_, _, h'⟩ := Res.bind_eq_ok.mp h'
      obtain ⟨_, _, h'⟩ := Res.bind_eq_ok.mp h'
      obtain ⟨_, _, h'⟩ := Res.bind_eq_ok.mp h'
      obtain ⟨_, _, h'⟩ := Res.bind_eq_ok.mp h'
      obtain ⟨_, _, h'⟩ := Res.bind_eq_ok.mp h'
      split at h'
      · cases h'
      · obtain ⟨_, _, h'⟩ := Res.bind_eq_ok.mp h'
        obtain ⟨_, _, h'⟩ := Res.bind_eq_ok.mp h'
        injection h' with h'
        rw [← h']
        rfl
    · have h' : Heap.write st k = .ok st' := h'
      unfold Heap.write at h'
      split at h'
      · cases h'
      · obtain ⟨_, _, h'⟩ := Res.bind_eq_ok.mp h'
        obtain ⟨_, _, h'⟩ := Res.bind_eq_ok.mp h'
        injection h' with h'
        rw [← h']
  cases hs : stepV s op with
  | none => rw [hs] at hb; exact hb.elim
  | some s' =>
    rw [hs] at hb
    have hvals : s'.vals = s.vals := by
      rcases hop with ⟨a, rfl⟩ | ⟨k, rfl⟩
      · obtain ⟨mk, _, rfl⟩ := Option.map_eq_some_iff.mp hs
        rfl
      · obtain ⟨m, _, hs⟩ := Option.bind_eq_some_iff.mp hs
        obtain ⟨r, _, hs⟩ := Option.bind_eq_some_iff.mp hs
        injection hs with hs
        rw [← hs]
    obtain ⟨a, c, h1, h2, h3⟩ := hv
    have hl : var < s.vals.length := I.agree.2.1 ▸ (List.getElem?_eq_some_iff.mp h1).1
    have hw : s.vals[var]? = some s.vals[var] := List.getElem?_eq_getElem hl
    obtain ⟨a0, c0, g1, g2, g3⟩ := I.agree.2.2 var _ hw
    obtain ⟨a1, c1, k1, k2, k3⟩ := hb.agree.2.2 var _ ((congrArg (·[var]?) hvals).trans hw)
    rw [hvars] at k1 k3
    refine ⟨a1, c1, hvars ▸ k1, k2, ?_⟩
    rw [hvars, ← k3, g3, h3, ← h2, ← g2]
    rw [h1] at g1
    injection g1 with g1
    rw [g1]

/-- In a program that does not itself change them, `default_config` and its list of types are those of the module at the end. -/
theorem C122_defaults {ops : List Op} {st : State} (h : run ops (start cast) = .ok st) (h0 : ∀ v, Op.store 0 v ∉ ops) (h1 : ∀ v, Op.store 1 v ∉ ops) :
    Shows st 0 (.conf (fun c => { c with firstImageIsCoadd := true, checkInCoadd := true, forceIntoCoaddBounds := true, coaddBuffer := 1 / 1000, cast := cast }) (some 1)) ∧
    Shows st 1 (.types []) := by
  obtain ⟨s, hs, I⟩ := reached h
  exact ⟨I.agree.2.2 0 _ ((vals_kept hs h0 (by simp [startV])).trans rfl), I.agree.2.2 1 _ ((vals_kept hs h1 (by simp [startV])).trans rfl)⟩

/-- A maker is constructed, anything else is done but no writing of this maker, then it writes: the file is what the constructor makes of the values that its arguments had then, with the PSF objects
and `psf_info` as they are now. -/
theorem C122_file {ops1 ops2 : List Op} {a : Args} {st1 st : State} (h1 : run ops1 (start cast) = .ok st1) (hno : Op.write st1.makers.length ∉ ops2)
    (h : run (ops1 ++ .make a :: ops2 ++ [.write st1.makers.length]) (start cast) = .ok st) :
    ∃ s1 mk s2 r, runV ops1 (startV cast) = some s1 ∧ construct s1 a = some mk ∧ runV (ops1 ++ .make a :: ops2) (startV cast) = some s2 ∧ writes s2 mk a.psf a.psfInfo = some r ∧
      st.files.getLast? = some r.2 := by
  obtain ⟨s1, hs1, I1⟩ := reached h1
  obtain ⟨s, hs, I⟩ := reached h
  obtain ⟨mk, s2, r, e1, e2, e3, e4⟩ := file_values hs1 (I1.makers.length_eq ▸ hno) (I1.makers.length_eq ▸ hs)
  exact ⟨s1, mk, s2, r, hs1, e1, e2, e3, by rw [I.agree.1, e4, List.getLast?_append]; rfl⟩

/-- Two programs that do the same up to the construction of a maker, and then whatever they like — change the catalogue, `image_info`, the metadata, the configuration and its list of types, use them
for other makers, let those write — but leave the PSF objects and `psf_info` of this maker alone: it writes the same file in both. -/
theorem C122_later_changes {ops1 ops2 ops2' : List Op} {a : Args} {st1 st st' : State} (h1 : run ops1 (start cast) = .ok st1)
    (hno : Op.write st1.makers.length ∉ ops2) (hno' : Op.write st1.makers.length ∉ ops2')
    (hkeep : ∀ var, a.psf = some var ∨ a.psfInfo = some var → ∀ v, Op.store var v ∉ ops2 ∧ Op.store var v ∉ ops2')
    (h : run (ops1 ++ .make a :: ops2 ++ [.write st1.makers.length]) (start cast) = .ok st)
    (h' : run (ops1 ++ .make a :: ops2' ++ [.write st1.makers.length]) (start cast) = .ok st') :
    ∃ f, st.files.getLast? = some f ∧ st'.files.getLast? = some f := by
  obtain ⟨s1, mk, s2, r, e1, e2, e3, e4, e5⟩ := C122_file h1 hno h
  obtain ⟨s1', mk', s2', r', e1', e2', e3', e4', e5'⟩ := C122_file h1 hno' h'
  rw [e1] at e1'
  injection e1' with e1'
  subst e1'
  rw [e2] at e2'
  injection e2' with e2'
  subst e2'
  have hp : given s2 asPsfs a.psf = given s2' asPsfs a.psf :=
    (given_kept e1 e2 e3 (.inl rfl) fun var hv v => (hkeep var (.inl hv) v).1).trans (given_kept e1 e2 e3' (.inl rfl) fun var hv v => (hkeep var (.inl hv) v).2).symm
  have hq : given s2 asText a.psfInfo = given s2' asText a.psfInfo :=
    (given_kept e1 e2 e3 (.inr rfl) fun var hv v => (hkeep var (.inr hv) v).1).trans (given_kept e1 e2 e3' (.inr rfl) fun var hv v => (hkeep var (.inr hv) v).2).symm
  have hr : r = r' := by
    unfold writes at e4 e4'
    rw [hp, hq, e4'] at e4
    injection e4 with e4
    exact e4.symm
  exact ⟨r.2, e5, hr ▸ e5'⟩

namespace ExHeap

/-- The objects of the caller: 2 catalogue, 3 image_info, 4 list of types, 5 configuration with that list, 6 PSF objects, 7 psf_info, 8 metadata. -/
def prepare : List Op :=
  [.new (.objs true Ex.objs), .new (.info Ex.images), .new (.types Ex.cfg.cutoutTypes), .new (.conf (fun _ => { Ex.cfg with cutoutTypes := [] }) (some 4)), .new (.psfs Ex.psfs),
   .new (.text "pi"), .new (.text "meta")]

def args : Args := { objs := 2, info := 3, psf := some 6, psfInfo := some 7, config := some 5, metaData := some 8 }

/-- The program ends and a test on its files holds. -/
def ends (ops : List Op) (test : List Fits → Bool) : Bool :=
  match run ops (start (fun _ q => q)) with
  | .ok st => test st.files
  | .error _ => false

-- the file of the example run in Examples/Maker.lean
example : ends (prepare ++ [.make args, .write 0]) (fun f => f = [Ex.file]) = true := by decide +kernel

/-- After the construction the caller changes everything that is copied, with a second maker in between. -/
def changes : List Op :=
  [.store 2 (.objs true [Ex.obj 3 4 2 2]), .store 4 (.types ["image"]), .make { args with psf := none }, .store 3 (.info []), .store 5 (.conf id none), .store 8 (.text "other"), .write 1,
   .store 2 (.objs false [])]

-- the first maker writes what it would have written at once (`C122_later_changes` applies), the second one something else
example : ends (prepare ++ .make args :: changes ++ [.write 0]) (fun f => f.length = 2 && f.getLast? = some Ex.file && f.head? ≠ some Ex.file) = true := by decide +kernel
example : Op.write 0 ∉ changes ∧ (∀ v, Op.store 6 v ∉ changes) ∧ (∀ v, Op.store 7 v ∉ changes) := by simp [changes]

-- PSF objects and psf_info are taken as they are when the file is written
example : ends (prepare ++ [.make args, .store 7 (.text "new"), .write 0])
    (fun f => f.map (fun g => g.hdus.map (fun h => if h.2 = .extra "new" then "new" else h.1)) = [Ex.file.hdus.map (fun h => if h.2 = .extra "pi" then "new" else h.1)]) = true := by decide +kernel
example : ends (prepare ++ [.make args, .store 6 (.psfs [Ex.psf 1, Ex.psf 1, Ex.psf 2]), .write 0]) (fun f => f.length = 1 && f ≠ [Ex.file]) = true := by decide +kernel
-- a list of PSF objects made shorter after the construction passes the check and fails in writing
example : ends (prepare ++ [.make args, .store 6 (.psfs []), .write 0]) (fun _ => true) = false := by decide +kernel
example : ends (prepare ++ [.store 6 (.psfs []), .make args]) (fun _ => true) = false := by decide +kernel

-- one configuration for two makers: the second has the same types as the first
example : ends (prepare ++ [.make args, .make args, .write 1, .write 0]) (fun f => f = [Ex.file, Ex.file]) = true := by decide +kernel

-- with the default configuration: its empty list stays empty
example : ends (prepare ++ [.make { args with config := none }, .write 0, .make { args with config := none }, .write 1]) (fun f => f.length = 2 && f.head? = f.getLast?) = true := by decide +kernel

end ExHeap

end Meds
