import Verif.Model.Workers
import Verif.Props.Parallel
import Verif.Props.Viewer
import Verif.Examples.Maker

/-!
# Worker processes in any interleaving (C129)
-/

namespace Meds.Workers
open Maker

/-- `tempfile.mkdtemp` gives a directory that was not there: nothing at its path and nothing below. -/
def Fresh (fs : Files) (d : Path) : Prop := fs d = none ∧ ∀ q, below d q = true → fs q = none

/-- No worker has an exception for reasons of its own. -/
def NoFaults (sched : List Event) : Prop := ∀ ev ∈ sched, ev.fault = none

/-- How often a worker gets the processor. -/
def turns (sched : List Event) (j : Nat) : Nat := (sched.filter (fun ev => ev.job == j)).length

theorem jobPath_inj {d : Path} {i j : Nat} (h : jobPath d i = jobPath d j) : i = j := by
  unfold jobPath at h
  have h1 := List.append_cancel_right h
  have h2 := List.append_cancel_left h1
  exact View.padNat_inj h2

theorem jobPath_below (d : Path) (j : Nat) : below d (jobPath d j) = true := by
  unfold below jobPath
  rw [List.isPrefixOf_iff_prefix]
  exact ⟨"job".toList ++ View.padNat 1 j ++ ".pkl".toList, by simp⟩

theorem psfRecFunc_snoc {psf : List PsfModel} {pre : List (SkyPos × Slot)} {c : SkyPos × Slot} {out : List (Img ℚ)} {p : PsfModel}
    (h : psfRecFunc psf pre = .ok out) (hp : pyGet psf c.2.fileId = .ok p) :
    psfRecFunc psf (pre ++ [c]) = .ok (out ++ [p.getRec c.1 c.2.origRow c.2.origCol]) := by
  refine psfRecFunc_append.mpr ⟨_, _, h, ?_, rfl⟩
  simp [psfRecFunc, mapRes, hp, Res.ok_bind]

theorem psfRecFunc_error {psf : List PsfModel} {pre rest : List (SkyPos × Slot)} {c : SkyPos × Slot} {out : List (Img ℚ)} {e : Err}
    (h : psfRecFunc psf pre = .ok out) (hp : pyGet psf c.2.fileId = .error e) : psfRecFunc psf (pre ++ c :: rest) = .error e := by
  induction pre generalizing out with
  | nil => simp [psfRecFunc, mapRes, hp]
  | cons x xs ih =>
    unfold psfRecFunc at h
    rw [mapRes_ok_iff, List.forall₂_cons_left_iff] at h
    obtain ⟨y, ys, h1, h2, rfl⟩ := h
    have := ih (mapRes_ok_iff.mpr h2)
    unfold psfRecFunc at this ⊢
    rw [List.cons_append, mapRes, h1]
    simp only [Res.ok_bind]
    rw [this]

/-- What is known of worker number `j`, which was given the requests `r`. -/
def Good (psf : List PsfModel) (d : Path) (sched : List Event) (fs : Files) (j : Nat) (r : List (SkyPos × Slot)) : Worker → Prop
  | .running rest out => ∃ pre, r = pre ++ rest ∧ psfRecFunc psf pre = .ok out
  | .dumping out => psfRecFunc psf r = .ok out
  | .done p => p = jobPath d j ∧ ∃ out, psfRecFunc psf r = .ok out ∧ fs p = some (.pickle out)
  | .failed e => (∃ ev ∈ sched, ev.fault = some e) ∨ psfRecFunc psf r = .error e

/-- What is known in every state. -/
structure Known (psf : List PsfModel) (d : Path) (fs : Files) (reqs : List (List (SkyPos × Slot))) (sched : List Event) (st : State) : Prop where
  length : st.workers.length = reqs.length
  good : ∀ (j : Nat) r w, reqs[j]? = some r → st.workers[j]? = some w → Good psf d sched st.files j r w
  outside : ∀ q, q ≠ d → below d q = false → st.files q = fs q

theorem good_mono {psf : List PsfModel} {d : Path} {sched : List Event} {ev : Event} {fs fs' : Files} {j : Nat} {r : List (SkyPos × Slot)} {w : Worker}
    (h : Good psf d sched fs j r w) (hf : fs' (jobPath d j) = fs (jobPath d j)) : Good psf d (sched ++ [ev]) fs' j r w := by
  cases w with
  | running rest out => exact h
  | dumping out => exact h
  | done p =>
    obtain ⟨h1, out, h2, h3⟩ := h
    exact ⟨h1, out, h2, by rw [h1] at h3 ⊢; rw [hf]; exact h3⟩
  | failed e =>
    rcases h with ⟨x, hx, hx2⟩ | h
    · exact .inl ⟨x, List.mem_append_left _ hx, hx2⟩
    · exact .inr h

theorem stepWorker_good {psf : List PsfModel} {d : Path} {sched : List Event} {fs : Files} {ev : Event} {r : List (SkyPos × Slot)} {w : Worker}
    (h : Good psf d sched fs ev.job r w) :
    Good psf d (sched ++ [ev]) (stepWorker psf (jobPath d ev.job) ev.fault w fs).2 ev.job r (stepWorker psf (jobPath d ev.job) ev.fault w fs).1 ∧
      ∀ q, q ≠ jobPath d ev.job → (stepWorker psf (jobPath d ev.job) ev.fault w fs).2 q = fs q := by
  have hlast : ∀ e, ev.fault = some e → ∃ x ∈ sched ++ [ev], x.fault = some e := fun e he => ⟨ev, by simp, he⟩
  cases w with
  | done p => exact ⟨good_mono h rfl, fun _ _ => rfl⟩
  | failed e => exact ⟨good_mono h rfl, fun _ _ => rfl⟩
  | running todo out =>
    cases hfl : ev.fault with
    | some e => exact ⟨.inl (hlast e hfl), fun _ _ => by simp [stepWorker]⟩
    | none =>
      obtain ⟨pre, hr, hpre⟩ := h
      cases todo with
      | nil =>
        refine ⟨?_, ?_⟩
        · show psfRecFunc psf r = .ok out
          rw [hr, List.append_nil]; exact hpre
        · intro q hq
          show put fs (jobPath d ev.job) .part q = fs q
          unfold put; rw [if_neg hq]
      | cons c rest =>
        cases hp : pyGet psf c.2.fileId with
        | ok p =>
          simp only [stepWorker, hp]
          exact ⟨⟨pre ++ [c], by rw [hr]; simp, psfRecFunc_snoc hpre hp⟩, by simp⟩
        | error e =>
          simp only [stepWorker, hp]
          exact ⟨.inr (by rw [hr]; exact psfRecFunc_error hpre hp), by simp⟩
  | dumping out =>
    cases hfl : ev.fault with
    | some e => exact ⟨.inl (hlast e hfl), fun _ _ => by simp [stepWorker]⟩
    | none =>
      refine ⟨⟨rfl, out, h, ?_⟩, ?_⟩
      · show put fs (jobPath d ev.job) (.pickle out) (jobPath d ev.job) = _
        unfold put; rw [if_pos rfl]
      · intro q hq
        show put fs (jobPath d ev.job) (.pickle out) q = fs q
        unfold put; rw [if_neg hq]

theorem step_known {psf : List PsfModel} {d : Path} {fs : Files} {reqs : List (List (SkyPos × Slot))} {sched : List Event} {st : State} (ev : Event)
    (h : Known psf d fs reqs sched st) : Known psf d fs reqs (sched ++ [ev]) (step psf d st ev) := by
  unfold step
  cases hw : st.workers[ev.job]? with
  | none => exact ⟨h.length, fun j r w h1 h2 => good_mono (h.good j r w h1 h2) rfl, h.outside⟩
  | some w =>
    have hlt : ev.job < st.workers.length := (List.getElem?_eq_some_iff.mp hw).1
    have hlt' : ev.job < reqs.length := h.length ▸ hlt
    obtain ⟨hg, hfr⟩ := stepWorker_good (h.good ev.job _ w (List.getElem?_eq_getElem hlt') hw)
    refine ⟨by simpa using h.length, ?_, ?_⟩
    · intro j r v h1 h2
      dsimp only at h2 ⊢
      rw [List.getElem?_set] at h2
      by_cases hj : ev.job = j
      · subst hj
        rw [if_pos rfl, if_pos hlt] at h2
        injection h2 with h2
        rw [← h2]
        have : r = reqs[ev.job] := by
          rw [List.getElem?_eq_getElem hlt'] at h1; injection h1 with h1; exact h1.symm
        rw [this]; exact hg
      · rw [if_neg hj] at h2
        exact good_mono (h.good j r v h1 h2) (hfr _ (fun e => hj (jobPath_inj e).symm))
    · intro q hq hb
      have hne : q ≠ jobPath d ev.job := by
        rintro rfl
        rw [jobPath_below] at hb
        exact absurd hb (by simp)
      dsimp only
      rw [hfr q hne]
      exact h.outside q hq hb

theorem known (psf : List PsfModel) (d : Path) (fs : Files) (reqs : List (List (SkyPos × Slot))) (sched : List Event) :
    Known psf d fs reqs sched (exec psf d fs reqs sched) := by
  unfold exec
  have key : ∀ (rest pre : List Event) (st : State), Known psf d fs reqs pre st → Known psf d fs reqs (pre ++ rest) (rest.foldl (step psf d) st) := by
    intro rest
    induction rest with
    | nil => intro pre st h; simpa using h
    | cons ev rest ih =>
      intro pre st h
      have := ih (pre ++ [ev]) _ (step_known ev h)
      simpa using this
  refine key sched [] _ ⟨by simp [launch], ?_, ?_⟩
  · intro j r w h1 h2
    simp only [launch, List.getElem?_map, h1, Option.map_some] at h2
    injection h2 with h2
    subst h2
    exact ⟨[], rfl, rfl⟩
  · intro q hq _
    show put fs d .dir q = fs q
    unfold put; rw [if_neg hq]

theorem run_clean {fs fs' : Files} {d : Path} (hf : Fresh fs d) (h : ∀ q, q ≠ d → below d q = false → fs' q = fs q) : rmtree fs' d = fs := by
  funext q
  unfold rmtree
  by_cases hq : q = d
  · rw [if_pos (.inl hq), hq, hf.1]
  · cases hb : below d q with
    | true => rw [if_pos (.inr rfl), hf.2 q hb]
    | false =>
      rw [if_neg (by rintro (h | h); exacts [hq h, by simp at h])]
      exact h q hq hb

/-- **C129** However the workers run, and whether the function returns or raises: afterwards the filesystem is as before, no temporary file is left. -/
theorem C129_clean {nPer : Nat} {mk : Maker} {psf : List PsfModel} {tempdir : Path} {fs fs' : Files} {buf : List ℚ} {sched : List Event} {r : Res (List ℚ)}
    (hf : Fresh fs tempdir) (h : Run nPer mk psf tempdir fs buf sched fs' r) : fs' = fs := by
  cases h with
  | gather _ =>
    refine run_clean hf ?_
    intro q hq _
    unfold put; rw [if_neg hq]
  | raised _ _ => exact run_clean hf (known psf tempdir fs _ sched).outside
  | written _ _ => exact run_clean hf (known psf tempdir fs _ sched).outside

/-- **C129** At no time is anything outside of the temporary directory changed. -/
theorem C129_meanwhile (psf : List PsfModel) (tempdir : Path) (fs : Files) (reqs : List (List (SkyPos × Slot))) (sched : List Event) (q : Path) (hq : q ≠ tempdir)
    (hb : below tempdir q = false) : (exec psf tempdir fs reqs sched).files q = fs q :=
  (known psf tempdir fs reqs sched).outside q hq hb

theorem fold_load {fs : Files} {paths : List Path} {outs : List (List (Img ℚ))} (h : List.Forall₂ (fun p o => load fs p = .ok o) paths outs)
    (f : Nat → List (Img ℚ) → List ℚ → Res (List ℚ)) : ∀ (js : List Nat) (b : List ℚ),
    foldRes (fun b (jo : Nat × Path) => do let out ← load fs jo.2; f jo.1 out b) b (js.zip paths) =
      foldRes (fun b (jo : Nat × List (Img ℚ)) => f jo.1 jo.2 b) b (js.zip outs) := by
  induction h with
  | nil => intro js b; simp [foldRes]
  | @cons p o ps os hp _ ih =>
    intro js b
    cases js with
    | nil => rfl
    | cons j js =>
      simp only [List.zip_cons_cons, foldRes, hp, Res.ok_bind]
      cases f j o b with
      | error e => rfl
      | ok b' => exact ih js b'

theorem split_forall {α β γ : Type} {A : α → γ → Prop} {B : β → γ → Prop} {l : List α} {m : List β} (h : List.Forall₂ (fun a b => ∃ c, A a c ∧ B b c) l m) :
    ∃ n, List.Forall₂ A l n ∧ List.Forall₂ B m n := by
  induction h with
  | nil => exact ⟨[], .nil, .nil⟩
  | cons hc _ ih =>
    obtain ⟨c, h1, h2⟩ := hc
    obtain ⟨n, h3, h4⟩ := ih
    exact ⟨c :: n, .cons h1 h3, .cons h2 h4⟩

/-- When all workers have returned, collecting their files is what `writePsfJoblib` does with their results. -/
theorem collect_eq {nPer : Nat} {mk : Maker} {psf : List PsfModel} {d : Path} {fs : Files} {reqs : List (List (SkyPos × Slot))} {sched : List Event} {paths : List Path}
    (hr : requests nPer mk = .ok reqs) (hw : (exec psf d fs reqs sched).workers = paths.map .done) (buf : List ℚ) :
    collect nPer mk (exec psf d fs reqs sched).files paths buf = writePsfJoblib nPer mk psf buf := by
  have k := known psf d fs reqs sched
  have hlen : paths.length = reqs.length := by
    have := k.length
    rw [hw, List.length_map] at this
    exact this
  have hpair : List.Forall₂ (fun r p => ∃ o, psfRecFunc psf r = .ok o ∧ load (exec psf d fs reqs sched).files p = .ok o) reqs paths := by
    rw [List.forall₂_iff_get]
    refine ⟨hlen.symm, ?_⟩
    intro j h1 h2
    have hg := k.good j (reqs.get ⟨j, h1⟩) (.done (paths.get ⟨j, h2⟩)) (by simp [h1]) (by rw [hw]; simp [h2])
    obtain ⟨_, o, ho, hf⟩ := hg
    refine ⟨o, ho, ?_⟩
    unfold load
    rw [hf]
  obtain ⟨outs, ho, hl⟩ := split_forall hpair
  have hjobs : reqs.length = jobCount nPer mk.objs.length := by
    have := (mapRes_ok_iff.mp hr).length_eq
    simpa using this.symm
  unfold collect
  rw [fold_load hl (fun j out b => writeJobOut mk.cfg (jobChunk nPer mk.objs j) out b)]
  unfold writePsfJoblib
  dsimp only
  have hr' : mapRes (fun j => gatherJob (jobChunk nPer mk.objs j)) (List.range (jobCount nPer mk.objs.length)) = .ok reqs := hr
  rw [hr']
  simp only [Res.ok_bind]
  rw [mapRes_ok_iff.mpr ho]
  simp only [Res.ok_bind]
  rw [hlen, hjobs]

/-- **C129** However the workers run: if the function returns, the PSF extension has the pixels that the serial writer gives. -/
theorem C129_same_pixels {nPer : Nat} (hn : 0 < nPer) {mk : Maker} {psf : List PsfModel} {tempdir : Path} {fs fs' : Files} {buf b : List ℚ} {sched : List Event}
    (h : Run nPer mk psf tempdir fs buf sched fs' (.ok b)) : writePsfSerial mk psf buf = .ok b := by
  have key : ∀ {r : Res (List ℚ)}, Run nPer mk psf tempdir fs buf sched fs' r → r = .ok b → writePsfSerial mk psf buf = .ok b := by
    intro r h hx
    cases h with
    | gather _ => cases hx
    | raised _ _ => cases hx
    | written hr hret =>
      cases hret with
      | all hw =>
        rw [collect_eq hr hw] at hx
        exact (C12_joblib_equals_serial hn mk psf buf b).mp hx
  exact key h rfl

/-- **C129** If the serial writer completes, so does the parallel one, with the same pixels, for every interleaving in which no worker has an exception of its own. -/
theorem C129_every_schedule {nPer : Nat} (hn : 0 < nPer) {mk : Maker} {psf : List PsfModel} {tempdir : Path} {fs fs' : Files} {buf b : List ℚ} {sched : List Event}
    {r : Res (List ℚ)} (hs : writePsfSerial mk psf buf = .ok b) (hno : NoFaults sched) (h : Run nPer mk psf tempdir fs buf sched fs' r) : r = .ok b := by
  have hj := (C12_joblib_equals_serial hn mk psf buf b).mpr hs
  have hj' := hj
  unfold writePsfJoblib at hj'
  dsimp only at hj'
  obtain ⟨reqs, hreqs, hj'⟩ := Res.bind_eq_ok.mp hj'
  obtain ⟨outs, houts, _⟩ := Res.bind_eq_ok.mp hj'
  have hreqs' : requests nPer mk = .ok reqs := hreqs
  cases h with
  | gather he => rw [hreqs'] at he; cases he
  | raised hr hret =>
    rw [hreqs'] at hr
    injection hr with hr
    subst hr
    cases hret with
    | raised hm =>
      exfalso
      obtain ⟨j, hjw⟩ := List.mem_iff_getElem?.mp hm
      have k := known psf tempdir fs reqs sched
      have hlt : j < reqs.length := by
        rw [← k.length]; exact (List.getElem?_eq_some_iff.mp hjw).1
      rcases k.good j _ _ (List.getElem?_eq_getElem hlt) hjw with ⟨ev, hev, hfl⟩ | herr
      · rw [hno ev hev] at hfl; cases hfl
      · have := (mapRes_ok_iff.mp houts)
        rw [List.forall₂_iff_get] at this
        have hk := this.2 j hlt (this.1 ▸ hlt)
        simp only [List.get_eq_getElem] at hk
        rw [herr] at hk
        cases hk
  | written hr hret =>
    rw [hreqs'] at hr
    injection hr with hr
    subst hr
    cases hret with
    | all hw => rw [collect_eq hreqs' hw]; exact hj

/-! ### every worker comes to its end -/

/-- Steps that a worker still has to do. -/
def left : Worker → Nat
  | .running todo _ => todo.length + 2
  | .dumping _ => 1
  | .done _ => 0
  | .failed _ => 0

theorem stepWorker_left (psf : List PsfModel) (p : Path) (fault : Option Err) (w : Worker) (fs : Files) : left (stepWorker psf p fault w fs).1 ≤ left w - 1 := by
  cases w with
  | done q => simp [stepWorker, left]
  | failed e => simp [stepWorker, left]
  | dumping out => cases fault <;> simp [stepWorker, left]
  | running todo out =>
    cases fault with
    | some e => simp [stepWorker, left]
    | none =>
      cases todo with
      | nil => simp [stepWorker, left]
      | cons c rest =>
        simp only [stepWorker]
        cases pyGet psf c.2.fileId with
        | ok q => simp [left]
        | error e => simp [left]

theorem exec_left (psf : List PsfModel) (d : Path) (j : Nat) (sched : List Event) : ∀ (st : State) (w w' : Worker), st.workers[j]? = some w →
    (sched.foldl (step psf d) st).workers[j]? = some w' → left w' ≤ left w - turns sched j := by
  induction sched with
  | nil =>
    intro st w w' h h'
    simp only [List.foldl_nil] at h'
    rw [h] at h'
    injection h' with h'
    simp [turns, h']
  | cons ev rest ih =>
    intro st w w' h h'
    rw [List.foldl_cons] at h'
    by_cases hj : ev.job = j
    · subst hj
      have hlt := (List.getElem?_eq_some_iff.mp h).1
      have hs : (step psf d st ev).workers[ev.job]? = some (stepWorker psf (jobPath d ev.job) ev.fault w st.files).1 := by
        unfold step
        rw [h]
        simp [hlt]
      have h1 := ih _ _ _ hs h'
      have h2 := stepWorker_left psf (jobPath d ev.job) ev.fault w st.files
      have h3 : turns (ev :: rest) ev.job = turns rest ev.job + 1 := by simp [turns]
      omega
    · have hs : (step psf d st ev).workers[j]? = some w := by
        unfold step
        cases hw : st.workers[ev.job]? with
        | none => exact h
        | some v => simp [hj, h]
      have h1 := ih _ _ _ hs h'
      have h3 : turns (ev :: rest) j = turns rest j := by simp [turns, hj]
      omega

theorem reqsOf_length {objs : List ObjRow} (hw : Wide objs) : (reqsOf objs).length = (objs.map (fun o => o.ncutout.toNat)).sum := by
  induction objs with
  | nil => rfl
  | cons o os ih =>
    unfold Wide at hw
    rw [List.forall_mem_cons] at hw
    have hreq : reqsOf (o :: os) = (o.slots.take o.ncutout.toNat).map (fun s => (o.sky, s)) ++ reqsOf os := by
      unfold reqsOf; rw [List.flatMap_cons]
    rw [hreq, List.length_append, ih hw.2, List.map_cons, List.sum_cons, List.length_map, List.length_take, Nat.min_eq_left hw.1]

/-- **C129** The workers come to an end: when each has had the processor once for each of its PSF images and twice for the file, the function returns, with the
pixels of the serial writer. -/
theorem C129_finishes {nPer : Nat} (hn : 0 < nPer) {mk : Maker} {psf : List PsfModel} {tempdir : Path} {fs : Files} {buf b : List ℚ} {sched : List Event} (hf : Fresh fs tempdir)
    (hs : writePsfSerial mk psf buf = .ok b) (hno : NoFaults sched)
    (hfair : ∀ j < jobCount nPer mk.objs.length, ((jobChunk nPer mk.objs j).map (fun o => o.ncutout.toNat)).sum + 2 ≤ turns sched j) :
    Run nPer mk psf tempdir fs buf sched fs (.ok b) := by
  have hj := (C12_joblib_equals_serial hn mk psf buf b).mpr hs
  have hj' := hj
  unfold writePsfJoblib at hj'
  dsimp only at hj'
  obtain ⟨reqs, hreqs, hj'⟩ := Res.bind_eq_ok.mp hj'
  obtain ⟨outs, houts, _⟩ := Res.bind_eq_ok.mp hj'
  have hreqs' : requests nPer mk = .ok reqs := hreqs
  have k := known psf tempdir fs reqs sched
  have hjobs : reqs.length = jobCount nPer mk.objs.length := by
    have := (mapRes_ok_iff.mp hreqs).length_eq
    simpa using this.symm
  have hall : (exec psf tempdir fs reqs sched).workers = ((List.range reqs.length).map (jobPath tempdir)).map .done := by
    apply List.ext_getElem?
    intro j
    by_cases hlt : j < reqs.length
    · obtain ⟨w, hw⟩ : ∃ w, (exec psf tempdir fs reqs sched).workers[j]? = some w := ⟨_, List.getElem?_eq_getElem (by rw [k.length]; exact hlt)⟩
      have hreq : reqs[j]? = some reqs[j] := List.getElem?_eq_getElem hlt
      have hstart : (launch fs tempdir reqs).workers[j]? = some (.running reqs[j] []) := by simp [launch, hlt]
      have hleft := exec_left psf tempdir j sched _ _ _ hstart hw
      have hlenj : reqs[j].length = ((jobChunk nPer mk.objs j).map (fun o => o.ncutout.toNat)).sum := by
        have h2 := mapRes_ok_iff.mp hreqs
        rw [List.forall₂_iff_get] at h2
        have h3 := h2.2 j (by simpa [← hjobs] using hlt) hlt
        simp only [List.get_eq_getElem, List.getElem_range] at h3
        obtain ⟨hwide, he⟩ := gatherJob_iff.mp h3
        rw [he, reqsOf_length hwide]
      have hturn := hfair j (hjobs ▸ hlt)
      have hzero : left w = 0 := by
        have h0 : left (.running reqs[j] []) = reqs[j].length + 2 := rfl
        rw [h0] at hleft
        omega
      have hg := k.good j _ w hreq hw
      rw [hw]
      cases w with
      | running todo out => simp [left] at hzero
      | dumping out => simp [left] at hzero
      | failed e =>
        exfalso
        rcases hg with ⟨ev, hev, hfl⟩ | herr
        · rw [hno ev hev] at hfl; cases hfl
        · have := (mapRes_ok_iff.mp houts)
          rw [List.forall₂_iff_get] at this
          have hk := this.2 j hlt (this.1 ▸ hlt)
          simp only [List.get_eq_getElem] at hk
          rw [herr] at hk
          cases hk
      | done p =>
        obtain ⟨rfl, _⟩ := hg
        simp [hlt]
    · rw [List.getElem?_eq_none (by rw [k.length]; omega), List.getElem?_eq_none (by simp; omega)]
  have hrun := Run.written (nPer := nPer) (mk := mk) (psf := psf) (tempdir := tempdir) (fs := fs) (buf := buf) hreqs' (Returns.all hall)
  rw [collect_eq hreqs' hall, hj, run_clean hf k.outside] at hrun
  exact hrun

/-! ### the file -/

theorem modify_iff {name : String} {g : List ℚ → Res (List ℚ)} {l l' : List (String × Hdu)} :
    modifyImage name g l = .ok l' ↔ ∃ pix pix', Fits.lookup l name = some (.image pix) ∧ g pix = .ok pix' ∧ modifyImage name (fun _ => .ok pix') l = .ok l' := by
  induction l generalizing l' with
  | nil => simp [modifyImage, Fits.lookup]
  | cons x t ih =>
    obtain ⟨n, h⟩ := x
    unfold modifyImage Fits.lookup
    by_cases hn : n = name
    · simp only [if_pos hn]
      cases h with
      | image pix =>
        dsimp only
        rw [Res.bind_eq_ok]
        constructor
        · rintro ⟨p', h1, h2⟩
          exact ⟨pix, p', rfl, h1, by simpa [Res.ok_bind] using h2⟩
        · rintro ⟨q, p', h1, h2, h3⟩
          injection h1 with h1
          injection h1 with h1
          subst h1
          exact ⟨p', h2, by simpa [Res.ok_bind] using h3⟩
      | _ => simp
    · simp only [if_neg hn]
      rw [Res.bind_eq_ok]
      constructor
      · rintro ⟨t', h1, h2⟩
        obtain ⟨p, p', h3, h4, h5⟩ := ih.mp h1
        exact ⟨p, p', h3, h4, by rw [h5]; exact h2⟩
      · rintro ⟨p, p', h3, h4, h5⟩
        obtain ⟨t', h6, h7⟩ := Res.bind_eq_ok.mp h5
        exact ⟨t', ih.mpr ⟨p, p', h3, h4, h6⟩, h7⟩

theorem writeData_planes (mk : Maker) : mk.writeData = (do
    let h1 ← planes mk
    let h2 ← (match mk.psf with
            | some psf => modifyImage "psf" (mk.writePsfSerial psf) h1
            | none => .ok h1)
    .ok ⟨h2 ++ mk.psfInfoHdus⟩) := rfl

/-- **C129** The whole file: if writing with workers completes, in whatever interleaving, the file is the one that serial writing gives. -/
theorem C129_file {mk mk' : Maker} {tempdir : Path} {fs fs' : Files} {sched : List Event} {f : Fits} (hl : mk.buildLayout = .ok mk')
    (h : WriteRun mk' tempdir fs sched fs' (.ok f)) : mk.write = .ok (mk', f) := by
  have key : ∀ {r : Res Fits}, WriteRun mk' tempdir fs sched fs' r → r = .ok f → mk'.writeData = .ok f := by
    intro r h hx
    rw [writeData_planes]
    cases h with
    | stopped _ => cases hx
    | missing _ _ _ => cases hx
    | without hp hn => rw [hp, hn]; exact hx
    | psfs hp hn hf hrun =>
      obtain ⟨b, hb, h2⟩ := Res.bind_eq_ok.mp hx
      obtain ⟨hs, hm, h3⟩ := Res.bind_eq_ok.mp h2
      rw [hb] at hrun
      rw [hp, hn]
      simp only [Res.ok_bind]
      rw [modify_iff.mpr ⟨_, b, hf, C129_same_pixels (by decide) hrun, hm⟩]
      exact h3
  unfold Maker.write
  rw [hl]
  simp only [Res.ok_bind]
  rw [key h rfl]
  rfl

/-- **C129** The whole file: if serial writing completes and no worker has an exception of its own, writing with workers completes with the same file for every interleaving,
and nothing else is changed on the disk. -/
theorem C129_file_always {mk mk' : Maker} {tempdir : Path} {fs fs' : Files} {sched : List Event} {f : Fits} {r : Res Fits} (hw : mk.write = .ok (mk', f)) (hf : Fresh fs tempdir)
    (hno : NoFaults sched) (h : WriteRun mk' tempdir fs sched fs' r) : r = .ok f ∧ fs' = fs := by
  unfold Maker.write at hw
  obtain ⟨m, _, hw1⟩ := Res.bind_eq_ok.mp hw
  obtain ⟨f', hw2, he⟩ := Res.bind_eq_ok.mp hw1
  injection he with he
  injection he with he1 he2
  subst he1 he2
  rw [writeData_planes] at hw2
  obtain ⟨h1, hp1, hw3⟩ := Res.bind_eq_ok.mp hw2
  obtain ⟨h2, hp2, hw4⟩ := Res.bind_eq_ok.mp hw3
  cases h with
  | stopped hp => rw [hp1] at hp; cases hp
  | without hp hn =>
    rw [hp1] at hp
    injection hp with hp
    subst hp
    rw [hn] at hp2
    injection hp2 with hp2
    subst hp2
    exact ⟨hw4, rfl⟩
  | missing hp hn hno' =>
    rw [hp1] at hp
    injection hp with hp
    subst hp
    rw [hn] at hp2
    obtain ⟨pix, _, h3, _⟩ := modify_iff.mp hp2
    exact absurd h3 (hno' pix)
  | psfs hp hn hl hrun =>
    rw [hp1] at hp
    injection hp with hp
    subst hp
    rw [hn] at hp2
    obtain ⟨pix, b, h3, h4, h5⟩ := modify_iff.mp hp2
    rw [hl] at h3
    injection h3 with h3
    injection h3 with h3
    subst h3
    have hr := C129_every_schedule (by decide) h4 hno hrun
    subst hr
    simp only [Res.ok_bind]
    rw [h5]
    exact ⟨hw4, C129_clean hf hrun⟩

/-- **C129** The whole file: such a run there is, for every sequence of steps in which each worker gets the processor once for each of its PSF images and twice for its file. -/
theorem C129_file_finishes {mk mk' : Maker} {tempdir : Path} {fs : Files} {sched : List Event} {f : Fits} (hw : mk.write = .ok (mk', f)) (hpsf : mk'.psf ≠ none)
    (hf : Fresh fs tempdir) (hno : NoFaults sched)
    (hfair : ∀ j < jobCount 2000 mk'.objs.length, ((jobChunk 2000 mk'.objs j).map (fun o => o.ncutout.toNat)).sum + 2 ≤ turns sched j) :
    WriteRun mk' tempdir fs sched fs (.ok f) := by
  unfold Maker.write at hw
  obtain ⟨m, _, hw1⟩ := Res.bind_eq_ok.mp hw
  obtain ⟨f', hw2, he⟩ := Res.bind_eq_ok.mp hw1
  injection he with he
  injection he with he1 he2
  subst he1 he2
  rw [writeData_planes] at hw2
  obtain ⟨h1, hp1, hw3⟩ := Res.bind_eq_ok.mp hw2
  obtain ⟨h2, hp2, hw4⟩ := Res.bind_eq_ok.mp hw3
  cases hn : m.psf with
  | none => exact absurd hn hpsf
  | some psf =>
    rw [hn] at hp2
    obtain ⟨pix, b, h3, h4, h5⟩ := modify_iff.mp hp2
    have := WriteRun.psfs hp1 hn h3 (C129_finishes (by decide) hf h4 hno hfair)
    simp only [Res.ok_bind] at this
    rw [h5] at this
    simp only [Res.ok_bind] at this
    rw [hw4] at this
    exact this

/-! ### a case -/

/-- The maker of the example run. -/
def exMk : Maker := ((Ex.run Ex.cfg Ex.objs Ex.images (some Ex.psfs)).toOption.get (by decide +kernel)).1

/-- A filesystem with one file, in the directory that will hold the temporary one. -/
def exFiles : Files := put (fun _ => none) "/tmp/mine".toList (.other "mine")

/-- The second worker begins, the first one overtakes, they dump in turns. -/
def exSched : List Event := ([1, 0, 0, 1, 0, 1, 0, 1, 1, 0, 0, 1, 0, 1].map (fun j => { job := j, fault := none }))

/-- The disk is full when the second worker has begun its dump. -/
def exFull : List Event := [1, 1, 0, 1, 1].map (fun j => { job := j, fault := none }) ++ [{ job := 1, fault := some .osError }]

theorem exFresh : Fresh exFiles "/tmp/tmpa".toList := by
  refine ⟨by decide +kernel, ?_⟩
  intro q hq
  unfold exFiles put
  rw [if_neg]
  rintro rfl
  revert hq
  decide +kernel

/-- The pixels of the PSF extension of the example. -/
def exPixels : List ℚ := [4 / 3, 10 / 3, 4 / 3, 10 / 3, 7 / 3, 13 / 3, 1, 3, 1, 3, 2, 4, 1, 3, 2, 4, 3, 5]

theorem exSerial : writePsfSerial exMk Ex.psfs (List.replicate 18 0) = .ok exPixels := by decide +kernel

example : jobCount 1 exMk.objs.length = 2 ∧ exMk.objs.map (·.ncutout) = [2, 3] := by decide +kernel

-- two workers, in turns: all pixels, and nothing left of the temporary directory
theorem exRun : Run 1 exMk Ex.psfs "/tmp/tmpa".toList exFiles (List.replicate 18 0) exSched exFiles (.ok exPixels) :=
  C129_finishes (by decide) exFresh exSerial (by simp [NoFaults, exSched]) (by decide +kernel)

example : writePsfSerial exMk Ex.psfs (List.replicate 18 0) = .ok exPixels := C129_same_pixels (by decide) exRun

theorem eq_ok_get {α : Type} : ∀ (x : Res α) (h : x.toOption.isSome = true), x = .ok (x.toOption.get h)
  | .ok _, _ => rfl
  | .error _, h => by cases h

-- the hypothesis of `C129_file_always`: the run of the example writes a file, which has PSFs
example : ∃ f, Ex.run Ex.cfg Ex.objs Ex.images (some Ex.psfs) = .ok (exMk, f) ∧ f.has "psf" = true :=
  ⟨((Ex.run Ex.cfg Ex.objs Ex.images (some Ex.psfs)).toOption.get (by decide +kernel)).2, eq_ok_get _ _, by decide +kernel⟩

/-- Begun files, before the end of the run. -/
def partOf (fs : Files) (p : Path) : Bool := match fs p with | some .part => true | _ => false

-- before the fault there is half of a file of the second worker
example : (match requests 1 exMk with
  | .ok reqs => partOf (exec Ex.psfs "/tmp/tmpa".toList exFiles reqs exFull).files "/tmp/tmpa/job1.pkl".toList
  | .error _ => false) = true := by decide +kernel

-- with no space on the disk the function raises, and nothing is left either
example : ∃ fs', Run 1 exMk Ex.psfs "/tmp/tmpa".toList exFiles (List.replicate 18 0) exFull fs' (.error .osError) ∧ fs' = exFiles := by
  obtain ⟨reqs, hr, hf⟩ : ∃ reqs, requests 1 exMk = .ok reqs ∧ Worker.failed .osError ∈ (exec Ex.psfs "/tmp/tmpa".toList exFiles reqs exFull).workers := by
    have h : (match requests 1 exMk with
      | .ok reqs => (match (exec Ex.psfs "/tmp/tmpa".toList exFiles reqs exFull).workers with
        | [_, .failed .osError] => true
        | _ => false)
      | .error _ => false) = true := by decide +kernel
    split at h
    · rename_i reqs hreq
      refine ⟨reqs, hreq, ?_⟩
      split at h
      · rename_i hw; rw [hw]; simp
      · cases h
    · cases h
  exact ⟨_, Run.raised hr (Returns.raised hf), C129_clean exFresh (Run.raised (buf := List.replicate 18 0) hr (Returns.raised hf))⟩

end Meds.Workers
