import Verif.Model.Makers
import Verif.Props.Workers

/-!
# Makers that write at the same time (C130)
-/

namespace Meds.Workers
open Maker

/-- At the directory or inside of it. -/
def InDir (d q : Path) : Prop := q = d ∨ below d q = true

/-- `mkdtemp` gives a new name: a single path component, at which and below which there is nothing when it is made. -/
def NewNames (tmp : Path) (tasks : List Call) (fs : Files) (acts : List Act) : Prop :=
  ∀ pre a post name, acts = pre ++ a :: post → a.what = .start name → '/' ∉ name ∧ Fresh (runAll tmp tasks fs pre).files (dirOf tmp name)

/-- The steps of the workers of one call. -/
def eventsOf (acts : List Act) (m : Nat) : List Event :=
  acts.filterMap (fun a => if a.proc = m then (match a.what with | .work ev => some ev | _ => none) else none)

/-- The temporary directory in use. -/
def dirIn : Proc → Option Path
  | .staged d _ => some d
  | .loading d _ _ => some d
  | _ => none

theorem prefix_name {n n' x x' : List Char} (hn : '/' ∉ n) (hn' : '/' ∉ n') (hx : x = [] ∨ ∃ y, x = '/' :: y) (hx' : x' = [] ∨ ∃ y, x' = '/' :: y)
    (h : n ++ x = n' ++ x') : n = n' := by
  have key : ∀ (m y : List Char), '/' ∉ m → (y = [] ∨ ∃ z, y = '/' :: z) → (m ++ y).takeWhile (fun c => c != '/') = m := by
    intro m y hm hy
    rw [List.takeWhile_append_of_pos]
    · rcases hy with rfl | ⟨z, rfl⟩ <;> simp
    · intro c hc
      simp only [bne_iff_ne, ne_eq]
      rintro rfl
      exact hm hc
  rw [← key n x hn hx, h, key n' x' hn' hx']

theorem inDir_name {tmp name q : Path} (h : InDir (dirOf tmp name) q) : ∃ x, q = tmp ++ '/' :: (name ++ x) ∧ (x = [] ∨ ∃ y, x = '/' :: y) := by
  rcases h with rfl | h
  · exact ⟨[], by simp [dirOf], .inl rfl⟩
  · unfold below at h
    rw [List.isPrefixOf_iff_prefix] at h
    obtain ⟨t, rfl⟩ := h
    exact ⟨'/' :: t, by simp [dirOf], .inr ⟨t, rfl⟩⟩

theorem dirs_disjoint {tmp n n' q : Path} (hn : '/' ∉ n) (hn' : '/' ∉ n') (h : InDir (dirOf tmp n) q) (h' : InDir (dirOf tmp n') q) : n = n' := by
  obtain ⟨x, hx, hx2⟩ := inDir_name h
  obtain ⟨y, hy, hy2⟩ := inDir_name h'
  rw [hx] at hy
  have := List.append_cancel_left hy
  injection this with _ this
  exact prefix_name hn hn' hx2 hy2 this

theorem jobPath_ne (d : Path) (j : Nat) : jobPath d j ≠ d := by
  intro h
  have := congrArg List.length h
  simp [jobPath] at this

/-- What is known of a directory in use. -/
structure DirOk (tmp : Path) (fs0 files : Files) (d : Path) : Prop where
  name : ∃ n, d = dirOf tmp n ∧ '/' ∉ n
  unused : ∀ q, InDir d q → fs0 q = none
  there : files d = some .dir

/-- What is known of one call. -/
def POk (tmp : Path) (fs0 files : Files) (evs : List Event) (t : Call) : Proc → Prop
  | .waiting => True
  | .staged d ws => DirOk tmp fs0 files d ∧ ∃ reqs, requests t.nPer t.maker = .ok reqs ∧ ws.length = reqs.length ∧
      ∀ (j : Nat) r w, reqs[j]? = some r → ws[j]? = some w → Good t.psf d evs files j r w
  | .loading d todo buf => DirOk tmp fs0 files d ∧ ∃ reqs outs pre rest, requests t.nPer t.maker = .ok reqs ∧ mapRes (psfRecFunc t.psf) reqs = .ok outs ∧
      (List.range reqs.length).zip outs = pre ++ rest ∧
      foldRes (fun b (jo : Nat × List (Img ℚ)) => writeJobOut t.maker.cfg (jobChunk t.nPer t.maker.objs jo.1) jo.2 b) t.buf pre = .ok buf ∧
      List.Forall₂ (fun (tp : Nat × Path) (ro : Nat × List (Img ℚ)) => tp.1 = ro.1 ∧ load files tp.2 = .ok ro.2 ∧ InDir d tp.2) todo rest
  | .ended r => (∀ b, r = .ok b → writePsfJoblib t.nPer t.maker t.psf t.buf = .ok b) ∧
      (∀ e, r = .error e → NoFaults evs → ∀ b, writePsfJoblib t.nPer t.maker t.psf t.buf ≠ .ok b)

theorem joblib_of {t : Call} {reqs : List (List (SkyPos × Slot))} {outs : List (List (Img ℚ))} (hr : requests t.nPer t.maker = .ok reqs)
    (ho : mapRes (psfRecFunc t.psf) reqs = .ok outs) : writePsfJoblib t.nPer t.maker t.psf t.buf =
      foldRes (fun b (jo : Nat × List (Img ℚ)) => writeJobOut t.maker.cfg (jobChunk t.nPer t.maker.objs jo.1) jo.2 b) t.buf ((List.range reqs.length).zip outs) := by
  have hjobs : reqs.length = jobCount t.nPer t.maker.objs.length := by
    have := (mapRes_ok_iff.mp hr).length_eq
    simpa using this.symm
  unfold writePsfJoblib
  dsimp only
  have hr' : mapRes (fun j => gatherJob (jobChunk t.nPer t.maker.objs j)) (List.range (jobCount t.nPer t.maker.objs.length)) = .ok reqs := hr
  rw [hr']
  simp only [Res.ok_bind]
  rw [ho]
  simp only [Res.ok_bind]
  rw [hjobs]

theorem joblib_parts {t : Call} {b : List ℚ} (h : writePsfJoblib t.nPer t.maker t.psf t.buf = .ok b) :
    ∃ reqs outs, requests t.nPer t.maker = .ok reqs ∧ mapRes (psfRecFunc t.psf) reqs = .ok outs := by
  unfold writePsfJoblib at h
  dsimp only at h
  obtain ⟨reqs, hreqs, h⟩ := Res.bind_eq_ok.mp h
  obtain ⟨outs, houts, _⟩ := Res.bind_eq_ok.mp h
  exact ⟨reqs, outs, hreqs, houts⟩

theorem dirOk_frame {tmp : Path} {fs0 fs fs' : Files} {d : Path} (h : DirOk tmp fs0 fs d) (hf : fs' d = fs d) : DirOk tmp fs0 fs' d :=
  ⟨h.name, h.unused, by rw [hf]; exact h.there⟩

theorem good_frame {psf : List PsfModel} {d : Path} {evs evs' : List Event} {fs fs' : Files} {j : Nat} {r : List (SkyPos × Slot)} {w : Worker}
    (h : Good psf d evs fs j r w) (hf : fs' (jobPath d j) = fs (jobPath d j)) (he : ∀ ev ∈ evs, ev ∈ evs') : Good psf d evs' fs' j r w := by
  cases w with
  | running rest out => exact h
  | dumping out => exact h
  | done p =>
    obtain ⟨h1, out, h2, h3⟩ := h
    exact ⟨h1, out, h2, by rw [h1] at h3 ⊢; rw [hf]; exact h3⟩
  | failed e =>
    rcases h with ⟨x, hx, hx2⟩ | h
    · exact .inl ⟨x, he x hx, hx2⟩
    · exact .inr h

theorem inDir_jobPath (d : Path) (j : Nat) : InDir d (jobPath d j) := .inr (jobPath_below d j)

/-- What is known of a call stays, if its directory is not touched. -/
theorem pok_frame {tmp : Path} {fs0 fs fs' : Files} {evs evs' : List Event} {t : Call} {p : Proc} (h : POk tmp fs0 fs evs t p) (he : ∀ ev ∈ evs, ev ∈ evs')
    (hf : ∀ d, dirIn p = some d → ∀ q, InDir d q → fs' q = fs q) : POk tmp fs0 fs' evs' t p := by
  cases p with
  | waiting => trivial
  | staged d ws =>
    obtain ⟨hd, reqs, hr, hl, hg⟩ := h
    have hf' := hf d rfl
    exact ⟨dirOk_frame hd (hf' d (.inl rfl)), reqs, hr, hl, fun j r w h1 h2 => good_frame (hg j r w h1 h2) (hf' _ (inDir_jobPath d j)) he⟩
  | loading d todo buf =>
    obtain ⟨hd, reqs, outs, pre, rest, hr, ho, hz, hb, hall⟩ := h
    have hf' := hf d rfl
    refine ⟨dirOk_frame hd (hf' d (.inl rfl)), reqs, outs, pre, rest, hr, ho, hz, hb, hall.imp ?_⟩
    rintro a b ⟨h1, h2, h3⟩
    refine ⟨h1, ?_, h3⟩
    unfold load at h2 ⊢
    rw [hf' _ h3]
    exact h2
  | ended r => exact ⟨h.1, fun e he' hno => h.2 e he' (fun ev hev => hno ev (he ev hev))⟩

theorem allDone_eq : ∀ {ws : List Worker} {paths : List Path}, allDone ws = some paths → ws = paths.map .done
  | [], _, h => by injection h with h; subst h; rfl
  | .done p :: ws, paths, h => by
    simp only [allDone, Option.map_eq_some_iff] at h
    obtain ⟨ps, h1, rfl⟩ := h
    rw [allDone_eq h1]
    rfl
  | .running _ _ :: _, _, h => by cases h
  | .dumping _ :: _, _, h => by cases h
  | .failed _ :: _, _, h => by cases h

theorem rmtree_out {fs : Files} {d q : Path} (h : ¬ InDir d q) : rmtree fs d q = fs q := by
  unfold InDir at h
  unfold rmtree
  rw [if_neg h]

theorem rmtree_in {fs : Files} {d q : Path} (h : InDir d q) : rmtree fs d q = none := by
  unfold InDir at h
  unfold rmtree
  rw [if_pos h]

/-- The step of a worker, if the action is one. -/
def evOf : What → List Event
  | .work ev => [ev]
  | _ => []

/-- What one action of a call does. -/
structure StepOk (tmp : Path) (fs0 fs : Files) (evs : List Event) (t : Call) (a : What) (p p' : Proc) (fs' : Files) : Prop where
  ok : POk tmp fs0 fs' (evs ++ evOf a) t p'
  frame : ∀ q, (∀ d, dirIn p = some d ∨ dirIn p' = some d → ¬ InDir d q) → fs' q = fs q
  dirs : dirIn p' = dirIn p ∨ (dirIn p = none ∧ ∃ n, a = .start n ∧ dirIn p' = some (dirOf tmp n)) ∨
    (dirIn p' = none ∧ ∃ d, dirIn p = some d ∧ DirOk tmp fs0 fs d ∧ ∀ q, InDir d q → fs' q = none)

theorem stepOk_same {tmp : Path} {fs0 fs : Files} {evs : List Event} {t : Call} {a : What} {p : Proc} (h : POk tmp fs0 fs evs t p) : StepOk tmp fs0 fs evs t a p p fs :=
  ⟨pok_frame h (fun _ => List.mem_append_left _) (fun _ _ _ _ => rfl), fun _ _ => rfl, .inl rfl⟩

theorem stepOk_end {tmp : Path} {fs0 fs : Files} {evs : List Event} {t : Call} {a : What} {p : Proc} {d : Path} {r : Res (List ℚ)} (hd : dirIn p = some d)
    (hok : DirOk tmp fs0 fs d) (h : POk tmp fs0 (rmtree fs d) (evs ++ evOf a) t (.ended r)) : StepOk tmp fs0 fs evs t a p (.ended r) (rmtree fs d) :=
  ⟨h, fun q hq => rmtree_out (hq d (.inl hd)), .inr (.inr ⟨rfl, d, hd, hok, fun _ => rmtree_in⟩)⟩

theorem step_ok {tmp : Path} {fs0 fs : Files} {evs : List Event} {t : Call} {a : What} {p : Proc} (h : POk tmp fs0 fs evs t p)
    (hs : ∀ n, a = .start n → '/' ∉ n ∧ Fresh fs (dirOf tmp n) ∧ (p = .waiting → ∀ q, InDir (dirOf tmp n) q → fs0 q = none)) :
    StepOk tmp fs0 fs evs t a p (procStep tmp t a p fs).1 (procStep tmp t a p fs).2 := by
  cases p with
  | ended r => cases a <;> exact stepOk_same h
  | waiting =>
    cases a with
    | work ev => exact stepOk_same h
    | main k => exact stepOk_same h
    | start n =>
      obtain ⟨h1, h2, h3⟩ := hs n rfl
      unfold procStep
      cases hr : requests t.nPer t.maker with
      | error e =>
        refine ⟨⟨fun b hb => (by cases hb), ?_⟩, fun _ _ => rfl, .inl rfl⟩
        intro e' _ _ b hb
        obtain ⟨reqs, _, hreqs, _⟩ := joblib_parts hb
        rw [hreqs] at hr
        cases hr
      | ok reqs =>
        refine ⟨⟨⟨⟨n, rfl, h1⟩, h3 rfl, by simp [put]⟩, reqs, hr, by simp, ?_⟩, ?_, .inr (.inl ⟨rfl, n, rfl, rfl⟩)⟩
        · intro j r w hj hw
          simp only [List.getElem?_map, hj, Option.map_some] at hw
          injection hw with hw
          subst hw
          exact ⟨[], rfl, rfl⟩
        · intro q hq
          have : q ≠ dirOf tmp n := fun e => hq _ (.inr rfl) (.inl e)
          show put fs (dirOf tmp n) .dir q = fs q
          unfold put
          rw [if_neg this]
  | staged d ws =>
    cases a with
    | start n => exact stepOk_same h
    | work ev =>
      unfold procStep
      dsimp only
      cases hw : ws[ev.job]? with
      | none => exact stepOk_same h
      | some w =>
        obtain ⟨hd, reqs, hr, hl, hg⟩ := h
        have hlt : ev.job < ws.length := (List.getElem?_eq_some_iff.mp hw).1
        have hlt' : ev.job < reqs.length := hl ▸ hlt
        obtain ⟨hg1, hfr⟩ := stepWorker_good (ev := ev) (hg ev.job _ w (List.getElem?_eq_getElem hlt') hw)
        refine ⟨⟨dirOk_frame hd (hfr _ (fun e => jobPath_ne d ev.job e.symm)), reqs, hr, by simpa using hl, ?_⟩, ?_, .inl rfl⟩
        · intro j r v h1 h2
          rw [List.getElem?_set] at h2
          by_cases hj : ev.job = j
          · subst hj
            rw [if_pos rfl, if_pos hlt] at h2
            injection h2 with h2
            rw [← h2]
            have : r = reqs[ev.job] := by
              rw [List.getElem?_eq_getElem hlt'] at h1; injection h1 with h1; exact h1.symm
            rw [this]
            exact hg1
          · rw [if_neg hj] at h2
            exact good_frame (hg j r v h1 h2) (hfr _ (fun e => hj (jobPath_inj e).symm)) (fun _ => List.mem_append_left _)
        · intro q hq
          refine hfr q ?_
          rintro rfl
          exact hq d (.inl rfl) (inDir_jobPath d ev.job)
    | main k =>
      unfold procStep
      dsimp only
      cases hall : allDone ws with
      | some paths =>
        obtain ⟨hd, reqs, hr, hl, hg⟩ := h
        have hws := allDone_eq hall
        subst hws
        have hlen : paths.length = reqs.length := by simpa using hl
        have hpair : List.Forall₂ (fun r p => ∃ o, psfRecFunc t.psf r = .ok o ∧ (load fs p = .ok o ∧ InDir d p)) reqs paths := by
          rw [List.forall₂_iff_get]
          refine ⟨hlen.symm, ?_⟩
          intro j h1 h2
          have hgj := hg j (reqs.get ⟨j, h1⟩) (.done (paths.get ⟨j, h2⟩)) (by simp [h1]) (by simp [h2])
          obtain ⟨hp, o, ho, hf⟩ := hgj
          refine ⟨o, ho, ?_, ?_⟩
          · unfold load
            rw [hf]
          · rw [hp]; exact inDir_jobPath d j
        obtain ⟨outs, ho, hl2⟩ := split_forall hpair
        refine ⟨⟨hd, reqs, outs, [], _, hr, mapRes_ok_iff.mpr ho, rfl, rfl, ?_⟩, fun _ _ => rfl, .inl rfl⟩
        rw [hlen]
        generalize List.range reqs.length = js
        clear hall hd hg hr hl hlen hpair ho hs
        induction hl2 generalizing js with
        | nil => simp
        | @cons p o ps os hp _ ih =>
          cases js with
          | nil => simp
          | cons j js => exact .cons ⟨rfl, hp.1, hp.2⟩ (ih js)
      | none =>
        dsimp only
        cases hk : ws[k]? with
        | none => exact stepOk_same h
        | some w =>
          cases w with
          | running _ _ => exact stepOk_same h
          | dumping _ => exact stepOk_same h
          | done _ => exact stepOk_same h
          | failed e =>
            obtain ⟨hd, reqs, hr, hl, hg⟩ := h
            refine stepOk_end rfl hd ⟨fun b hb => (by cases hb), ?_⟩
            intro e' _ hno b hb
            obtain ⟨reqs', outs, hreqs, houts⟩ := joblib_parts hb
            rw [hr] at hreqs
            injection hreqs with hreqs
            subst hreqs
            have hlt : k < reqs.length := hl ▸ (List.getElem?_eq_some_iff.mp hk).1
            rcases hg k _ _ (List.getElem?_eq_getElem hlt) hk with ⟨ev, hev, hfl⟩ | herr
            · rw [hno ev (List.mem_append_left _ hev)] at hfl; cases hfl
            · have := mapRes_ok_iff.mp houts
              rw [List.forall₂_iff_get] at this
              have hk2 := this.2 k hlt (this.1 ▸ hlt)
              simp only [List.get_eq_getElem] at hk2
              rw [herr] at hk2
              cases hk2
  | loading d todo buf =>
    cases a with
    | start n => cases todo <;> exact stepOk_same h
    | work ev => cases todo <;> exact stepOk_same h
    | main k =>
      obtain ⟨hd, reqs, outs, pre, rest, hr, ho, hz, hb, hall⟩ := h
      have hj := joblib_of hr ho
      rw [hz] at hj
      cases hall with
      | nil =>
        refine stepOk_end rfl hd ⟨?_, fun e he => by cases he⟩
        intro b hb'
        injection hb' with hb'
        rw [hj, List.append_nil, hb, hb']
      | @cons tp ro todo' rest' h1 h2 =>
        obtain ⟨h3, h4, h5⟩ := h1
        unfold procStep
        dsimp only
        rw [h4]
        simp only [Res.ok_bind]
        rw [h3]
        cases hw : writeJobOut t.maker.cfg (jobChunk t.nPer t.maker.objs ro.1) ro.2 buf with
        | ok b =>
          refine ⟨⟨hd, reqs, outs, pre ++ [ro], rest', hr, ho, by rw [hz]; simp, ?_, h2⟩, fun _ _ => rfl, .inl rfl⟩
          rw [foldRes_append, hb]
          simp only [Res.ok_bind, foldRes, hw]
        | error e =>
          refine stepOk_end rfl hd ⟨fun b hb => (by cases hb), ?_⟩
          intro e' _ _ b hb'
          rw [hj, foldRes_append, hb] at hb'
          simp only [Res.ok_bind, foldRes, hw] at hb'
          cases hb'

/-- What is known in every state. -/
structure Inv (tmp : Path) (tasks : List Call) (fs0 : Files) (acts : List Act) (st : Sys) : Prop where
  length : st.procs.length = tasks.length
  ok : ∀ (m : Nat) t p, tasks[m]? = some t → st.procs[m]? = some p → POk tmp fs0 st.files (eventsOf acts m) t p
  apart : ∀ (m m' : Nat) p p' d, st.procs[m]? = some p → st.procs[m']? = some p' → dirIn p = some d → dirIn p' = some d → m = m'
  outside : ∀ q, (∀ p ∈ st.procs, ∀ d, dirIn p = some d → ¬ InDir d q) → st.files q = fs0 q

theorem dirOk_of {tmp : Path} {fs0 fs : Files} {evs : List Event} {t : Call} {p : Proc} {d : Path} (h : POk tmp fs0 fs evs t p) (hd : dirIn p = some d) : DirOk tmp fs0 fs d := by
  cases p with
  | waiting => cases hd
  | ended r => cases hd
  | staged d' ws => injection hd with hd; subst hd; exact h.1
  | loading d' todo buf => injection hd with hd; subst hd; exact h.1

theorem eventsOf_snoc (acts : List Act) (a : Act) (m : Nat) : eventsOf (acts ++ [a]) m = eventsOf acts m ++ (if a.proc = m then evOf a.what else []) := by
  unfold eventsOf
  rw [List.filterMap_append]
  congr 1
  by_cases h : a.proc = m
  · cases hw : a.what <;> simp [h, hw, evOf]
  · simp [h]

theorem inv_step {tmp : Path} {tasks : List Call} {fs0 : Files} {acts : List Act} {st : Sys} (a : Act) (h : Inv tmp tasks fs0 acts st)
    (hn : ∀ n, a.what = .start n → '/' ∉ n ∧ Fresh st.files (dirOf tmp n)) : Inv tmp tasks fs0 (acts ++ [a]) (actOn tmp tasks st a) := by
  have hmono : ∀ m, ∀ ev ∈ eventsOf acts m, ev ∈ eventsOf (acts ++ [a]) m := by
    intro m ev hev
    rw [eventsOf_snoc]
    exact List.mem_append_left _ hev
  unfold actOn
  cases ht : tasks[a.proc]? with
  | none => exact ⟨h.length, fun m t p h1 h2 => pok_frame (h.ok m t p h1 h2) (hmono m) (fun _ _ _ _ => rfl), h.apart, h.outside⟩
  | some t =>
  cases hp : st.procs[a.proc]? with
  | none => exact ⟨h.length, fun m t p h1 h2 => pok_frame (h.ok m t p h1 h2) (hmono m) (fun _ _ _ _ => rfl), h.apart, h.outside⟩
  | some p =>
    dsimp only
    have hpok := h.ok _ t p ht hp
    have hlt : a.proc < st.procs.length := (List.getElem?_eq_some_iff.mp hp).1
    -- directories of the other calls are apart from a new one
    have hnew : ∀ n, a.what = .start n → ∀ (m : Nat) p' d, st.procs[m]? = some p' → dirIn p' = some d → ∀ q, InDir d q → ¬ InDir (dirOf tmp n) q := by
      intro n hw m p' d hm hd q hq hq'
      obtain ⟨h1, h2⟩ := hn n hw
      have hmt : m < tasks.length := h.length ▸ (List.getElem?_eq_some_iff.mp hm).1
      have hdok := dirOk_of (h.ok m _ p' (List.getElem?_eq_getElem hmt) hm) hd
      obtain ⟨n', rfl, hn'⟩ := hdok.name
      have := dirs_disjoint hn' h1 hq hq'
      subst this
      have := hdok.there
      rw [h2.1] at this
      cases this
    have hso := step_ok (a := a.what) hpok (fun n hw => ⟨(hn n hw).1, (hn n hw).2, fun _ q hq => by
      have h1 := h.outside q (fun p' hp' d hd hq' => by
        obtain ⟨m, hm⟩ := List.mem_iff_getElem?.mp hp'
        exact hnew n hw m p' d hm hd q hq' hq)
      rw [← h1]
      rcases hq with rfl | hq
      · exact (hn n hw).2.1
      · exact (hn n hw).2.2 q hq⟩)
    generalize hx : procStep tmp t a.what p st.files = x at hso
    obtain ⟨p', fs'⟩ := x
    dsimp only at hso ⊢
    -- the directory of another call is not touched
    have hother : ∀ (m : Nat) v d, m ≠ a.proc → st.procs[m]? = some v → dirIn v = some d → (∀ d', dirIn p = some d' ∨ dirIn p' = some d' → ∀ q, InDir d q → ¬ InDir d' q) := by
      intro m v d hne hm hd d' hd' q hq hq'
      have hmt : m < tasks.length := h.length ▸ (List.getElem?_eq_some_iff.mp hm).1
      have hdok := dirOk_of (h.ok m _ v (List.getElem?_eq_getElem hmt) hm) hd
      have hold : dirIn p = some d' → False := by
        intro hpd
        have hdok' := dirOk_of hpok hpd
        obtain ⟨n, hn1, hn2⟩ := hdok.name
        obtain ⟨n', hn1', hn2'⟩ := hdok'.name
        subst hn1 hn1'
        have := dirs_disjoint hn2 hn2' hq hq'
        subst this
        exact hne (h.apart m a.proc v p _ hm hp hd hpd)
      rcases hd' with hd' | hd'
      · exact hold hd'
      · rcases hso.dirs with he | ⟨_, n, hw, he⟩ | ⟨he, _⟩
        · exact hold (he ▸ hd')
        · rw [he] at hd'
          injection hd' with hd'
          subst hd'
          exact hnew n hw m v d hm hd q hq hq'
        · rw [he] at hd'; cases hd'
    refine ⟨by simpa using h.length, ?_, ?_, ?_⟩
    · intro m t' v h1 h2
      rw [List.getElem?_set] at h2
      by_cases hm : a.proc = m
      · rw [if_pos hm, if_pos hlt] at h2
        injection h2 with h2
        subst hm h2
        rw [ht] at h1
        injection h1 with h1
        subst h1
        rw [eventsOf_snoc, if_pos rfl]
        exact hso.ok
      · rw [if_neg hm] at h2
        refine pok_frame (h.ok m t' v h1 h2) (hmono m) ?_
        intro d hd q hq
        exact hso.frame q (fun d' hd' hq' => hother m v d (Ne.symm hm) h2 hd d' hd' q hq hq')
    · intro m m' v v' d h1 h2 hd hd'
      rw [List.getElem?_set] at h1 h2
      by_cases hm : a.proc = m
      · by_cases hm' : a.proc = m'
        · rw [← hm, ← hm']
        · rw [if_pos hm, if_pos hlt] at h1
          injection h1 with h1
          subst h1
          rw [if_neg hm'] at h2
          exact absurd (.inl rfl) (hother m' v' d (Ne.symm hm') h2 hd' d (.inr hd) d (.inl rfl))
      · rw [if_neg hm] at h1
        by_cases hm' : a.proc = m'
        · rw [if_pos hm', if_pos hlt] at h2
          injection h2 with h2
          subst h2
          exact absurd (.inl rfl) (hother m v d (Ne.symm hm) h1 hd d (.inr hd') d (.inl rfl))
        · rw [if_neg hm'] at h2
          exact h.apart m m' v v' d h1 h2 hd hd'
    · intro q hq
      have hmem : p' ∈ st.procs.set a.proc p' := List.mem_set hlt _
      have hothers : ∀ (m : Nat) v d, m ≠ a.proc → st.procs[m]? = some v → dirIn v = some d → ¬ InDir d q := by
        intro m v d hne hm hd
        refine hq v ?_ d hd
        rw [List.mem_iff_getElem?]
        exact ⟨m, by rw [List.getElem?_set, if_neg (Ne.symm hne)]; exact hm⟩
      have hout : (∀ d, dirIn p = some d → ¬ InDir d q) → fs' q = fs0 q := by
        intro hpd
        rw [hso.frame q (fun d hd => hd.elim (hpd d) (hq p' hmem d))]
        refine h.outside q ?_
        intro v hv d hd
        obtain ⟨m, hm⟩ := List.mem_iff_getElem?.mp hv
        by_cases hne : m = a.proc
        · subst hne
          rw [hp] at hm
          injection hm with hm
          subst hm
          exact hpd d hd
        · exact hothers m v d hne hm hd
      rcases hso.dirs with he | ⟨he, _⟩ | ⟨_, d, hd, hdok, hgone⟩
      · exact hout (fun d hd => hq p' hmem d (he ▸ hd))
      · exact hout (fun d hd => by rw [he] at hd; cases hd)
      · by_cases hin : InDir d q
        · show fs' q = fs0 q
          rw [hgone q hin, hdok.unused q hin]
        · exact hout (fun d' hd' => by rw [hd] at hd'; injection hd' with hd'; subst hd'; exact hin)

theorem inv_run {tmp : Path} {tasks : List Call} {fs : Files} {acts : List Act} (hn : NewNames tmp tasks fs acts) : Inv tmp tasks fs acts (runAll tmp tasks fs acts) := by
  induction acts using List.reverseRecOn with
  | nil =>
    refine ⟨by simp [runAll], ?_, ?_, fun _ _ => rfl⟩
    · intro m t p _ h2
      simp only [runAll, List.foldl_nil, List.getElem?_map, Option.map_eq_some_iff] at h2
      obtain ⟨_, _, rfl⟩ := h2
      trivial
    · intro m m' p p' d h1 _ hd _
      simp only [runAll, List.foldl_nil, List.getElem?_map, Option.map_eq_some_iff] at h1
      obtain ⟨_, _, rfl⟩ := h1
      cases hd
  | append_singleton acts a ih =>
    have h1 := ih (fun pre b post name he hw => hn pre b (post ++ [a]) name (by rw [he]; simp) hw)
    have h2 := inv_step a h1 (fun n hw => hn acts a [] n rfl hw)
    have he : runAll tmp tasks fs (acts ++ [a]) = actOn tmp tasks (runAll tmp tasks fs acts) a := by
      unfold runAll
      rw [List.foldl_append]
      rfl
    rw [he]
    exact h2

/-- **C130** Whatever makers write at the same time: a call that has returned has the pixels that the serial writer gives. -/
theorem C130_same_pixels {tmp : Path} {tasks : List Call} {fs : Files} {acts : List Act} (hn : NewNames tmp tasks fs acts) {m : Nat} {t : Call} {b : List ℚ}
    (ht : tasks[m]? = some t) (hpos : 0 < t.nPer) (h : (runAll tmp tasks fs acts).procs[m]? = some (.ended (.ok b))) : writePsfSerial t.maker t.psf t.buf = .ok b :=
  (C12_joblib_equals_serial hpos t.maker t.psf t.buf b).mp (((inv_run hn).ok m t _ ht h).1 b rfl)

/-- **C130** A call whose workers have no exceptions of their own raises none, if the serial writer does not, whatever the other makers do and whatever happens to their workers. -/
theorem C130_no_disturbance {tmp : Path} {tasks : List Call} {fs : Files} {acts : List Act} (hn : NewNames tmp tasks fs acts) {m : Nat} {t : Call} {b : List ℚ} {r : Res (List ℚ)}
    (ht : tasks[m]? = some t) (hpos : 0 < t.nPer) (hs : writePsfSerial t.maker t.psf t.buf = .ok b) (hno : NoFaults (eventsOf acts m))
    (h : (runAll tmp tasks fs acts).procs[m]? = some (.ended r)) : r = .ok b := by
  have hj := (C12_joblib_equals_serial hpos t.maker t.psf t.buf b).mpr hs
  have hok := (inv_run hn).ok m t _ ht h
  cases r with
  | error e => exact absurd hj (hok.2 e rfl hno b)
  | ok b' =>
    have := hok.1 b' rfl
    rw [hj] at this
    exact this.symm

/-- **C130** When no call is under way, the filesystem is as at the beginning. -/
theorem C130_clean {tmp : Path} {tasks : List Call} {fs : Files} {acts : List Act} (hn : NewNames tmp tasks fs acts)
    (h : ∀ p ∈ (runAll tmp tasks fs acts).procs, p = .waiting ∨ ∃ r, p = .ended r) : (runAll tmp tasks fs acts).files = fs := by
  funext q
  refine (inv_run hn).outside q ?_
  intro p hp d hd
  rcases h p hp with rfl | ⟨r, rfl⟩ <;> cases hd

/-- **C130** At any time nothing is changed outside of the temporary directories of the calls under way. -/
theorem C130_meanwhile {tmp : Path} {tasks : List Call} {fs : Files} {acts : List Act} (hn : NewNames tmp tasks fs acts) (q : Path)
    (hq : ∀ n, '/' ∉ n → ¬ InDir (dirOf tmp n) q) : (runAll tmp tasks fs acts).files q = fs q := by
  refine (inv_run hn).outside q ?_
  intro p hp d hd
  obtain ⟨m, hm⟩ := List.mem_iff_getElem?.mp hp
  have hmt : m < tasks.length := (inv_run hn).length ▸ (List.getElem?_eq_some_iff.mp hm).1
  obtain ⟨n, rfl, h2⟩ := (dirOk_of ((inv_run hn).ok m _ p (List.getElem?_eq_getElem hmt) hm) hd).name
  exact hq n h2

/-! ### Nothing gets stuck -/

/-- A bound for the useful actions left to a call under way. -/
def leftOf : Proc → Nat
  | .waiting => 0
  | .staged _ ws => (ws.map left).sum + ws.length + 2
  | .loading _ todo _ => todo.length + 1
  | .ended _ => 0

theorem sum_set_lt {ws : List Worker} {j : Nat} {w w' : Worker} (h : ws[j]? = some w) (hlt : left w' < left w) : ((ws.set j w').map left).sum < (ws.map left).sum := by
  induction ws generalizing j with
  | nil => simp at h
  | cons v ws ih =>
    cases j with
    | zero =>
      simp only [List.getElem?_cons_zero, Option.some.injEq] at h
      subst h
      simpa using hlt
    | succ j =>
      simp only [List.getElem?_cons_succ] at h
      simpa using ih h

theorem not_done : ∀ {ws : List Worker}, allDone ws = none → ∃ (j : Nat) (w : Worker), ws[j]? = some w ∧ (0 < left w ∨ ∃ e, w = .failed e)
  | [], h => by cases h
  | .running rest out :: _, _ => ⟨0, _, rfl, .inl (by simp [left])⟩
  | .dumping _ :: _, _ => ⟨0, _, rfl, .inl (by simp [left])⟩
  | .failed e :: _, _ => ⟨0, _, rfl, .inr ⟨e, rfl⟩⟩
  | .done p :: ws, h => by
    simp only [allDone, Option.map_eq_none_iff] at h
    obtain ⟨j, w, h1, h2⟩ := not_done h
    exact ⟨j + 1, w, by simpa using h1, h2⟩

/-- An action of the call itself that is no exception from outside. -/
def Calm : What → Prop
  | .start _ => False
  | .work ev => ev.fault = none
  | .main _ => True

theorem can_step (tmp : Path) (t : Call) {p : Proc} (fs : Files) {d : Path} (h : dirIn p = some d) :
    ∃ a, Calm a ∧ leftOf (procStep tmp t a p fs).1 < leftOf p ∧ (dirIn (procStep tmp t a p fs).1 ≠ none ∨ ∃ r, (procStep tmp t a p fs).1 = .ended r) := by
  cases p with
  | waiting => cases h
  | ended r => cases h
  | staged d ws =>
    cases hall : allDone ws with
    | some paths =>
      refine ⟨.main 0, trivial, ?_, .inl ?_⟩
      · unfold procStep
        dsimp only
        rw [hall]
        have := allDone_eq hall
        subst this
        simp [leftOf]
      · unfold procStep
        dsimp only
        rw [hall]
        simp [dirIn]
    | none =>
      obtain ⟨j, w, hj, hw | ⟨e, rfl⟩⟩ := not_done hall
      · refine ⟨.work ⟨j, none⟩, rfl, ?_, .inl ?_⟩
        · unfold procStep
          dsimp only
          rw [hj]
          dsimp only [leftOf]
          have h1 := stepWorker_left t.psf (jobPath d j) none w fs
          have h2 := sum_set_lt hj (w' := (stepWorker t.psf (jobPath d j) none w fs).1) (by omega)
          rw [List.length_set]
          omega
        · unfold procStep
          dsimp only
          rw [hj]
          simp [dirIn]
      · refine ⟨.main j, trivial, ?_, .inr ⟨.error e, ?_⟩⟩
        · unfold procStep
          dsimp only
          rw [hall]
          dsimp only
          rw [hj]
          simp [leftOf]
        · unfold procStep
          dsimp only
          rw [hall]
          dsimp only
          rw [hj]
  | loading d todo buf =>
    cases todo with
    | nil => exact ⟨.main 0, trivial, by simp [procStep, leftOf], .inr ⟨.ok buf, rfl⟩⟩
    | cons jp rest =>
      refine ⟨.main 0, trivial, ?_, ?_⟩
      · unfold procStep
        dsimp only
        split <;> simp [leftOf]
      · unfold procStep
        dsimp only
        split
        · exact .inl (by simp [dirIn])
        · exact .inr ⟨_, rfl⟩

theorem runAll_snoc (tmp : Path) (tasks : List Call) (fs : Files) (acts : List Act) (a : Act) :
    runAll tmp tasks fs (acts ++ [a]) = actOn tmp tasks (runAll tmp tasks fs acts) a := by
  unfold runAll
  rw [List.foldl_append]
  rfl

theorem eventsOf_append (a b : List Act) (m : Nat) : eventsOf (a ++ b) m = eventsOf a m ++ eventsOf b m := by
  unfold eventsOf
  rw [List.filterMap_append]

/-- New names stay new names when actions follow that do not begin a call. -/
theorem newNames_append {tmp : Path} {tasks : List Call} {fs : Files} {acts more : List Act} (hn : NewNames tmp tasks fs acts) (hm : ∀ a ∈ more, Calm a.what) :
    NewNames tmp tasks fs (acts ++ more) := by
  intro pre a post name he hw
  rcases List.append_eq_append_iff.mp he with ⟨as, h1, h2⟩ | ⟨bs, h1, h2⟩
  · exfalso
    have : a ∈ more := by rw [h2]; simp
    have := hm a this
    rw [hw] at this
    exact this
  · cases bs with
    | nil =>
      exfalso
      simp only [List.nil_append] at h2
      have : a ∈ more := by rw [← h2]; simp
      have := hm a this
      rw [hw] at this
      exact this
    | cons b bs =>
      injection h2 with h3 _
      subst h3
      exact hn pre a bs name h1 hw

/-- **C130** No call ever waits for another one: whatever has happened, a call under way comes to its end by actions of its own alone, and if the serial writer succeeds and no exception has come to its workers
from outside, it ends with the pixels. -/
theorem C130_finishes {tmp : Path} {tasks : List Call} {fs : Files} {acts : List Act} (hn : NewNames tmp tasks fs acts) {m : Nat} {t : Call} {p : Proc} {d : Path}
    (ht : tasks[m]? = some t) (hp : (runAll tmp tasks fs acts).procs[m]? = some p) (hd : dirIn p = some d) :
    ∃ more r, (∀ a ∈ more, a.proc = m ∧ Calm a.what) ∧ (runAll tmp tasks fs (acts ++ more)).procs[m]? = some (.ended r) ∧
      ∀ b, 0 < t.nPer → writePsfSerial t.maker t.psf t.buf = .ok b → NoFaults (eventsOf acts m) → r = .ok b := by
  have key : ∀ (k : Nat) (acts : List Act) (p : Proc) (d : Path), (runAll tmp tasks fs acts).procs[m]? = some p → dirIn p = some d → leftOf p ≤ k →
      ∃ more r, (∀ a ∈ more, a.proc = m ∧ Calm a.what) ∧ (runAll tmp tasks fs (acts ++ more)).procs[m]? = some (.ended r) := by
    intro k
    induction k with
    | zero =>
      intro acts p d _ hd hk
      cases p with
      | waiting => cases hd
      | ended r => cases hd
      | staged d ws => simp [leftOf] at hk
      | loading d todo buf => simp [leftOf] at hk
    | succ k ih =>
      intro acts p d hp hd hk
      obtain ⟨w, hc, hl, he⟩ := can_step tmp t (runAll tmp tasks fs acts).files hd
      have hlt : m < (runAll tmp tasks fs acts).procs.length := (List.getElem?_eq_some_iff.mp hp).1
      have hnext : (runAll tmp tasks fs (acts ++ [⟨m, w⟩])).procs[m]? = some (procStep tmp t w p (runAll tmp tasks fs acts).files).1 := by
        rw [runAll_snoc]
        unfold actOn
        dsimp only
        rw [ht, hp]
        dsimp only
        rw [List.getElem?_set, if_pos rfl, if_pos hlt]
      rcases he with he | ⟨r, he⟩
      · obtain ⟨d', hd'⟩ := Option.ne_none_iff_exists'.mp he
        obtain ⟨more, r, h1, h2⟩ := ih (acts ++ [⟨m, w⟩]) _ d' hnext hd' (by omega)
        refine ⟨⟨m, w⟩ :: more, r, ?_, by simpa using h2⟩
        intro a ha
        rcases List.mem_cons.mp ha with rfl | ha
        · exact ⟨rfl, hc⟩
        · exact h1 a ha
      · exact ⟨[⟨m, w⟩], r, by simpa using hc, by rw [hnext, he]⟩
  obtain ⟨more, r, h1, h2⟩ := key _ acts p d hp hd le_rfl
  refine ⟨more, r, h1, h2, ?_⟩
  intro b hpos hs hno
  refine C130_no_disturbance (newNames_append hn (fun a ha => (h1 a ha).2)) ht hpos hs ?_ h2
  intro ev hev
  rw [eventsOf_append] at hev
  rcases List.mem_append.mp hev with hev | hev
  · exact hno ev hev
  · unfold eventsOf at hev
    obtain ⟨a, ha, he⟩ := List.mem_filterMap.mp hev
    have hc := (h1 a ha).2
    split at he
    · cases hw : a.what with
      | start n => rw [hw] at he; cases he
      | main k => rw [hw] at he; cases he
      | work ev' =>
        rw [hw] at he hc
        injection he with he
        subst he
        exact hc
    · cases he

/-! ### A case -/

/-- Two makers write at the same time. -/
def exCalls : List Call := List.replicate 2 ⟨1, exMk, Ex.psfs, List.replicate 18 0⟩

/-- A step of a worker without exception. -/
def exWork (m j : Nat) : Act := ⟨m, .work { job := j, fault := none }⟩

/-- The disk is full when the second worker of the second maker begins its dump, and this maker raises; the first one goes on, loads its files and ends. -/
def exRest : List Act :=
  [exWork 1 1, exWork 0 1, exWork 0 0, exWork 1 1, exWork 1 1, exWork 0 0, exWork 0 1, exWork 1 1, exWork 0 0, exWork 0 0, exWork 0 1,
    ⟨1, .work { job := 1, fault := some .osError }⟩, exWork 0 1, exWork 0 1, exWork 0 0, exWork 0 1, ⟨1, .main 1⟩, exWork 0 1, ⟨0, .main 0⟩, ⟨0, .main 0⟩, ⟨0, .main 0⟩, ⟨0, .main 0⟩]

/-- Both make their directories first. -/
def exActs : List Act := ⟨0, .start "tmpa".toList⟩ :: ⟨1, .start "tmpb".toList⟩ :: exRest

theorem exStarted : (runAll "/tmp".toList exCalls exFiles [⟨0, .start "tmpa".toList⟩]).files = put exFiles "/tmp/tmpa".toList .dir := by
  have h := eq_ok_get (requests 1 exMk) (by decide +kernel)
  generalize (requests 1 exMk).toOption.get _ = reqs at h
  have h2 : procStep "/tmp".toList ⟨1, exMk, Ex.psfs, List.replicate 18 0⟩ (.start "tmpa".toList) .waiting exFiles =
      (.staged "/tmp/tmpa".toList (reqs.map (fun r => .running r [])), put exFiles "/tmp/tmpa".toList .dir) := by
    unfold procStep
    dsimp only
    rw [h]
    rfl
  show (procStep "/tmp".toList ⟨1, exMk, Ex.psfs, List.replicate 18 0⟩ (.start "tmpa".toList) .waiting exFiles).2 = _
  rw [h2]

theorem exNames : NewNames "/tmp".toList exCalls exFiles exActs := by
  intro pre a post name he hw
  match pre with
  | [] =>
    injection he with h1 _
    subst h1
    injection hw with hw
    subst hw
    exact ⟨by decide, exFresh⟩
  | [x] =>
    injection he with h1 he
    injection he with h2 _
    subst h1 h2
    injection hw with hw
    subst hw
    refine ⟨by decide, ?_⟩
    rw [exStarted]
    refine ⟨by decide +kernel, ?_⟩
    intro q hq
    unfold exFiles put
    rw [if_neg, if_neg]
    · rintro rfl; revert hq; decide +kernel
    · rintro rfl; revert hq; decide +kernel
  | x :: y :: pre =>
    injection he with _ he
    injection he with _ he
    have hm : a ∈ exRest := by rw [he]; simp
    have hno : ∀ b ∈ exRest, ∀ n, b.what ≠ .start n := by simp [exRest, exWork]
    exact absurd hw (hno a hm name)

/-- How the two calls ended. -/
def exEnds : List Proc → Option (List ℚ)
  | [.ended (.ok b), .ended (.error .osError)] => some b
  | _ => none

theorem exEnded : exEnds (runAll "/tmp".toList exCalls exFiles exActs).procs = some exPixels := by decide +kernel

-- the hypotheses of the theorems: the first call has ended with the pixels, the second one has raised
example : (runAll "/tmp".toList exCalls exFiles exActs).procs = [.ended (.ok exPixels), .ended (.error .osError)] := by
  have h := exEnded
  generalize (runAll "/tmp".toList exCalls exFiles exActs).procs = ps at h
  unfold exEnds at h
  split at h
  · injection h with h
    rw [h]
  · cases h

-- in the middle both are under way, as `C130_finishes` has it
example : ((runAll "/tmp".toList exCalls exFiles (exActs.take 9)).procs.map dirIn) = [some "/tmp/tmpa".toList, some "/tmp/tmpb".toList] := by decide +kernel

end Meds.Workers
