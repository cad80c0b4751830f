import Verif.Model.Joblib
import Verif.Lemmas.Writer
import Verif.Examples.Maker

/-!
# Parallel code paths equal the serial ones (C12, C13)
-/

namespace Meds
namespace Maker

/-! ### chunks -/

theorem take_succ_chunk {α : Type} (l : List α) (n k : Nat) : l.take (k * n) ++ jobChunk n l k = l.take ((k + 1) * n) := by
  unfold jobChunk
  have e : (k + 1) * n = k * n + n := by ring
  rw [e]
  by_cases h : k * n + n ≤ l.length
  · rw [Nat.min_eq_left h]
    conv_rhs => rw [← List.take_append_drop (k * n) (l.take (k * n + n))]
    rw [List.take_take, Nat.min_eq_left (by omega)]
  · rw [Nat.min_eq_right (by omega), List.take_length, List.take_of_length_le (i := k * n + n) (by omega)]
    exact List.take_append_drop _ _

theorem chunks_flatten {α : Type} (l : List α) (n k : Nat) : ((List.range k).map (jobChunk n l)).flatten = l.take (k * n) := by
  induction k with
  | zero => simp
  | succ k ih =>
    rw [List.range_succ, List.map_append, List.flatten_append, ih]
    simpa using take_succ_chunk l n k

theorem jobCount_enough {n nobj : Nat} (hn : 0 < n) : nobj ≤ jobCount n nobj * n := by
  unfold jobCount
  dsimp only
  split
  · have := Nat.div_add_mod nobj n
    have := Nat.mod_lt nobj hn
    rw [Nat.add_mul, Nat.mul_comm (nobj / n)]
    omega
  · omega

theorem jobs_cover {α : Type} (l : List α) {n : Nat} (hn : 0 < n) :
    ((List.range (jobCount n l.length)).map (jobChunk n l)).flatten = l := by
  rw [chunks_flatten, List.take_of_length_le (jobCount_enough hn)]

/-! ### PSF writing -/

/-- Enough columns for all epochs. -/
def Wide (objs : List ObjRow) : Prop := ∀ o ∈ objs, o.ncutout.toNat ≤ o.slots.length

/-- Write one PSF image. -/
def psfStep (cfg : MakerCfg) (psf : List PsfModel) (buf : List ℚ) (c : SkyPos × Slot) : Res (List ℚ) := do
  let p ← pyGet psf c.2.fileId
  writePsfImage cfg c.2 (p.getRec c.1 c.2.origRow c.2.origCol) buf

/-- All epochs of a catalogue with the sky position of their object. -/
def reqsOf (objs : List ObjRow) : List (SkyPos × Slot) := objs.flatMap (fun o => (o.slots.take o.ncutout.toNat).map (fun s => (o.sky, s)))

theorem writeObjPsf_iff {cfg : MakerCfg} {psf : List PsfModel} {sky : SkyPos} {n : Nat} {ss : List Slot} {buf buf' : List ℚ} :
    writeObjPsf cfg psf sky n ss buf = .ok buf' ↔
      n ≤ ss.length ∧ foldRes (psfStep cfg psf) buf ((ss.take n).map (fun s => (sky, s))) = .ok buf' := by
  induction n generalizing ss buf with
  | zero => simp [writeObjPsf, foldRes]
  | succ n ih =>
    cases ss with
    | nil => simp [writeObjPsf]
    | cons s ss =>
      rw [List.take_succ_cons, List.map_cons, foldRes_cons_ok]
      constructor
      · intro h
        unfold writeObjPsf at h
        obtain ⟨p, hp, h⟩ := Res.bind_eq_ok.mp h
        obtain ⟨b, hb, h⟩ := Res.bind_eq_ok.mp h
        obtain ⟨h1, h2⟩ := ih.mp h
        refine ⟨by simpa using h1, b, ?_, h2⟩
        unfold psfStep
        rw [hp]; exact hb
      · rintro ⟨h1, b, hb, h2⟩
        unfold psfStep at hb
        obtain ⟨p, hp, hb⟩ := Res.bind_eq_ok.mp hb
        unfold writeObjPsf
        exact Res.bind_eq_ok.mpr ⟨p, hp, Res.bind_eq_ok.mpr ⟨b, hb, ih.mpr ⟨by simpa using h1, h2⟩⟩⟩

theorem foldRes_append_ok {σ α : Type} {g : σ → α → Res σ} {s s' : σ} {a b : List α} :
    foldRes g s (a ++ b) = .ok s' ↔ ∃ t, foldRes g s a = .ok t ∧ foldRes g t b = .ok s' := by
  rw [foldRes_append]
  exact Res.bind_eq_ok

theorem serial_iff {cfg : MakerCfg} {psf : List PsfModel} {objs : List ObjRow} {buf buf' : List ℚ} :
    foldRes (fun b (o : ObjRow) => writeObjPsf cfg psf o.sky o.ncutout.toNat o.slots b) buf objs = .ok buf' ↔
      Wide objs ∧ foldRes (psfStep cfg psf) buf (reqsOf objs) = .ok buf' := by
  induction objs generalizing buf with
  | nil => simp [foldRes, Wide, reqsOf]
  | cons o os ih =>
    rw [foldRes_cons_ok]
    unfold reqsOf
    rw [List.flatMap_cons, foldRes_append_ok]
    unfold Wide
    rw [List.forall_mem_cons]
    constructor
    · rintro ⟨t, h1, h2⟩
      obtain ⟨a, b⟩ := writeObjPsf_iff.mp h1
      obtain ⟨c, d⟩ := ih.mp h2
      exact ⟨⟨a, c⟩, t, b, d⟩
    · rintro ⟨⟨a, c⟩, t, b, d⟩
      exact ⟨t, writeObjPsf_iff.mpr ⟨a, b⟩, ih.mpr ⟨c, d⟩⟩

theorem gatherObj_iff {sky : SkyPos} {n : Nat} {ss : List Slot} {r : List (SkyPos × Slot)} :
    gatherObj sky n ss = .ok r ↔ n ≤ ss.length ∧ r = (ss.take n).map (fun s => (sky, s)) := by
  induction n generalizing ss r with
  | zero => simp [gatherObj]
  | succ n ih =>
    cases ss with
    | nil => simp [gatherObj]
    | cons s ss =>
      unfold gatherObj
      rw [Res.bind_eq_ok]
      constructor
      · rintro ⟨q, hq, h⟩
        injection h with h
        obtain ⟨a, b⟩ := ih.mp hq
        exact ⟨by simpa using a, by rw [← h, b]; rfl⟩
      · rintro ⟨a, b⟩
        exact ⟨_, ih.mpr ⟨by simpa using a, rfl⟩, by rw [b]; rfl⟩

theorem gatherJob_iff {objs : List ObjRow} {r : List (SkyPos × Slot)} : gatherJob objs = .ok r ↔ Wide objs ∧ r = reqsOf objs := by
  unfold gatherJob
  rw [Res.bind_eq_ok]
  have key : ∀ (objs : List ObjRow) (q : List (List (SkyPos × Slot))),
      mapRes (fun o : ObjRow => gatherObj o.sky o.ncutout.toNat o.slots) objs = .ok q ↔
        Wide objs ∧ q = objs.map (fun o => (o.slots.take o.ncutout.toNat).map (fun s => (o.sky, s))) := by
    intro objs
    induction objs with
    | nil =>
      intro q
      simp only [mapRes, Except.ok.injEq, Wide, List.not_mem_nil, false_implies, implies_true, true_and, List.map_nil]
      exact eq_comm
    | cons o os ih =>
      intro q
      rw [mapRes_ok_iff, List.forall₂_cons_left_iff]
      unfold Wide
      rw [List.forall_mem_cons, List.map_cons]
      constructor
      · rintro ⟨b, u, hb, hu, rfl⟩
        obtain ⟨c, d⟩ := gatherObj_iff.mp hb
        obtain ⟨e, f⟩ := (ih u).mp (mapRes_ok_iff.mpr hu)
        exact ⟨⟨c, e⟩, by rw [d, f]⟩
      · rintro ⟨⟨c, e⟩, rfl⟩
        exact ⟨_, _, gatherObj_iff.mpr ⟨c, rfl⟩, mapRes_ok_iff.mp ((ih _).mpr ⟨e, rfl⟩), rfl⟩
  constructor
  · rintro ⟨q, hq, h⟩
    injection h with h
    obtain ⟨a, b⟩ := (key objs q).mp hq
    refine ⟨a, ?_⟩
    rw [← h, b, reqsOf, List.flatMap_def]
  · rintro ⟨a, rfl⟩
    exact ⟨_, (key objs _).mpr ⟨a, rfl⟩, by rw [reqsOf, List.flatMap_def]⟩

theorem pyGet_append_len {α : Type} (pre post : List α) (x : α) : pyGet (pre ++ x :: post) (pre.length : Int) = .ok x :=
  pyGet_nat_some (by simp)

/-- One object written from a job output whose next images are those of its epochs. -/
theorem writeObjOut_iff {cfg : MakerCfg} {psf : List PsfModel} {sky : SkyPos} {n : Nat} {ss : List Slot} {pre here post : List (Img ℚ)}
    {buf : List ℚ} {st : Nat × List ℚ} (hw : n ≤ ss.length)
    (hh : psfRecFunc psf ((ss.take n).map (fun s => (sky, s))) = .ok here) :
    writeObjOut cfg (pre ++ here ++ post) n ss (pre.length, buf) = .ok st ↔
      st.1 = pre.length + here.length ∧ foldRes (psfStep cfg psf) buf ((ss.take n).map (fun s => (sky, s))) = .ok st.2 := by
  induction n generalizing ss here pre buf with
  | zero =>
    simp only [List.take_zero, List.map_nil, psfRecFunc, mapRes] at hh
    injection hh with hh
    subst hh
    simp only [writeObjOut, List.take_zero, List.map_nil, foldRes, List.length_nil, Nat.add_zero]
    constructor
    · intro h; injection h with h; subst h; exact ⟨rfl, rfl⟩
    · rintro ⟨h1, h2⟩; injection h2 with h2; rw [Except.ok.injEq]; exact Prod.ext h1.symm h2
  | succ n ih =>
    cases ss with
    | nil => simp at hw
    | cons s ss =>
      rw [List.take_succ_cons, List.map_cons] at hh ⊢
      unfold psfRecFunc at hh
      rw [mapRes_ok_iff, List.forall₂_cons_left_iff] at hh
      obtain ⟨im, rest, him, hrest, rfl⟩ := hh
      obtain ⟨p, hp, him⟩ := Res.bind_eq_ok.mp him
      injection him with him
      have hrest' : psfRecFunc psf ((ss.take n).map (fun s => (sky, s))) = .ok rest := mapRes_ok_iff.mpr hrest
      have hstep : psfStep cfg psf buf (sky, s) = writePsfImage cfg s im buf := by
        unfold psfStep
        rw [hp, ← him]
        rfl
      have hget : pyGet (pre ++ im :: rest ++ post) (pre.length : Int) = .ok im := by
        rw [List.append_assoc]; exact pyGet_append_len _ _ _
      unfold writeObjOut
      dsimp only
      rw [hget]
      simp only [Res.ok_bind]
      rw [foldRes_cons_ok, hstep, Res.bind_eq_ok]
      have hlist : pre ++ im :: rest ++ post = (pre ++ [im]) ++ rest ++ post := by simp
      have hlen : pre.length + 1 = (pre ++ [im]).length := by simp
      constructor
      · rintro ⟨b, hb, h⟩
        rw [hlist, hlen] at h
        obtain ⟨h1, h2⟩ := (ih (pre := pre ++ [im]) (by simpa using hw) hrest').mp h
        refine ⟨?_, b, hb, h2⟩
        rw [h1]; simp; omega
      · rintro ⟨h1, b, hb, h2⟩
        refine ⟨b, hb, ?_⟩
        rw [hlist, hlen]
        refine (ih (pre := pre ++ [im]) (by simpa using hw) hrest').mpr ⟨?_, h2⟩
        rw [h1]; simp; omega

theorem psfRecFunc_append {psf : List PsfModel} {a b : List (SkyPos × Slot)} {out : List (Img ℚ)} :
    psfRecFunc psf (a ++ b) = .ok out ↔ ∃ u v, psfRecFunc psf a = .ok u ∧ psfRecFunc psf b = .ok v ∧ out = u ++ v := by
  induction a generalizing out with
  | nil => simp [psfRecFunc, mapRes]
  | cons x xs ih =>
    constructor
    · intro h
      unfold psfRecFunc at h
      rw [List.cons_append, mapRes_ok_iff, List.forall₂_cons_left_iff] at h
      obtain ⟨y, ys, h1, h2, rfl⟩ := h
      obtain ⟨u, v, hu, hv, rfl⟩ := ih.mp (mapRes_ok_iff.mpr h2)
      exact ⟨y :: u, v, mapRes_ok_iff.mpr (List.Forall₂.cons h1 (mapRes_ok_iff.mp hu)), hv, rfl⟩
    · rintro ⟨u, v, hu, hv, rfl⟩
      unfold psfRecFunc at hu
      rw [mapRes_ok_iff, List.forall₂_cons_left_iff] at hu
      obtain ⟨y, ys, h1, h2, rfl⟩ := hu
      have := ih.mpr ⟨ys, v, mapRes_ok_iff.mpr h2, hv, rfl⟩
      exact mapRes_ok_iff.mpr (List.Forall₂.cons h1 (mapRes_ok_iff.mp this))

theorem writeJobOut_iff {cfg : MakerCfg} {psf : List PsfModel} {objs : List ObjRow} {out : List (Img ℚ)} {buf buf' : List ℚ}
    (hw : Wide objs) (ho : psfRecFunc psf (reqsOf objs) = .ok out) :
    writeJobOut cfg objs out buf = .ok buf' ↔ foldRes (psfStep cfg psf) buf (reqsOf objs) = .ok buf' := by
  have key : ∀ (objs : List ObjRow) (pre here : List (Img ℚ)) (buf : List ℚ) (st : Nat × List ℚ), Wide objs →
      psfRecFunc psf (reqsOf objs) = .ok here →
      (foldRes (fun st (o : ObjRow) => writeObjOut cfg (pre ++ here) o.ncutout.toNat o.slots st) (pre.length, buf) objs = .ok st ↔
        st.1 = pre.length + here.length ∧ foldRes (psfStep cfg psf) buf (reqsOf objs) = .ok st.2) := by
    intro objs
    induction objs with
    | nil =>
      intro pre here buf st _ h
      simp only [reqsOf, List.flatMap_nil, psfRecFunc, mapRes] at h
      injection h with h
      subst h
      simp only [foldRes, reqsOf, List.flatMap_nil, List.length_nil, Nat.add_zero]
      constructor
      · intro h; injection h with h; subst h; exact ⟨rfl, rfl⟩
      · rintro ⟨h1, h2⟩; injection h2 with h2; rw [Except.ok.injEq]; exact Prod.ext h1.symm h2
    | cons o os ih =>
      intro pre here buf st hw h
      unfold Wide at hw
      rw [List.forall_mem_cons] at hw
      have hreq : reqsOf (o :: os) = (o.slots.take o.ncutout.toNat).map (fun s => (o.sky, s)) ++ reqsOf os := by
        unfold reqsOf; rw [List.flatMap_cons]
      rw [hreq] at h ⊢
      obtain ⟨u, v, hu, hv, rfl⟩ := psfRecFunc_append.mp h
      rw [foldRes_cons_ok, foldRes_append_ok]
      have e1 : pre ++ (u ++ v) = pre ++ u ++ v := by simp
      constructor
      · rintro ⟨t, h1, h2⟩
        rw [e1] at h1 h2
        obtain ⟨a, b⟩ := (writeObjOut_iff hw.1 hu).mp h1
        have ht : t = ((pre ++ u).length, t.2) := Prod.ext (by rw [a]; simp) rfl
        rw [ht] at h2
        obtain ⟨c, d⟩ := (ih (pre ++ u) v t.2 st hw.2 hv).mp h2
        refine ⟨by rw [c]; simp; omega, t.2, b, d⟩
      · rintro ⟨h1, b, hb, h2⟩
        refine ⟨((pre ++ u).length, b), ?_, ?_⟩
        · rw [e1]
          exact (writeObjOut_iff hw.1 hu).mpr ⟨by simp, hb⟩
        · rw [e1]
          exact (ih (pre ++ u) v b st hw.2 hv).mpr ⟨by rw [h1]; simp; omega, h2⟩
  unfold writeJobOut
  rw [Res.bind_eq_ok]
  have := key objs [] out buf
  simp only [List.length_nil, List.nil_append, Nat.zero_add] at this
  constructor
  · rintro ⟨st, h1, h2⟩
    injection h2 with h2
    rw [← h2]
    exact ((this st hw ho).mp h1).2
  · intro h
    exact ⟨(out.length, buf'), (this _ hw ho).mpr ⟨rfl, h⟩, rfl⟩

theorem psfStep_drawn {cfg : MakerCfg} {psf : List PsfModel} {l : List (SkyPos × Slot)} {buf buf' : List ℚ}
    (h : foldRes (psfStep cfg psf) buf l = .ok buf') : ∃ out, psfRecFunc psf l = .ok out := by
  induction l generalizing buf with
  | nil => exact ⟨[], rfl⟩
  | cons c l ih =>
    obtain ⟨t, h1, h2⟩ := foldRes_cons_ok.mp h
    obtain ⟨out, ho⟩ := ih h2
    unfold psfStep at h1
    obtain ⟨p, hp, _⟩ := Res.bind_eq_ok.mp h1
    refine ⟨p.getRec c.1 c.2.origRow c.2.origCol :: out, ?_⟩
    exact mapRes_ok_iff.mpr (List.Forall₂.cons (Res.bind_eq_ok.mpr ⟨p, hp, rfl⟩) (mapRes_ok_iff.mp ho))

theorem reqsOf_append (a b : List ObjRow) : reqsOf (a ++ b) = reqsOf a ++ reqsOf b := by
  unfold reqsOf; rw [List.flatMap_append]

theorem reqsOf_flatten (l : List (List ObjRow)) : reqsOf l.flatten = (l.map reqsOf).flatten := by
  induction l with
  | nil => rfl
  | cons a l ih => rw [List.flatten_cons, reqsOf_append, ih]; rfl

/-- **C12** The PSF extension produced with joblib workers is the one produced serially: for every chunk size, one completes exactly when the other does
and with the same pixels.  (When both fail the exceptions may differ, because the workers run before anything is written.) -/
theorem C12_joblib_equals_serial {nPer : Nat} (hn : 0 < nPer) (mk : Maker) (psf : List PsfModel) (buf buf' : List ℚ) :
    writePsfJoblib nPer mk psf buf = .ok buf' ↔ writePsfSerial mk psf buf = .ok buf' := by
  unfold writePsfSerial
  rw [serial_iff]
  have hcov := jobs_cover mk.objs hn
  unfold writePsfJoblib
  dsimp only
  generalize List.range (jobCount nPer mk.objs.length) = jobs at hcov
  rw [Res.bind_eq_ok]
  -- the requests of all jobs
  have hgather : ∀ (js : List Nat) (r : List (List (SkyPos × Slot))),
      mapRes (fun j => gatherJob (jobChunk nPer mk.objs j)) js = .ok r ↔
        (∀ j ∈ js, Wide (jobChunk nPer mk.objs j)) ∧ r = js.map (fun j => reqsOf (jobChunk nPer mk.objs j)) := by
    intro js
    induction js with
    | nil => intro r; simp [mapRes]
    | cons j js ih =>
      intro r
      rw [mapRes_ok_iff, List.forall₂_cons_left_iff, List.forall_mem_cons, List.map_cons]
      constructor
      · rintro ⟨b, u, hb, hu, rfl⟩
        obtain ⟨c, d⟩ := gatherJob_iff.mp hb
        obtain ⟨e, f⟩ := (ih u).mp (mapRes_ok_iff.mpr hu)
        exact ⟨⟨c, e⟩, by rw [d, f]⟩
      · rintro ⟨⟨c, e⟩, rfl⟩
        exact ⟨_, _, gatherJob_iff.mpr ⟨c, rfl⟩, mapRes_ok_iff.mp ((ih _).mpr ⟨e, rfl⟩), rfl⟩
  -- writing all jobs
  have hwrite : ∀ (js : List Nat) (outs : List (List (Img ℚ))) (buf : List ℚ), (∀ j ∈ js, Wide (jobChunk nPer mk.objs j)) →
      mapRes (psfRecFunc psf) (js.map (fun j => reqsOf (jobChunk nPer mk.objs j))) = .ok outs →
      (foldRes (fun b (jo : Nat × List (Img ℚ)) => writeJobOut mk.cfg (jobChunk nPer mk.objs jo.1) jo.2 b) buf (js.zip outs) = .ok buf' ↔
        foldRes (psfStep mk.cfg psf) buf ((js.map (fun j => reqsOf (jobChunk nPer mk.objs j))).flatten) = .ok buf') := by
    intro js
    induction js with
    | nil =>
      intro outs buf _ _
      simp [foldRes]
    | cons j js ih =>
      intro outs buf hw ho
      rw [List.map_cons, mapRes_ok_iff, List.forall₂_cons_left_iff] at ho
      obtain ⟨out, outs, h1, h2, rfl⟩ := ho
      rw [List.zip_cons_cons, foldRes_cons_ok, List.map_cons, List.flatten_cons, foldRes_append_ok]
      rw [List.forall_mem_cons] at hw
      have hj := fun b => writeJobOut_iff (cfg := mk.cfg) (psf := psf) (buf := buf) (buf' := b) hw.1 h1
      have hrest := fun b => ih outs b hw.2 (mapRes_ok_iff.mpr h2)
      constructor
      · rintro ⟨t, a, b⟩; exact ⟨t, (hj t).mp a, (hrest t).mp b⟩
      · rintro ⟨t, a, b⟩; exact ⟨t, (hj t).mpr a, (hrest t).mpr b⟩
  have hreqs : (jobs.map (fun j => reqsOf (jobChunk nPer mk.objs j))).flatten = reqsOf mk.objs := by
    rw [← hcov, reqsOf_flatten, List.map_map, hcov]
    rfl
  have hwide : Wide mk.objs ↔ ∀ j ∈ jobs, Wide (jobChunk nPer mk.objs j) := by
    unfold Wide
    constructor
    · intro h j hj o ho
      apply h
      rw [← hcov]
      exact List.mem_flatten.mpr ⟨_, List.mem_map_of_mem hj, ho⟩
    · intro h o ho
      rw [← hcov] at ho
      obtain ⟨l, hl, ho⟩ := List.mem_flatten.mp ho
      obtain ⟨j, hj, rfl⟩ := List.mem_map.mp hl
      exact h j hj o ho
  have hdrawn : ∀ (L : List (List (SkyPos × Slot))) (out : List (Img ℚ)), psfRecFunc psf L.flatten = .ok out → ∃ outs, mapRes (psfRecFunc psf) L = .ok outs := by
    intro L
    induction L with
    | nil => intro _ _; exact ⟨[], rfl⟩
    | cons a L ih =>
      intro out h
      rw [List.flatten_cons] at h
      obtain ⟨u, v, hu, hv, _⟩ := psfRecFunc_append.mp h
      obtain ⟨outs, ho⟩ := ih v hv
      exact ⟨u :: outs, mapRes_ok_iff.mpr (List.Forall₂.cons hu (mapRes_ok_iff.mp ho))⟩
  constructor
  · rintro ⟨r, h1, h⟩
    obtain ⟨outs, h2, h3⟩ := Res.bind_eq_ok.mp h
    obtain ⟨w, rfl⟩ := (hgather jobs r).mp h1
    refine ⟨hwide.mpr w, ?_⟩
    rw [← hreqs]
    exact (hwrite jobs outs buf w h2).mp h3
  · rintro ⟨w, h⟩
    have w' := hwide.mp w
    refine ⟨_, (hgather jobs _).mpr ⟨w', rfl⟩, ?_⟩
    rw [← hreqs] at h
    obtain ⟨out, ho⟩ := psfStep_drawn h
    obtain ⟨outs, hos⟩ := hdrawn _ _ ho
    exact Res.bind_eq_ok.mpr ⟨outs, hos, (hwrite jobs outs buf w' hos).mpr h⟩

/-- **C12** For the chunk size of the code. -/
theorem C12_joblib_equals_serial_2000 (mk : Maker) (psf : List PsfModel) (buf buf' : List ℚ) :
    writePsfJoblib 2000 mk psf buf = .ok buf' ↔ writePsfSerial mk psf buf = .ok buf' :=
  C12_joblib_equals_serial (by omega) mk psf buf buf'

-- a run whose PSFs are written in two jobs of one object each
example : (match Ex.run Ex.cfg Ex.objs Ex.images (some Ex.psfs) with
  | .ok (mk', _) =>
    let buf := List.replicate mk'.totalPsfPixels.toNat 0
    decide (mk'.totalPsfPixels = 18) && (match writePsfJoblib 1 mk' Ex.psfs buf with
      | .ok b => decide (writePsfSerial mk' Ex.psfs buf = .ok b) && decide (b.length = 18)
      | .error _ => false)
  | .error _ => false) = true := by decide +kernel

/-! ### sky positions -/

theorem skyJobs_flatten {α : Type} (nPer : Nat) (l : List α) (fuel i : Nat) (h : l.length ≤ (i + fuel) * nPer) :
    (skyJobs nPer l fuel i).flatten = l.drop (i * nPer) := by
  induction fuel generalizing i with
  | zero => simp only [skyJobs, List.flatten_nil]; rw [List.drop_of_length_le (by simpa using h)]
  | succ fuel ih =>
    unfold skyJobs
    split
    · rw [List.flatten_nil, List.drop_of_length_le (by assumption)]
    · rw [List.flatten_cons, ih (i + 1) (by rw [show i + 1 + fuel = i + (fuel + 1) by omega]; exact h)]
      have h1 := take_succ_chunk l nPer i
      have h2 := List.take_append_drop ((i + 1) * nPer) l
      rw [← h1, List.append_assoc] at h2
      have h3 := List.take_append_drop (i * nPer) l
      exact List.append_cancel_left (h2.trans h3.symm)

theorem skyPerJob_enough {nJobs n : Nat} (h : 0 < nJobs) : n ≤ skyPerJob nJobs n * nJobs := by
  unfold skyPerJob
  dsimp only
  split
  · have := Nat.div_add_mod n nJobs
    have := Nat.mod_lt n h
    rw [Nat.add_mul, Nat.mul_comm (n / nJobs)]
    omega
  · rw [Nat.mul_comm]; omega

/-- **C13** For a WCS that converts positions one by one, splitting the conversion among workers gives the same positions in the same order as a direct call,
for every number of workers. -/
theorem C13_parallel_positions {nJobs : Nat} (hj : 0 < nJobs) (useJoblib : Bool) (f : SkyPos → ℚ × ℚ) (sky : List SkyPos) :
    doSky2image useJoblib nJobs (List.map f) sky = .ok (sky.map f) := by
  unfold doSky2image
  split
  · rw [if_neg (by omega)]
    have he := skyPerJob_enough (n := sky.length) hj
    dsimp only
    rw [if_neg (by omega)]
    have : ((skyJobs (skyPerJob nJobs sky.length) sky nJobs 0).map (List.map f)).flatten = sky.map f := by
      rw [← List.map_flatten, skyJobs_flatten _ _ _ _ (by rw [Nat.zero_add, Nat.mul_comm]; exact he)]
      simp
    rw [this, if_pos (by simp)]
  · rfl

/-- **C13** for every configured number of workers, also zero and negative ones, on a machine with at least one CPU: the conversion returns the positions of a direct call. -/
theorem C13_any_setting {cpus : Nat} (hc : 0 < cpus) (maxWorkers : Int) (useJoblib : Bool) (f : SkyPos → ℚ × ℚ) (sky : List SkyPos) :
    doSky2image useJoblib (skyWorkers maxWorkers cpus) (List.map f) sky = .ok (sky.map f) ∧
      skyWorkers maxWorkers cpus ≤ cpus ∧ (0 < maxWorkers → (skyWorkers maxWorkers cpus : Int) ≤ maxWorkers) := by
  refine ⟨C13_parallel_positions ?_ _ _ _, ?_, ?_⟩ <;> unfold skyWorkers <;> split <;> omega

example : skyWorkers 0 4 = 4 ∧ skyWorkers (-1) 4 = 4 ∧ skyWorkers 3 4 = 3 ∧ skyWorkers 9 4 = 4 := by decide

-- an instance with workers that really splits the list: 300 positions among 7 workers
example : (skyJobs (skyPerJob 7 300) (List.range 300) 7 0).map List.length = [43, 43, 43, 43, 43, 43, 42] := by decide +kernel
-- the loop stops early when the chunks run out: 251 positions among 100 workers
example : (skyJobs (skyPerJob 100 251) (List.range 251) 100 0).length = 84 := by decide +kernel

end Maker
end Meds
