import Verif.Props.CoaddFile

/-!
# Files for parts of the catalogue from one `MEDSCoaddMaker` (C62)

`write` fills in the maker's own catalogue and never empties it, so what an earlier call left there is written by the next one.
-/

namespace Meds.Coadd
open Spec Maker

/-- `c'` is the row `c` after object `i` was processed. -/
def Filled (coadder : Nat → Res (Option CoaddObs × Int)) (i : Nat) (c c' : CRow) : Prop :=
  (∃ fl, coadder i = .ok (none, fl) ∧ c' = { c with coaddFlags := fl }) ∨ ∃ obs fl s p, coadder i = .ok (some obs, fl) ∧ c' = fillRow c obs fl s p

theorem fillRow_fillRow (c : CRow) (obs : CoaddObs) (fl s p s' p' : Int) : fillRow (fillRow c obs fl s p) obs fl s' p' = fillRow c obs fl s' p' := by
  unfold fillRow
  simp only [CRow.mk.injEq, ObjRow.mk.injEq, true_and, and_true]
  constructor
  · cases c.row.slots with
    | nil => rfl
    | cons a l => rfl
  · simp

theorem writeObject_rows {types : List String} {cast : String → ℚ → ℚ} {coadder : Nat → Res (Option CoaddObs × Int)} {st st' : WState} {i : Nat}
    (h : writeObject types cast coadder st i = .ok st') :
    st'.rows.length = st.rows.length ∧ (∀ j, j ≠ i → st'.rows[j]? = st.rows[j]?) ∧ ∃ c c', st.rows[i]? = some c ∧ st'.rows[i]? = some c' ∧ Filled coadder i c c' := by
  unfold writeObject at h
  obtain ⟨r, hr, h⟩ := Res.bind_eq_ok.mp h
  obtain ⟨c, hc, h⟩ := Res.bind_eq_ok.mp h
  have hc' : st.rows[i]? = some c := by simpa using pyGet_ok_nonneg hc (by omega)
  have hlt := (List.getElem?_eq_some_iff.mp hc').1
  obtain ⟨r1, r2⟩ := r
  cases r1 with
  | none =>
    injection h with h
    subst h
    exact ⟨by simp, fun j hj => by simp only; rw [List.getElem?_set_ne (Ne.symm hj)], c, _, hc', List.getElem?_set_self hlt, .inl ⟨r2, hr, rfl⟩⟩
  | some obs =>
    simp only at h
    split at h
    · cases h
    split at h
    · cases h
    obtain ⟨hd, _, h⟩ := Res.bind_eq_ok.mp h
    injection h with h
    subst h
    exact ⟨by simp, fun j hj => by simp only; rw [List.getElem?_set_ne (Ne.symm hj)], c, _, hc', List.getElem?_set_self hlt, .inr ⟨obs, r2, _, _, hr, rfl⟩⟩

theorem Filled.trans {coadder : Nat → Res (Option CoaddObs × Int)} {i : Nat} {a b c : CRow} (h : Filled coadder i a b) (h' : Filled coadder i b c) : Filled coadder i a c := by
  rcases h with ⟨fl, e, rfl⟩ | ⟨obs, fl, s, p, e, rfl⟩
  · rcases h' with ⟨fl', e', rfl⟩ | ⟨obs', fl', s', p', e', rfl⟩
    · exact .inl ⟨fl', e', rfl⟩
    · rw [e] at e'; cases e'
  · rcases h' with ⟨fl', e', rfl⟩ | ⟨obs', fl', s', p', e', rfl⟩
    · rw [e] at e'; cases e'
    · rw [e] at e'
      injection e' with e'
      injection e' with e1 e2
      injection e1 with e1
      subst e1 e2
      exact .inr ⟨obs, fl, s', p', e, fillRow_fillRow ..⟩

theorem writeCutouts_rows {k : CMaker} {lo hi : Nat} {st : WState} (h : k.writeCutouts lo hi = .ok st) :
    st.rows.length = k.rows.length ∧ (∀ i, ¬ (lo ≤ i ∧ i < hi) → st.rows[i]? = k.rows[i]?) ∧
    ∀ i, st.rows[i]? = k.rows[i]? ∨ ∃ c c', k.rows[i]? = some c ∧ st.rows[i]? = some c' ∧ Filled k.coadder i c c' := by
  unfold CMaker.writeCutouts at h
  refine foldRes_inv (P := fun s => s.rows.length = k.rows.length ∧ (∀ i, ¬ (lo ≤ i ∧ i < hi) → s.rows[i]? = k.rows[i]?) ∧
    ∀ i, s.rows[i]? = k.rows[i]? ∨ ∃ c c', k.rows[i]? = some c ∧ s.rows[i]? = some c' ∧ Filled k.coadder i c c') ⟨rfl, fun _ _ => rfl, fun _ => .inl rfl⟩ ?_ h
  intro t t' x hx hP ht
  rw [List.mem_range'_1] at hx
  obtain ⟨p1, p2, p3⟩ := hP
  obtain ⟨q1, q2, c, c', q3, q4, q5⟩ := writeObject_rows ht
  refine ⟨q1.trans p1, fun i hi => by rw [q2 i (by omega), p2 i hi], fun i => ?_⟩
  by_cases e : i = x
  · subst e
    rcases p3 i with h1 | ⟨d, d', h1, h2, h3⟩
    · exact .inr ⟨c, c', by rw [← h1]; exact q3, q4, q5⟩
    · rw [q3] at h2
      injection h2 with h2
      subst h2
      exact .inr ⟨d, c', h1, q4, h3.trans q5⟩
  · rw [q2 i e]
    exact p3 i

/-- Two states that differ at most in rows of objects still to be processed. -/
structure Sim (coadder : Nat → Res (Option CoaddObs × Int)) (todo : List Nat) (a b : WState) : Prop where
  hdus : a.hdus = b.hdus
  cur : a.lastRowStart = b.lastRowStart ∧ a.lastSize = b.lastSize ∧ a.lastPsfRowStart = b.lastPsfRowStart ∧ a.lastPsfSize = b.lastPsfSize
  rows : ∀ i, a.rows[i]? = b.rows[i]? ∨ i ∈ todo ∧ ∃ c c', a.rows[i]? = some c ∧ b.rows[i]? = some c' ∧ Filled coadder i c c'

theorem sim_fold {types : List String} {cast : String → ℚ → ℚ} {coadder : Nat → Res (Option CoaddObs × Int)} : ∀ (l : List Nat) {a b a' : WState}, Sim coadder l a b →
    foldRes (writeObject types cast coadder) a l = .ok a' → ∃ b', foldRes (writeObject types cast coadder) b l = .ok b' ∧ Sim coadder [] a' b' := by
  intro l
  induction l with
  | nil =>
    intro a b a' hs h
    simp only [foldRes] at h
    injection h with h
    subst h
    exact ⟨b, rfl, hs⟩
  | cons x xs ih =>
    intro a b a' hs h
    obtain ⟨a1, h1, h2⟩ := foldRes_cons_ok.mp h
    suffices ∃ b1, writeObject types cast coadder b x = .ok b1 ∧ Sim coadder xs a1 b1 by
      obtain ⟨b1, g1, g2⟩ := this
      obtain ⟨b', g3, g4⟩ := ih g2 h2
      exact ⟨b', foldRes_cons_ok.mpr ⟨b1, g1, g3⟩, g4⟩
    unfold writeObject at h1
    obtain ⟨r, hr, h1⟩ := Res.bind_eq_ok.mp h1
    obtain ⟨c, hc, h1⟩ := Res.bind_eq_ok.mp h1
    have hc' : a.rows[x]? = some c := by simpa using pyGet_ok_nonneg hc (by omega)
    have hb : ∃ d, b.rows[x]? = some d ∧ (d = c ∨ Filled coadder x c d) := by
      rcases hs.rows x with e | ⟨_, d, d', e1, e2, e3⟩
      · exact ⟨c, by rw [← e]; exact hc', .inl rfl⟩
      · rw [hc'] at e1
        injection e1 with e1
        subst e1
        exact ⟨d', e2, .inr e3⟩
    obtain ⟨d, hd, hcd⟩ := hb
    have la := (List.getElem?_eq_some_iff.mp hc').1
    have lb := (List.getElem?_eq_some_iff.mp hd).1
    have simrows : ∀ row, ∀ i, (a.rows.set x row)[i]? = (b.rows.set x row)[i]? ∨ i ∈ xs ∧ ∃ c c', (a.rows.set x row)[i]? = some c ∧ (b.rows.set x row)[i]? = some c' ∧ Filled coadder i c c' := by
      intro row i
      by_cases e : i = x
      · subst e
        rw [List.getElem?_set_self la, List.getElem?_set_self lb]
        exact .inl rfl
      · rw [List.getElem?_set_ne (Ne.symm e), List.getElem?_set_ne (Ne.symm e)]
        rcases hs.rows i with e1 | ⟨m1, e2⟩
        · exact .inl e1
        · rcases List.mem_cons.mp m1 with m1 | m1
          · exact absurd m1 e
          · exact .inr ⟨m1, e2⟩
    unfold writeObject
    rw [hr]
    simp only [Res.ok_bind]
    rw [pyGet_nat_some hd]
    simp only [Res.ok_bind]
    obtain ⟨r1, r2⟩ := r
    cases r1 with
    | none =>
      simp only at h1 ⊢
      injection h1 with h1
      subst h1
      refine ⟨_, rfl, hs.hdus, hs.cur, ?_⟩
      have : ({ d with coaddFlags := r2 } : CRow) = { c with coaddFlags := r2 } := by
        rcases hcd with rfl | ⟨fl, e, rfl⟩ | ⟨obs, fl, s, p, e, rfl⟩
        · rfl
        · rfl
        · rw [hr] at e; cases e
      simp only [this]
      exact simrows _
    | some obs =>
      simp only at h1 ⊢
      split at h1
      · cases h1
      split at h1
      · cases h1
      rename_i g1 g2
      obtain ⟨hd', hw, h1⟩ := Res.bind_eq_ok.mp h1
      injection h1 with h1
      have hfill : ∀ s p, fillRow d obs r2 s p = fillRow c obs r2 s p := by
        intro s p
        rcases hcd with rfl | ⟨fl, e, rfl⟩ | ⟨obs', fl, s', p', e, rfl⟩
        · rfl
        · rfl
        · rw [hr] at e
          injection e with e
          injection e with e1 e2
          injection e1 with e1
          subst e1 e2
          exact fillRow_fillRow ..
      have hdb : d.row.boxSize = c.row.boxSize := by
        rcases hcd with rfl | ⟨fl, e, rfl⟩ | ⟨obs', fl, s', p', e, rfl⟩ <;> rfl
      have hdl : c.origFlags.length ≤ d.origFlags.length := by
        rcases hcd with rfl | ⟨fl, e, rfl⟩ | ⟨obs', fl, s', p', e, rfl⟩
        · exact le_refl _
        · exact le_refl _
        · show _ ≤ (obs'.imflags ++ c.origFlags.drop obs'.imflags.length).length
          rw [List.length_append, List.length_drop]
          omega
      obtain ⟨k1, k2, k3, k4⟩ := hs.cur
      rw [hdb, if_neg g1, if_neg (by omega), ← k1, ← k2, ← k3, ← k4, ← hs.hdus, hw]
      subst h1
      refine ⟨_, rfl, rfl, ⟨rfl, rfl, rfl, rfl⟩, ?_⟩
      simp only [hfill]
      exact simrows _

/-- **C62** Writing again is harmless when the new range covers the earlier one: the result is that of a fresh maker. -/
theorem C62_covering_partial {k k1 k2 : CMaker} {f1 f2 : Fits} {lo hi lo' hi' : Nat} (h1 : k.write lo hi = .ok (k1, f1)) (h2 : k.write lo' hi' = .ok (k2, f2))
    (hlo : lo' ≤ lo) (hhi : hi ≤ hi') : k1.write lo' hi' = .ok (k2, f2) := by
  unfold CMaker.write at h1 h2
  obtain ⟨st, hst, h1⟩ := Res.bind_eq_ok.mp h1
  obtain ⟨st2, hst2, h2⟩ := Res.bind_eq_ok.mp h2
  injection h1 with h1
  injection h1 with h1 _
  obtain ⟨l1, o1, r1⟩ := writeCutouts_rows hst
  unfold CMaker.writeCutouts at hst2
  obtain ⟨st3, g1, g2⟩ := sim_fold (coadder := k.coadder) (List.range' lo' (hi' - lo')) (a := ⟨k.rows, k.reserved, 0, 0, 0, 0⟩) (b := ⟨st.rows, k.reserved, 0, 0, 0, 0⟩) ⟨rfl, ⟨rfl, rfl, rfl, rfl⟩, fun i => by
    by_cases hr : lo ≤ i ∧ i < hi
    · rcases r1 i with e | e
      · exact .inl e.symm
      · exact .inr ⟨by rw [List.mem_range'_1]; omega, e⟩
    · exact .inl (o1 i hr).symm⟩ hst2
  have hrows : st3.rows = st2.rows := by
    apply List.ext_getElem?
    intro i
    rcases g2.rows i with e | ⟨hm, _⟩
    · exact e.symm
    · cases hm
  have hh := g2.hdus
  subst h1
  unfold CMaker.write CMaker.writeCutouts
  rw [show CMaker.reserved { k with rows := st.rows } = k.reserved from rfl]
  simp only
  rw [g1]
  simp only [Res.ok_bind]
  rw [hrows, ← hh]
  exact h2

/-- **C62** What happens for other ranges: the entries of the objects outside the new range are still those of the earlier file. -/
theorem C62_stale {k k1 k2 : CMaker} {f1 f2 : Fits} {lo hi lo' hi' : Nat} (h1 : k.write lo hi = .ok (k1, f1)) (h2 : k1.write lo' hi' = .ok (k2, f2)) {i : Nat}
    (hi1 : lo ≤ i) (hi2 : i < hi) (hout : ¬ (lo' ≤ i ∧ i < hi')) (hc : ∃ obs, Coadded k.coadder i obs) :
    ∃ c, k1.rows[i]? = some c ∧ k2.rows[i]? = some c ∧ c.row.ncutout = 1 ∧
      ∃ rows, f2.hdus.getLast? = some ("object_data", .objects ⟨outDtype, rows⟩) ∧ rows[i]? = some c.row := by
  unfold CMaker.write at h1 h2
  obtain ⟨st, hst, h1⟩ := Res.bind_eq_ok.mp h1
  obtain ⟨st2, hst2, h2⟩ := Res.bind_eq_ok.mp h2
  injection h1 with h1
  injection h1 with h1 _
  injection h2 with h2
  injection h2 with h2 h2f
  obtain ⟨l1, o1, r1⟩ := writeCutouts_rows hst
  obtain ⟨l2, o2, r2⟩ := writeCutouts_rows hst2
  subst h1 h2
  obtain ⟨obs, fl, hobs⟩ := hc
  have key : ∃ c, st.rows[i]? = some c ∧ c.row.ncutout = 1 := by
    have hrange : List.range' lo (hi - lo) = List.range' lo (i - lo) ++ i :: List.range' (i + 1) (hi - i - 1) := by
      rw [show hi - lo = (i - lo) + ((hi - i - 1) + 1) by omega, ← List.range'_append_1, List.range'_succ, show lo + (i - lo) = i by omega]
    unfold CMaker.writeCutouts at hst
    rw [hrange, foldRes_append] at hst
    obtain ⟨sa, _, hst⟩ := Res.bind_eq_ok.mp hst
    obtain ⟨sb, hb, hst⟩ := foldRes_cons_ok.mp hst
    obtain ⟨_, _, c, c', _, e, hf⟩ := writeObject_rows hb
    refine ⟨c', ?_, ?_⟩
    · refine foldRes_inv (P := fun s => s.rows[i]? = some c') e ?_ hst
      intro t t' x hx hP ht
      rw [List.mem_range'_1] at hx
      rw [(writeObject_rows ht).2.1 i (by omega)]
      exact hP
    · rcases hf with ⟨fl', e', _⟩ | ⟨obs', fl', s, p, e', rfl⟩
      · rw [hobs] at e'; cases e'
      · rfl
  obtain ⟨c, hc1, hc2⟩ := key
  have e2 : st2.rows[i]? = some c := by rw [o2 i hout]; exact hc1
  refine ⟨c, hc1, e2, hc2, st2.rows.map (·.row), ?_, ?_⟩
  · rw [← h2f]; simp
  · rw [List.getElem?_map, e2]; rfl

/-- First the file of object 0, then from the same maker the file of object 2: does the test hold for the maker and the second file? -/
def rangeTest (test : CMaker → MEDS → Bool) : Bool :=
  match Ex.coaddMaker with
  | .error _ => false
  | .ok k =>
    match k.write 0 1 with
    | .error _ => false
    | .ok (k1, _) =>
      match k1.write 2 3 with
      | .error _ => false
      | .ok (k2, f) =>
        match MEDS.openFile f with
        | .error _ => false
        | .ok m => test k2 m

/-- **C62** is false: in the second file object 0, which is not in its range, has one cutout, and what reads back for it are the pixels of object 2. -/
theorem C62_counterexample :
    rangeTest (fun k m => k.rows.map (·.row.ncutout) == [1, 0, 1] &&
      decide (m.getCutout 0 0 "image" = m.getCutout 2 0 "image") && (m.getCutout 0 0 "image").toBool) = true ∧
    (match Ex.coaddMaker with
      | .error _ => false
      | .ok k =>
        match k.write 2 3 with
        | .error _ => false
        | .ok (k2, _) => k2.rows.map (·.row.ncutout) == [0, 0, 1]) = true := by decide +kernel

end Meds.Coadd
