import Verif.Lemmas.Memory
import Verif.Lemmas.Remake
import Verif.Props.Reject
import Verif.Props.Memory

/-!
# C118: outlier rejection works on the caller's arrays
-/

namespace Meds.Memory

open Spec

section Separate
variable {K : Type} [Field K] [LinearOrder K]

/-- What the arrays of the lists hold, and how many pixels were rejected, as `Reject.rejectOutliers` describes it; any array of the caller that has no memory in common
with a weight is as before. -/
structure Same (ims wts : List View) (μ : Mem K) (st : Mem K × Nat) (p : Reject.Rejected K) : Prop where
  held : ∀ u, Held μ u → Held st.1 u
  images : ims.map (·.read st.1) = p.ims
  weights : wts.map (·.read st.1) = p.wts
  count : st.2 = p.nreject
  others : ∀ u, (∀ w ∈ wts, Apart w u) → u.read st.1 = u.read μ

theorem pyGet_nat_none {β : Type} {l : List β} {k : Nat} (h : l[k]? = none) : pyGet l (k : Int) = .error .indexError := by
  have hk := List.getElem?_eq_none_iff.mp h
  unfold pyGet pyIndex
  rw [if_pos (Int.natCast_nonneg k), if_neg (by omega)]

theorem step_same (sqrt : K → K) (nsigma A : K) {ims wts : List View} {μ : Mem K} (hw : ∀ v ∈ wts, Held μ v) (hi : ∀ v ∈ ims, Held μ v)
    (hp : wts.Pairwise Apart) (ha : ∀ v ∈ ims, ∀ w ∈ wts, Apart w v) {med : Img K} (hm : ∀ v ∈ ims, med.flat.length = v.nr * v.nc)
    {st : Mem K × Nat} {p : Reject.Rejected K} (h : Same ims wts μ st p) (i : Nat) :
    ResRel (Same ims wts μ) (rejectStep sqrt nsigma A med ims wts st i) (Reject.step sqrt nsigma A med p i) := by
  unfold rejectStep Reject.step
  rw [← h.images, ← h.weights]
  cases hgi : ims[i]? with
  | none =>
    have e1 : pyGet ims (i : Int) = .error .indexError := pyGet_nat_none hgi
    have e2 : pyGet (ims.map (·.read st.1)) (i : Int) = .error .indexError := pyGet_nat_none (by rw [List.getElem?_map, hgi]; rfl)
    rw [e1, e2]
    exact rfl
  | some im =>
    have e1 : pyGet ims (i : Int) = .ok im := pyGet_nat_some hgi
    have e2 : pyGet (ims.map (·.read st.1)) (i : Int) = .ok (im.read st.1) := pyGet_nat_some (by rw [List.getElem?_map, hgi]; rfl)
    rw [e1, e2]
    cases hgw : wts[i]? with
    | none =>
      have e1 : pyGet wts (i : Int) = .error .indexError := pyGet_nat_none hgw
      have e2 : pyGet (wts.map (·.read st.1)) (i : Int) = .error .indexError := pyGet_nat_none (by rw [List.getElem?_map, hgw]; rfl)
      rw [e1, e2]
      exact rfl
    | some wt =>
      have e1 : pyGet wts (i : Int) = .ok wt := pyGet_nat_some hgw
      have e2 : pyGet (wts.map (·.read st.1)) (i : Int) = .ok (wt.read st.1) := pyGet_nat_some (by rw [List.getElem?_map, hgw]; rfl)
      rw [e1, e2]
      simp only [Res.ok_bind]
      have hwm := List.mem_of_getElem? hgw
      have him := List.mem_of_getElem? hgi
      have hwh := h.held wt (hw wt hwm)
      have hclip : (((wt.read st.1).map (max · 0)).flat).length = wt.nr * wt.nc := by
        show ((wt.read st.1).flat.map _).length = _
        rw [List.length_map, read_length hwh]
      by_cases hs : wt.nr = im.nr ∧ wt.nc = im.nc
      · rw [if_neg (not_not.mpr hs), if_neg (not_not.mpr (by exact hs))]
        have r1 := read_write_self hwh hclip
        have r2 : im.read (wt.write st.1 ((wt.read st.1).map (max · 0)).flat) = im.read st.1 := read_write_apart hwh hclip (ha im him wt hwm)
        have r1' : wt.read (wt.write st.1 ((wt.read st.1).map (max · 0)).flat) = (wt.read st.1).map (max · 0) := r1
        rw [r1', r2]
        generalize hN : Img.zipWith (fun bad v => if bad = true then 0 else v) (Reject.outlier sqrt nsigma A med (im.read st.1) ((wt.read st.1).map (max · 0)))
          ((wt.read st.1).map (max · 0)) = N
        have hNr : N.nr = wt.nr ∧ N.nc = wt.nc := by rw [← hN]; exact ⟨hs.1.symm, hs.2.symm⟩
        have hNl : N.flat.length = wt.nr * wt.nc := by
          have l1 := read_length hwh
          have l2 := read_length (h.held im (hi im him))
          have l3 := hm im him
          rw [← hN]
          simp [Reject.outlier, Img.zipWith, Img.map, l1, l2, l3, hs.1, hs.2]
        have hwh1 := hwh.write hwh hclip
        have s1 : wt.read (wt.write (wt.write st.1 ((wt.read st.1).map (max · 0)).flat) N.flat) = N := by
          rw [read_write_self hwh1 hNl, ← hNr.1, ← hNr.2]
        have s2 : ∀ u, Apart wt u → u.read (wt.write (wt.write st.1 ((wt.read st.1).map (max · 0)).flat) N.flat) = u.read st.1 := by
          intro u hu
          rw [read_write_apart hwh1 hNl hu, read_write_apart hwh hclip hu]
        refine ⟨?_, ?_, ?_, ?_, ?_⟩
        · intro u hu
          exact hwh1.write (hwh.write (h.held u hu) hclip) hNl
        · apply List.map_congr_left
          intro v hv
          exact s2 v (ha v hv wt hwm)
        · apply List.ext_getElem?
          intro k
          rw [List.getElem?_map, List.getElem?_set, List.getElem?_map, List.length_map]
          by_cases hk : i = k
          · subst hk
            rw [hgw, if_pos rfl, if_pos (List.getElem?_eq_some_iff.mp hgw).1]
            simp only [Option.map_some, s1]
          · rw [if_neg hk]
            cases hgk : wts[k]? with
            | none => rfl
            | some w' =>
              simp only [Option.map_some, Option.some.injEq]
              apply s2
              obtain ⟨hi', hi''⟩ := List.getElem?_eq_some_iff.mp hgw
              obtain ⟨hk', hk''⟩ := List.getElem?_eq_some_iff.mp hgk
              rw [← hi'', ← hk'']
              rcases Nat.lt_or_gt_of_ne hk with hlt | hlt
              · exact List.pairwise_iff_getElem.mp hp i k hi' hk' hlt
              · exact (List.pairwise_iff_getElem.mp hp k i hk' hi' hlt).symm
        · show st.2 + _ = p.nreject + _
          rw [h.count]
        · intro u hu
          rw [s2 u (hu wt hwm), h.others u hu]
      · rw [if_pos hs, if_pos (by exact hs)]
        exact rfl

/-- **C118** `reject_outliers` on arrays of the caller, none of the weights sharing memory with another array of the two lists: it raises the exceptions of, or leaves in the
arrays what, the function on values says (which `C33_criterion` describes), and no array of the caller that shares no memory with a weight changes. -/
theorem C118_separate (sqrt : K → K) (nsigma A : K) {ims wts : List View} {μ : Mem K} (hi : ∀ v ∈ ims, Held μ v) (hw : ∀ v ∈ wts, Held μ v)
    (hp : wts.Pairwise Apart) (ha : ∀ v ∈ ims, ∀ w ∈ wts, Apart w v) :
    match rejectOutliers sqrt nsigma A ims wts μ, Reject.rejectOutliers sqrt nsigma A (ims.map (·.read μ)) (wts.map (·.read μ)) with
    | .error e, .error e' => e = e'
    | .ok r, .ok p => ims.map (·.read r.1) = p.ims ∧ wts.map (·.read r.1) = p.wts ∧ r.2 = p.nreject ∧ ∀ u, (∀ w ∈ wts, Apart w u) → u.read r.1 = u.read μ
    | _, _ => False := by
  have pure_cons : ∀ (x : Img K) xs ws, ¬ (x :: xs).length < 3 → Reject.rejectOutliers sqrt nsigma A (x :: xs) ws =
      if (x :: xs).any (fun im => decide (¬ (im.nr = x.nr ∧ im.nc = x.nc))) then .error .valueError
      else foldRes (Reject.step sqrt nsigma A (Reject.medianImage (x.nr, x.nc) (x :: xs))) ⟨x :: xs, ws, 0⟩ (List.range (x :: xs).length) := by
    intro x xs ws h
    unfold Reject.rejectOutliers
    rw [if_neg h]
  have key : ResRel (Same ims wts μ) (rejectOutliers sqrt nsigma A ims wts μ) (Reject.rejectOutliers sqrt nsigma A (ims.map (·.read μ)) (wts.map (·.read μ))) := by
    have h0 : Same ims wts μ (μ, 0) ⟨ims.map (·.read μ), wts.map (·.read μ), 0⟩ := ⟨fun _ h => h, rfl, rfl, rfl, fun _ _ => rfl⟩
    by_cases hl : ims.length < 3
    · unfold rejectOutliers Reject.rejectOutliers
      rw [if_pos hl, if_pos (by rw [List.length_map]; exact hl)]
      exact h0
    · cases ims with
      | nil => exact absurd (by decide) hl
      | cons im0 t =>
        have ec : ((im0 :: t).map (·.read μ)).any (fun im => decide (¬ (im.nr = (im0.read μ).nr ∧ im.nc = (im0.read μ).nc))) =
            (im0 :: t).any (fun im => decide (¬ (im.nr = im0.nr ∧ im.nc = im0.nc))) := by
          rw [List.any_map]
          rfl
        rw [List.map_cons, pure_cons _ _ _ (by rw [← List.map_cons (f := fun v : View => v.read μ), List.length_map]; exact hl), ← List.map_cons (f := fun v : View => v.read μ),
          ec, List.length_map]
        unfold rejectOutliers
        rw [if_neg hl]
        dsimp only
        split
        · exact rfl
        · rename_i hne
          apply foldRes_rel h0
          intro st p i _ h
          refine step_same sqrt nsigma A hw hi hp ha ?_ h i
          intro v hv
          have hv' : v.nr = im0.nr ∧ v.nc = im0.nc := by
            by_contra hc
            exact hne (List.any_eq_true.mpr ⟨v, hv, decide_eq_true hc⟩)
          rw [hv'.1, hv'.2]
          exact Img.ofFn_flat_length _ _ _
  revert key
  cases rejectOutliers sqrt nsigma A ims wts μ <;> cases Reject.rejectOutliers sqrt nsigma A (ims.map (·.read μ)) (wts.map (·.read μ))
  · exact id
  · exact id
  · exact id
  · intro h
    exact ⟨h.images, h.weights, h.count, h.others⟩

end Separate

/-- **C118** The images and weights of an object as a reader hands them out: rejection does to them, and to nothing else, what the function on values says. -/
theorem C118_reader {m : MEDS} {μ μ1 μ2 : Mem ℚ} {iobj : Int} {ims wts : List View} (h1 : getCutoutList m μ iobj "image" = .ok (μ1, ims))
    (h2 : getCutoutList m μ1 iobj "weight" = .ok (μ2, wts)) (sqrt : ℚ → ℚ) (nsigma A : ℚ) :
    ∃ x y, m.getCutoutList iobj "image" = .ok x ∧ m.getCutoutList iobj "weight" = .ok y ∧
      match rejectOutliers sqrt nsigma A ims wts μ2, Reject.rejectOutliers sqrt nsigma A x y with
      | .error e, .error e' => e = e'
      | .ok r, .ok p => ims.map (·.read r.1) = p.ims ∧ wts.map (·.read r.1) = p.wts ∧ r.2 = p.nreject ∧ ∀ u, Held μ u → u.read r.1 = u.read μ
      | _, _ => False := by
  have c1 := C117_list m μ iobj "image"
  have c2 := C117_list m μ1 iobj "weight"
  rw [h1] at c1
  rw [h2] at c2
  cases hx : m.getCutoutList iobj "image" with
  | error e => rw [hx] at c1; exact c1.elim
  | ok x =>
    cases hy : m.getCutoutList iobj "weight" with
    | error e => rw [hy] at c2; exact c2.elim
    | ok y =>
      rw [hx] at c1
      rw [hy] at c2
      obtain ⟨n1, e1⟩ := c1
      obtain ⟨n2, e2⟩ := c2
      refine ⟨x, y, rfl, rfl, ?_⟩
      have hi : ∀ v ∈ ims, Held μ2 v := fun v hv => (n2.old v (n1.held v hv)).1
      have e1' : ims.map (·.read μ2) = x := by
        rw [← e1]
        exact List.map_congr_left (fun v hv => (n2.old v (n1.held v hv)).2.1)
      have key := C118_separate sqrt nsigma A hi n2.held n2.apart (fun v hv w hw => ((n2.old v (n1.held v hv)).2.2 w hw).symm)
      rw [e1', show wts.map (·.read μ2) = y from e2] at key
      revert key
      cases rejectOutliers sqrt nsigma A ims wts μ2 <;> cases Reject.rejectOutliers sqrt nsigma A x y
      · exact id
      · exact id
      · exact id
      · rintro ⟨k1, k2, k3, k4⟩
        refine ⟨k1, k2, k3, fun u hu => ?_⟩
        have o1 := n1.old u hu
        have o2 := n2.old u o1.1
        rw [k4 u (fun w hw => (o2.2.2 w hw).symm), o2.2.1, o1.2.1]

/-! ### One weight array for all images -/

section Shared
open Reject

/-- The weight array after images one after the other, and how many pixels were rejected. -/
noncomputable def through (nsigma A : ℝ) (med : Img ℝ) : List (Img ℝ) → Img ℝ → Img ℝ × Nat
  | [], w => (w, 0)
  | im :: t, w => ((through nsigma A med t (newWt nsigma A med (im, w))).1, newCount nsigma A med (im, w) + (through nsigma A med t (newWt nsigma A med (im, w))).2)

theorem newWt_length {nsigma A : ℝ} {med im w : Img ℝ} {n : Nat} (h1 : med.flat.length = n) (h2 : im.flat.length = n) (h3 : w.flat.length = n) :
    (newWt nsigma A med (im, w)).flat.length = n := by
  simp [newWt, Reject.outlier, Img.zipWith, Img.map, h1, h2, h3]

/-- The loop of the memory version over the images from the `k`-th on. -/
theorem shared_loop {nsigma A : ℝ} {med : Img ℝ} {ims : List View} {w : View} {μ : Mem ℝ} (hi : ∀ v ∈ ims, Held μ v ∧ v.nr = w.nr ∧ v.nc = w.nc ∧ Apart w v)
    (hm : med.flat.length = w.nr * w.nc) : ∀ (t : List View) (k : Nat) (st : Mem ℝ × Nat), ims.drop k = t → (∀ u, Held μ u → Held st.1 u) → Held st.1 w →
      (∀ u, Apart w u → u.read st.1 = u.read μ) →
      ∃ r, foldRes (rejectStep Real.sqrt nsigma A med ims (List.replicate ims.length w)) st (List.range' k t.length) = .ok r ∧
        (∀ u, Apart w u → u.read r.1 = u.read μ) ∧
        w.read r.1 = (through nsigma A med (t.map (·.read μ)) (w.read st.1)).1 ∧ r.2 = st.2 + (through nsigma A med (t.map (·.read μ)) (w.read st.1)).2 := by
  intro t
  induction t with
  | nil => intro k st _ _ _ h; exact ⟨st, rfl, h, rfl, rfl⟩
  | cons v t ih =>
    intro k st hd hh hw ho
    have hk : ims[k]? = some v := by
      have := congrArg (·[0]?) hd
      simpa using this
    have hkl := (List.getElem?_eq_some_iff.mp hk).1
    have hvm := List.mem_of_getElem? hk
    obtain ⟨v1, v2, v3, v4⟩ := hi v hvm
    have hd' : ims.drop (k + 1) = t := by
      have := congrArg List.tail hd
      simpa using this
    have e1 : pyGet ims (k : Int) = .ok v := pyGet_nat_some hk
    have e2 : pyGet (List.replicate ims.length w) (k : Int) = .ok w := pyGet_nat_some (by rw [List.getElem?_replicate, if_pos hkl])
    have hclip : (((w.read st.1).map (max · 0)).flat).length = w.nr * w.nc := by
      show ((w.read st.1).flat.map _).length = _
      rw [List.length_map, read_length hw]
    have r1 : w.read (w.write st.1 ((w.read st.1).map (max · 0)).flat) = (w.read st.1).map (max · 0) := read_write_self hw hclip
    have r2 : v.read (w.write st.1 ((w.read st.1).map (max · 0)).flat) = v.read μ := by rw [read_write_apart hw hclip v4, ho v v4]
    have hstep : rejectStep Real.sqrt nsigma A med ims (List.replicate ims.length w) st k =
        .ok (w.write (w.write st.1 ((w.read st.1).map (max · 0)).flat) (newWt nsigma A med (v.read μ, w.read st.1)).flat, st.2 + newCount nsigma A med (v.read μ, w.read st.1)) := by
      unfold rejectStep
      rw [e1, e2]
      simp only [Res.ok_bind]
      rw [if_neg (not_not.mpr ⟨v2.symm, v3.symm⟩), r1, r2]
      rfl
    have hNl := newWt_length (nsigma := nsigma) (A := A) hm (by rw [read_length v1, v2, v3]) (read_length hw)
    have hw1 := hw.write hw hclip
    have s1 : w.read (w.write (w.write st.1 ((w.read st.1).map (max · 0)).flat) (newWt nsigma A med (v.read μ, w.read st.1)).flat) =
        newWt nsigma A med (v.read μ, w.read st.1) := by
      rw [read_write_self hw1 hNl]
      show _ = (⟨v.nr, v.nc, _⟩ : Img ℝ)
      rw [v2, v3]
      rfl
    rw [List.length_cons, List.range'_succ, foldRes, hstep]
    obtain ⟨r, g1, g2, g3, g4⟩ := ih (k + 1) (w.write (w.write st.1 ((w.read st.1).map (max · 0)).flat) (newWt nsigma A med (v.read μ, w.read st.1)).flat,
      st.2 + newCount nsigma A med (v.read μ, w.read st.1)) hd' (fun u hu => hw1.write (hw.write (hh u hu) hclip) hNl) (hw1.write hw1 hNl)
      (fun u hu => by
        show u.read (w.write (w.write st.1 _) _) = _
        rw [read_write_apart hw1 hNl hu, read_write_apart hw hclip hu, ho u hu])
    refine ⟨r, g1, g2, ?_, ?_⟩
    · rw [g3]
      show (through _ _ _ _ (w.read (w.write _ _))).1 = _
      rw [s1]
      rfl
    · rw [g4]
      show st.2 + _ + (through _ _ _ _ (w.read (w.write _ _))).2 = _
      rw [s1, Nat.add_assoc]
      rfl

open Classical in
/-- One pixel of one image. -/
theorem newWt_pixel {nsigma A : ℝ} (hn : 0 ≤ nsigma) (hA : 0 ≤ A) {med im wt : Img ℝ} (h1 : med.nr = im.nr) (h2 : med.nc = im.nc) (h3 : wt.nr = im.nr) (h4 : wt.nc = im.nc)
    {a b : Nat} {m x w : ℝ} (hm : med.get? a b = some m) (hx : im.get? a b = some x) (hw : wt.get? a b = some w) :
    (newWt nsigma A med (im, wt)).get? a b = some (if Outlier nsigma A m x w then 0 else max w 0) := by
  have hw' : (wt.map (max · 0)).get? a b = some (max w 0) := by rw [Img.map_get?, hw]; rfl
  have ho := outlier_get (nsigma := nsigma) (A := A) h1 h2 (wt := wt.map (max · 0)) h3 h4 hm hx hw'
  unfold newWt
  rw [Img.zipWith_get? (by exact h3.symm) (by exact h4.symm) _ a b ho hw']
  congr 1
  by_cases h : Outlier nsigma A m x w
  · rw [if_pos h, decide_eq_true ((test_iff hn hA).mpr h)]; rfl
  · rw [if_neg h, decide_eq_false (fun h' => h ((test_iff hn hA).mp h'))]; rfl

theorem outlier_zero {nsigma A m x : ℝ} : ¬ Outlier nsigma A m x 0 := fun h => lt_irrefl _ h.1

theorem outlier_clip {nsigma A m x w : ℝ} : Outlier nsigma A m x (max w 0) ↔ Outlier nsigma A m x w := by
  by_cases h : 0 < w
  · rw [max_eq_left h.le]
  · rw [max_eq_right (not_lt.mp h)]
    exact ⟨fun h' => absurd h' outlier_zero, fun h' => absurd h'.1 h⟩

open Classical in
/-- One pixel through all images. -/
theorem through_pixel {nsigma A : ℝ} (hn : 0 ≤ nsigma) (hA : 0 ≤ A) {med : Img ℝ} {a b : Nat} {m : ℝ} (hm : med.get? a b = some m) :
    ∀ (ims : List (Img ℝ)) (wt : Img ℝ) (w : ℝ), ims ≠ [] → (∀ im ∈ ims, im.WF ∧ im.nr = med.nr ∧ im.nc = med.nc) → wt.nr = med.nr → wt.nc = med.nc → wt.get? a b = some w →
      (through nsigma A med ims wt).1.get? a b = some (if ∃ im ∈ ims, ∃ x, im.get? a b = some x ∧ Outlier nsigma A m x w then 0 else max w 0) := by
  intro ims
  induction ims with
  | nil => intro _ _ h; exact absurd rfl h
  | cons im t ih =>
    intro wt w _ hs h3 h4 hw
    obtain ⟨i1, i2, i3⟩ := hs im List.mem_cons_self
    have hlt := Img.get?_lt hm
    obtain ⟨x, hx⟩ := Img.get?_some_of_WF i1 (i := a) (j := b) (by omega) (by omega)
    have hp := newWt_pixel hn hA i2.symm i3.symm (h3.trans i2.symm) (h4.trans i3.symm) hm hx hw
    have hf : (∃ im' ∈ im :: t, ∃ y, im'.get? a b = some y ∧ Outlier nsigma A m y w) ↔
        Outlier nsigma A m x w ∨ ∃ im' ∈ t, ∃ y, im'.get? a b = some y ∧ Outlier nsigma A m y w := by
      constructor
      · rintro ⟨im', hm', y, hy, ho⟩
        rcases List.mem_cons.mp hm' with rfl | hm'
        · rw [hx] at hy
          injection hy with hy
          subst hy
          exact Or.inl ho
        · exact Or.inr ⟨im', hm', y, hy, ho⟩
      · rintro (ho | ⟨im', hm', y, hy, ho⟩)
        · exact ⟨im, List.mem_cons_self, x, hx, ho⟩
        · exact ⟨im', List.mem_cons_of_mem _ hm', y, hy, ho⟩
    show (through nsigma A med t (newWt nsigma A med (im, wt))).1.get? a b = _
    by_cases ht : t = []
    · subst ht
      show (newWt nsigma A med (im, wt)).get? a b = _
      rw [hp]
      simp only [hf, List.not_mem_nil, false_and, exists_false, or_false]
    · have h := ih (newWt nsigma A med (im, wt)) _ ht (fun im' h' => hs im' (List.mem_cons_of_mem _ h')) i2 i3 hp
      rw [h]
      congr 1
      by_cases ho : Outlier nsigma A m x w
      · rw [if_pos ho]
        rw [if_neg (by rintro ⟨_, _, _, _, h'⟩; exact outlier_zero h'), if_pos (hf.mpr (Or.inl ho)), max_self]
      · rw [if_neg ho]
        simp only [outlier_clip, hf, ho, false_or, max_eq_left (le_max_right w 0)]

open Classical in
/-- Pixel lists: a weight that is never negative, once zero, stays zero; so the pixels zeroed on the way are those zeroed in the end. -/
theorem zeroed_add {w0 w1 w2 : List ℝ} (h1 : w1.length = w0.length) (h2 : w2.length = w0.length)
    (hk : ∀ (k : Nat) x y z, w0[k]? = some x → w1[k]? = some y → w2[k]? = some z → (0 < x → y = 0 ∨ y = x) ∧ (y = 0 → z = 0) ∧ (x ≤ 0 → y ≤ 0)) :
    (w0.zip w1).countP (fun p => decide (0 < p.1 ∧ p.2 = 0)) + (w1.zip w2).countP (fun p => decide (0 < p.1 ∧ p.2 = 0)) =
      (w0.zip w2).countP (fun p => decide (0 < p.1 ∧ p.2 = 0)) := by
  induction w0 generalizing w1 w2 with
  | nil =>
    cases w1 with
    | nil => simp
    | cons _ _ => simp at h1
  | cons x w0 ih =>
    cases w1 with
    | nil => simp at h1
    | cons y w1 =>
      cases w2 with
      | nil => simp at h2
      | cons z w2 =>
        have := ih (w1 := w1) (w2 := w2) (by simpa using h1) (by simpa using h2) (fun k a b c ha hb hc => hk (k + 1) a b c ha hb hc)
        obtain ⟨q1, q2, q3⟩ := hk 0 x y z rfl rfl rfl
        simp only [List.zip_cons_cons, List.countP_cons, decide_eq_true_eq]
        rw [← this]
        have : ((if 0 < x ∧ y = 0 then 1 else 0) + (if 0 < y ∧ z = 0 then 1 else 0) : Nat) = if 0 < x ∧ z = 0 then 1 else 0 := by
          by_cases hx : 0 < x
          · rcases q1 hx with hy | hy
            · have hz := q2 hy
              simp [hx, hy, hz]
            · subst hy
              have : y ≠ 0 := ne_of_gt hx
              simp [hx, this]
          · have hy := q3 (not_lt.mp hx)
            simp [hx, not_lt.mpr hy]
        omega

theorem newWt_flat {nsigma A : ℝ} {med im wt : Img ℝ} {k : Nat} {x y : ℝ} (hx : wt.flat[k]? = some x) (hy : (newWt nsigma A med (im, wt)).flat[k]? = some y) :
    y = 0 ∨ y = max x 0 := by
  simp only [newWt, Img.zipWith, List.getElem?_zipWith, Img.map, List.getElem?_map, hx, Option.map_some] at hy
  split at hy
  · rename_i b v hb hv
    injection hv with hv
    injection hy with hy
    subst hv
    subst hy
    cases b
    · exact Or.inr (by simp)
    · exact Or.inl (by simp)
  · cases hy

theorem through_length {nsigma A : ℝ} {med : Img ℝ} {n : Nat} (hm : med.flat.length = n) : ∀ (ims : List (Img ℝ)) (wt : Img ℝ),
    (∀ im ∈ ims, im.flat.length = n) → wt.flat.length = n → (through nsigma A med ims wt).1.flat.length = n
  | [], _, _, h => h
  | im :: t, wt, hi, h => through_length hm t _ (fun x hx => hi x (List.mem_cons_of_mem _ hx)) (newWt_length hm (hi im List.mem_cons_self) h)

theorem through_zero {nsigma A : ℝ} {med : Img ℝ} {n : Nat} (hm : med.flat.length = n) {k : Nat} : ∀ (ims : List (Img ℝ)) (wt : Img ℝ), (∀ im ∈ ims, im.flat.length = n) →
    wt.flat.length = n → wt.flat[k]? = some 0 → (through nsigma A med ims wt).1.flat[k]? = some 0
  | [], _, _, _, h => h
  | im :: t, wt, hi, hl, h => by
    have hl' := newWt_length (nsigma := nsigma) (A := A) hm (hi im List.mem_cons_self) hl
    have hk : k < n := hl ▸ (List.getElem?_eq_some_iff.mp h).1
    refine through_zero hm t _ (fun x hx => hi x (List.mem_cons_of_mem _ hx)) hl' ?_
    have hy : (newWt nsigma A med (im, wt)).flat[k]? = some ((newWt nsigma A med (im, wt)).flat[k]) := List.getElem?_eq_getElem (by omega)
    rw [hy]
    congr 1
    rcases newWt_flat h hy with h' | h'
    · exact h'
    · rw [h', max_self]

/-- What is counted on the way is the number of positive weights that are zero in the end. -/
theorem through_count {nsigma A : ℝ} {med : Img ℝ} {n : Nat} (hm : med.flat.length = n) : ∀ (ims : List (Img ℝ)) (wt : Img ℝ), (∀ im ∈ ims, im.flat.length = n) →
    wt.flat.length = n → (through nsigma A med ims wt).2 = zeroed wt (through nsigma A med ims wt).1
  | [], wt, _, _ => by
    show 0 = zeroed wt wt
    unfold zeroed
    symm
    rw [List.countP_eq_zero]
    rintro ⟨a, b⟩ hab
    have : a = b := by
      obtain ⟨k, hk, he⟩ := List.mem_iff_getElem.mp hab
      rw [List.getElem_zip] at he
      injection he with h1 h2
      rw [← h1, ← h2]
    subst this
    rw [decide_eq_true_eq]
    rintro ⟨h1, h2⟩
    exact absurd h2 (ne_of_gt h1)
  | im :: t, wt, hi, hl => by
    have hl' := newWt_length (nsigma := nsigma) (A := A) hm (hi im List.mem_cons_self) hl
    have hit : ∀ x ∈ t, x.flat.length = n := fun x hx => hi x (List.mem_cons_of_mem _ hx)
    show newCount nsigma A med (im, wt) + (through nsigma A med t (newWt nsigma A med (im, wt))).2 = _
    rw [through_count hm t _ hit hl', newCount_zeroed (by rw [hm]; exact hl.symm) (by rw [hi im List.mem_cons_self]; exact hl.symm)]
    have := through_length (nsigma := nsigma) (A := A) hm t _ hit hl'
    refine zeroed_add (by rw [hl', hl]) (by rw [hl]; exact this) ?_
    intro k x y z hx hy hz
    have hxy := newWt_flat hx hy
    refine ⟨?_, ?_, ?_⟩
    · intro h
      rw [max_eq_left h.le] at hxy
      exact hxy
    · intro h
      subst h
      have := through_zero (nsigma := nsigma) (A := A) hm t _ hit hl' hy
      rw [this] at hz
      injection hz with hz
      exact hz.symm
    · intro h
      rw [max_eq_right h] at hxy
      rcases hxy with h | h <;> exact h.le

open Classical in
/-- **C118** One weight array for all images (`wtlist` holding one array many times): afterwards a pixel of it is zero when the pixel of any of the images is an outlier, and
clipped at zero otherwise, so an outlier in one image takes the weight from all; the return value counts each such pixel once; no other array changes. -/
theorem C118_shared {nsigma A : ℝ} (hn : 0 ≤ nsigma) (hA : 0 ≤ A) {ims : List View} {w : View} {μ : Mem ℝ} (hw : Held μ w)
    (hi : ∀ v ∈ ims, Held μ v ∧ v.nr = w.nr ∧ v.nc = w.nc ∧ Apart w v) (h3 : 3 ≤ ims.length) :
    ∃ r, rejectOutliers Real.sqrt nsigma A ims (List.replicate ims.length w) μ = .ok r ∧ (∀ u, Apart w u → u.read r.1 = u.read μ) ∧
      (∀ a b x, (w.read μ).get? a b = some x → ∃ m, IsMedian (ims.filterMap (fun v => (v.read μ).get? a b)) m ∧
        (w.read r.1).get? a b = some (if ∃ v ∈ ims, ∃ y, (v.read μ).get? a b = some y ∧ Outlier nsigma A m y x then 0 else max x 0)) ∧
      r.2 = zeroed (w.read μ) (w.read r.1) := by
  cases ims with
  | nil => simp at h3
  | cons im0 t =>
    obtain ⟨_, i2, i3, _⟩ := hi im0 List.mem_cons_self
    set med : Img ℝ := medianImage (im0.nr, im0.nc) ((im0 :: t).map (·.read μ)) with hmed
    have hm : med.flat.length = w.nr * w.nc := by rw [hmed, ← i2, ← i3]; exact Img.ofFn_flat_length _ _ _
    obtain ⟨r, g1, g2, g3, g4⟩ := shared_loop (nsigma := nsigma) (A := A) hi hm (im0 :: t) 0 (μ, 0) rfl (fun _ h => h) hw (fun _ _ => rfl)
    have hlen : ∀ im ∈ (im0 :: t).map (·.read μ), im.flat.length = w.nr * w.nc := by
      intro im him
      obtain ⟨v, hv, rfl⟩ := List.mem_map.mp him
      obtain ⟨v1, v2, v3, _⟩ := hi v hv
      rw [read_length v1, v2, v3]
    refine ⟨r, ?_, g2, ?_, ?_⟩
    · rw [← List.range_eq_range'] at g1
      rw [← g1]
      unfold rejectOutliers
      rw [if_neg (by omega)]
      dsimp only
      rw [if_neg]
      rw [List.any_eq_true]
      rintro ⟨v, hv, hd⟩
      obtain ⟨_, v2, v3, _⟩ := hi v hv
      exact (of_decide_eq_true hd) ⟨v2.trans i2.symm, v3.trans i3.symm⟩
    · intro a b x hx
      have hlt := Img.get?_lt hx
      have ha : a < im0.nr := by rw [i2]; exact hlt.1
      have hb : b < im0.nc := by rw [i3]; exact hlt.2
      have e : ((im0 :: t).map (·.read μ)).filterMap (·.get? a b) = (im0 :: t).filterMap (fun v => (v.read μ).get? a b) := by rw [List.filterMap_map]; rfl
      have hmm : med.get? a b = some (median ((im0 :: t).filterMap (fun v => (v.read μ).get? a b))) := by
        rw [hmed]
        unfold medianImage
        rw [Img.ofFn_get? _ ha hb, e]
      refine ⟨_, isMedian_median ?_, ?_⟩
      · intro h
        obtain ⟨v1, v2, v3, _⟩ := hi im0 List.mem_cons_self
        obtain ⟨y, hy⟩ := Img.get?_some_of_WF (read_WF v1) (i := a) (j := b) ha hb
        have := List.filterMap_eq_nil_iff.mp h im0 List.mem_cons_self
        rw [hy] at this
        cases this
      · have hs : ∀ im ∈ (im0 :: t).map (·.read μ), im.WF ∧ im.nr = med.nr ∧ im.nc = med.nc := by
          intro im him
          obtain ⟨v, hv, rfl⟩ := List.mem_map.mp him
          obtain ⟨v1, v2, v3, _⟩ := hi v hv
          exact ⟨read_WF v1, v2.trans i2.symm, v3.trans i3.symm⟩
        rw [g3, through_pixel hn hA hmm _ _ x (by simp) hs i2.symm i3.symm hx]
        congr 1
        have : (∃ im ∈ (im0 :: t).map (·.read μ), ∃ y, im.get? a b = some y ∧ Outlier nsigma A (median ((im0 :: t).filterMap (fun v => (v.read μ).get? a b))) y x) ↔
            ∃ v ∈ im0 :: t, ∃ y, (v.read μ).get? a b = some y ∧ Outlier nsigma A (median ((im0 :: t).filterMap (fun v => (v.read μ).get? a b))) y x := by
          constructor
          · rintro ⟨im, him, h⟩
            obtain ⟨v, hv, rfl⟩ := List.mem_map.mp him
            exact ⟨v, hv, h⟩
          · rintro ⟨v, hv, h⟩
            exact ⟨_, List.mem_map_of_mem hv, h⟩
        simp only [this]
    · rw [g4, Nat.zero_add, g3]
      exact through_count hm _ _ hlen (read_length hw)

end Shared

/-! ### Concrete cases: the square root of 0 and 1 is the identity -/

/-- Three images of one pixel in one buffer, the third far from the others, and their weights in another. -/
def exMem : Mem ℚ := [[0, 0, 9], [1, 1, 1], [5]]
def exIms : List View := [⟨0, 0, 1, 1⟩, ⟨0, 1, 1, 1⟩, ⟨0, 2, 1, 1⟩]
def exWts : List View := [⟨1, 0, 1, 1⟩, ⟨1, 1, 1, 1⟩, ⟨1, 2, 1, 1⟩]

/-- Separate weights: the outlier loses its own. -/
example : rejectOutliers id 3 0 exIms exWts exMem = .ok ([[0, 0, 9], [1, 1, 0], [5]], 1) := by decide +kernel

/-- One weight for all: it is lost for all. -/
example : rejectOutliers (K := ℚ) id 3 0 exIms (List.replicate 3 ⟨2, 0, 1, 1⟩) [[0, 0, 9], [1, 1, 1], [1]] = .ok ([[0, 0, 9], [1, 1, 1], [0]], 1) := by decide +kernel

/-- The hypotheses of `C118_separate` hold here. -/
example : (∀ v ∈ exIms, Held exMem v) ∧ (∀ v ∈ exWts, Held exMem v) ∧ exWts.Pairwise Apart ∧ ∀ v ∈ exIms, ∀ w ∈ exWts, Apart w v := by
  refine ⟨?_, ?_, ?_, ?_⟩
  · intro v hv
    exact ⟨[0, 0, 9], by revert v; decide, by revert v; decide⟩
  · intro v hv
    exact ⟨[1, 1, 1], by revert v; decide, by revert v; decide⟩
  · unfold Apart; decide
  · unfold Apart; decide

/-- And those of `C118_shared`. -/
example : ∃ (ims : List View) (w : View) (μ : Mem ℝ), Held μ w ∧ (∀ v ∈ ims, Held μ v ∧ v.nr = w.nr ∧ v.nc = w.nc ∧ Apart w v) ∧ 3 ≤ ims.length := by
  refine ⟨exIms, ⟨2, 0, 1, 1⟩, [[0, 0, 9], [1, 1, 1], [1]], ⟨[1], rfl, by decide⟩, ?_, by decide⟩
  intro v hv
  have : v.buf = 0 ∧ v.off + v.nr * v.nc ≤ 3 ∧ v.nr = 1 ∧ v.nc = 1 := by revert v; decide
  exact ⟨⟨[0, 0, 9], by rw [this.1]; rfl, this.2.1⟩, this.2.2.1, this.2.2.2, Or.inl (by rw [this.1]; decide)⟩

end Meds.Memory
