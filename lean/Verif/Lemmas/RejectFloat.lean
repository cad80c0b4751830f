import Verif.Spec.CoaddFloat
import Verif.Lemmas.CoaddNaNSym

/-!
# Outlier rejection with floats of any kind
-/

namespace Meds.Reject
open Meds.Spec Compare

/-- Not a number: NaN or infinite. -/
def NotNum (x : Flt) : Prop := ∀ q, x ≠ .num q

theorem notNum_mul_left {x : Flt} (h : NotNum x) (y : Flt) : NotNum (x.mul y) := by
  intro q
  cases x with
  | num a => exact absurd rfl (h a)
  | nan => simp [Flt.mul]
  | inf s =>
    cases y with
    | num b => simp only [Flt.mul]; split <;> simp
    | nan => simp [Flt.mul]
    | inf t => simp [Flt.mul]

theorem notNum_mul_right (x : Flt) {y : Flt} (h : NotNum y) : NotNum (x.mul y) := by
  intro q
  cases y with
  | num a => exact absurd rfl (h a)
  | nan => cases x <;> simp [Flt.mul]
  | inf s =>
    cases x with
    | num b => simp only [Flt.mul]; split <;> simp
    | nan => simp [Flt.mul]
    | inf t => simp [Flt.mul]

theorem notNum_add {x : Flt} (h : NotNum x) (q : ℚ) : NotNum (x.add (.num q)) := by
  intro p
  cases x with
  | num a => exact absurd rfl (h a)
  | nan => simp [Flt.add]
  | inf s => simp [Flt.add]

theorem gtF_notNum (y : Flt) {s : Flt} (h : NotNum s) : y.gtF (s.mul s) = false := by
  cases s with
  | num a => exact absurd rfl (h a)
  | nan => cases y <;> rfl
  | inf b => cases y <;> cases b <;> simp [Flt.mul, Flt.gtF]

/-- The test on one pixel. -/
def testFlt (rt : ℚ → ℚ) (nsigma A : ℚ) (m x w : Flt) : Bool :=
  (((x.sub m).mul (x.sub m)).mul w).gtF
    ((((m.absF.mul (.num A)).mul (w.sqrtF rt)).add (.num nsigma)).mul (((m.absF.mul (.num A)).mul (w.sqrtF rt)).add (.num nsigma)))

theorem testFlt_iff (rt : ℚ → ℚ) (nsigma A : ℚ) (m x w : Flt) : testFlt rt nsigma A m x w.clipF = true ↔ OutlierFlt rt nsigma A m x w := by
  have hno : NotNum (((m.absF.mul (.num A)).mul (w.clipF.sqrtF rt)).add (.num nsigma)) → testFlt rt nsigma A m x w.clipF = false := fun h => gtF_notNum _ h
  by_cases hm : NotNum m
  · have h1 : NotNum m.absF := by
      intro q
      cases m with
      | num a => exact absurd rfl (hm a)
      | nan => simp [Flt.absF]
      | inf s => simp [Flt.absF]
    rw [hno (notNum_add (notNum_mul_left (notNum_mul_left h1 _) _) _)]
    constructor
    · intro h; cases h
    · rintro ⟨m', _, rfl, _⟩
      exact absurd rfl (hm m')
  obtain ⟨m', rfl⟩ : ∃ q, m = .num q := by
    by_contra h
    exact hm (fun q e => h ⟨q, e⟩)
  by_cases hw : NotNum w.clipF
  · have h1 : NotNum (w.clipF.sqrtF rt) := by
      intro q
      cases h : w.clipF with
      | num a => exact absurd h (hw a)
      | nan => simp [Flt.sqrtF]
      | inf s => cases s <;> simp [Flt.sqrtF]
    rw [hno (notNum_add (notNum_mul_right _ h1) _)]
    constructor
    · intro h; cases h
    · rintro ⟨_, w', _, rfl, _⟩
      exact absurd rfl (hw (max w' 0))
  obtain ⟨c, hc⟩ : ∃ q, w.clipF = .num q := by
    by_contra h
    exact hw (fun q e => h ⟨q, e⟩)
  have hc0 : 0 ≤ c ∧ (0 < c → w = .num c) ∧ ∀ w', w = .num w' → 0 < w' → w' = c := by
    cases w with
    | num q =>
      simp only [Flt.clipF, Flt.num.injEq] at hc
      refine ⟨by rw [← hc]; exact le_max_right _ _, ?_, ?_⟩
      · intro h
        rw [← hc] at h ⊢
        rcases le_total q 0 with hq | hq
        · rw [max_eq_right hq] at h; exact absurd h (lt_irrefl _)
        · rw [max_eq_left hq]
      · intro w' e h
        injection e with e
        rw [← hc, e, max_eq_left h.le]
    | nan => simp [Flt.clipF] at hc
    | inf s =>
      cases s
      · simp [Flt.clipF] at hc
      · simp only [Flt.clipF, if_true, Flt.num.injEq] at hc
        refine ⟨by rw [← hc], fun h => by rw [← hc] at h; exact absurd h (lt_irrefl _), fun w' e => by cases e⟩
  have hs : (Flt.num c).sqrtF rt = .num (rt c) := by simp only [Flt.sqrtF]; rw [if_neg (not_lt.mpr hc0.1)]
  unfold testFlt
  rw [hc, hs]
  simp only [Flt.absF, Flt.mul, Flt.add]
  cases x with
  | num x' =>
    simp only [Flt.sub, Flt.mul, Flt.gtF, decide_eq_true_eq]
    constructor
    · intro h
      have hpos : 0 < c := by
        rcases lt_or_eq_of_le hc0.1 with h' | h'
        · exact h'
        · rw [← h', mul_zero] at h
          exact absurd h (not_lt.mpr (mul_self_nonneg _))
      refine ⟨m', c, rfl, hc0.2.1 hpos, hpos, .inr ⟨x', rfl, ?_⟩⟩
      calc (nsigma + A * |m'| * rt c) ^ 2 = (|m'| * A * rt c + nsigma) * (|m'| * A * rt c + nsigma) := by ring
        _ < _ := h
        _ = _ := by ring
    · rintro ⟨m₂, w', e1, e2, hpos, ⟨s, e⟩ | ⟨x₂, e3, h⟩⟩
      · cases e
      injection e1 with e1
      injection e3 with e3
      subst e1 e3
      have := hc0.2.2 w' e2 hpos
      subst this
      calc (|m'| * A * rt w' + nsigma) * (|m'| * A * rt w' + nsigma) = (nsigma + A * |m'| * rt w') ^ 2 := by ring
        _ < _ := h
        _ = _ := by ring
  | nan =>
    simp only [Flt.sub, Flt.mul, Flt.gtF]
    constructor
    · intro h; cases h
    · rintro ⟨_, _, _, _, _, ⟨s, e⟩ | ⟨_, e, _⟩⟩ <;> cases e
  | inf s =>
    simp only [Flt.sub, Flt.mul, bne_self_eq_false]
    by_cases h0 : c = 0
    · rw [if_pos h0]
      simp only [Flt.gtF]
      constructor
      · intro h; cases h
      · rintro ⟨_, w', _, e2, hpos, _⟩
        have := hc0.2.2 w' e2 hpos
        rw [this, h0] at hpos
        exact absurd hpos (lt_irrefl _)
    · rw [if_neg h0]
      have hpos : 0 < c := lt_of_le_of_ne hc0.1 (Ne.symm h0)
      have : decide (c < 0) = false := decide_eq_false (not_lt.mpr hpos.le)
      simp only [this, bne_self_eq_false, Flt.gtF, Bool.not_false, true_iff]
      exact ⟨m', c, rfl, hc0.2.1 hpos, hpos, .inl ⟨s, rfl⟩⟩

theorem clippedTo_clipF (w : Flt) : ClippedTo w w.clipF := by
  cases w with
  | num q =>
    by_cases h : q ≤ 0
    · exact .inl ⟨h, by simp [Flt.clipF, h]⟩
    · exact .inr ⟨h, by simp [Flt.clipF, (not_le.mp h).le]⟩
  | nan => exact .inr ⟨fun h => h, rfl⟩
  | inf s =>
    cases s
    · exact .inr ⟨fun h => (by cases h), rfl⟩
    · exact .inl ⟨rfl, rfl⟩

/-! ### The median -/

theorem meanAny_self {x : Flt} (h : x ≠ .nan) : MeanAny x x x := by
  cases x with
  | num q => show Flt.num q = .num ((q + q) / 2); congr 1; ring
  | nan => exact absurd rfl h
  | inf s => cases s <;> exact rfl

theorem meanAny_half {x y : Flt} (h : LeF x y) : MeanAny x y (x.add y).half := by
  cases x with
  | num p =>
    cases y with
    | num q => exact rfl
    | nan => exact absurd h (by simp [LeF])
    | inf s => cases s; exacts [rfl, absurd h (by simp [LeF])]
  | nan => exact absurd h (by simp [LeF])
  | inf s =>
    cases s <;> cases y with
    | num q => first | exact rfl | exact absurd h (by simp [LeF])
    | nan => exact absurd h (by simp [LeF])
    | inf t => cases t <;> first | exact rfl | exact absurd h (by simp [LeF])

theorem medianF_any {l : List Flt} (hne : l ≠ []) : IsMedianAny l (Coadd.medianF l) := by
  by_cases hn : Flt.nan ∈ l
  · left
    unfold Coadd.medianF
    rw [if_pos hn]
    exact ⟨hn, rfl⟩
  right
  refine ⟨hn, ?_⟩
  have hperm := Coadd.sortF_perm hn
  have hsort := Coadd.sortF_sorted l
  have hlen : (Coadd.sortF l).length = l.length := hperm.length_eq
  have hl : 0 < l.length := List.length_pos_iff.mpr hne
  have hk : ∀ k < l.length, ∃ x, (Coadd.sortF l)[k]? = some x ∧ (Coadd.sortF l).getD k .nan = x ∧ x ≠ .nan := by
    intro k hk
    refine ⟨(Coadd.sortF l)[k]'(by omega), List.getElem?_eq_getElem _, ?_, fun e => hn (e ▸ hperm.mem_iff.mp (List.getElem_mem _))⟩
    rw [List.getD_eq_getElem?_getD, List.getElem?_eq_getElem (by omega)]
    rfl
  unfold Coadd.medianF
  rw [if_neg hn]
  by_cases ho : l.length % 2 = 1
  · rw [if_pos ho]
    obtain ⟨x, h1, h2, h3⟩ := hk (l.length / 2) (by omega)
    rw [h2]
    exact ⟨Coadd.sortF l, hperm, hsort, x, x, by rw [show (l.length - 1) / 2 = l.length / 2 by omega]; exact h1, h1, meanAny_self h3⟩
  · rw [if_neg ho]
    obtain ⟨x, h1, h2, h3⟩ := hk (l.length / 2 - 1) (by omega)
    obtain ⟨y, k1, k2, k3⟩ := hk (l.length / 2) (by omega)
    rw [h2, k2]
    refine ⟨Coadd.sortF l, hperm, hsort, x, y, by rw [show (l.length - 1) / 2 = l.length / 2 - 1 by omega]; exact h1, k1, meanAny_half ?_⟩
    obtain ⟨i1, e1⟩ := List.getElem?_eq_some_iff.mp h1
    obtain ⟨i2, e2⟩ := List.getElem?_eq_some_iff.mp k1
    have := List.pairwise_iff_getElem.mp hsort (l.length / 2 - 1) (l.length / 2) i1 i2 (by omega)
    rw [e1, e2] at this
    exact this

/-! ### The loop over the images -/

/-- A stack of images and weights of one shape. -/
def StackFlt (ps : List (Img Flt × Img Flt)) (nr nc : Nat) : Prop :=
  ∀ p ∈ ps, p.1.WF ∧ p.2.WF ∧ p.1.nr = nr ∧ p.1.nc = nc ∧ p.2.nr = nr ∧ p.2.nc = nc

/-- What one turn of the loop leaves in a weight array. -/
def newWtFlt (rt : ℚ → ℚ) (nsigma A : ℚ) (med : Img Flt) (p : Img Flt × Img Flt) : Img Flt :=
  Img.zipWith (fun bad v => if bad then .num 0 else v) (outlierFlt rt nsigma A med p.1 (p.2.map Flt.clipF)) (p.2.map Flt.clipF)

def newCountFlt (rt : ℚ → ℚ) (nsigma A : ℚ) (med : Img Flt) (p : Img Flt × Img Flt) : Nat :=
  (outlierFlt rt nsigma A med p.1 (p.2.map Flt.clipF)).flat.count true

theorem outlierFlt_get (rt : ℚ → ℚ) {nsigma A : ℚ} {med im wt : Img Flt} (h1 : med.nr = im.nr) (h2 : med.nc = im.nc) (h3 : wt.nr = im.nr) (h4 : wt.nc = im.nc)
    {i j : Nat} {m x w : Flt} (hm : med.get? i j = some m) (hx : im.get? i j = some x) (hw : wt.get? i j = some w) :
    (outlierFlt rt nsigma A med im wt).get? i j = some (testFlt rt nsigma A m x w) := by
  unfold outlierFlt
  simp only
  have a1 := Img.zipWith_get? h1.symm h2.symm Flt.sub i j hx hm
  have a2 := Img.zipWith_get? rfl rfl Flt.mul i j a1 a1
  have a3 := Img.zipWith_get? (a := Img.zipWith Flt.mul (Img.zipWith Flt.sub im med) (Img.zipWith Flt.sub im med)) h3.symm h4.symm Flt.mul i j a2 hw
  have b1 : ((med.map Flt.absF).map (Flt.mul · (.num A))).get? i j = some (m.absF.mul (.num A)) := by
    rw [Img.map_get?, Img.map_get?, hm]; rfl
  have b2 : (wt.map (Flt.sqrtF rt)).get? i j = some (w.sqrtF rt) := by rw [Img.map_get?, hw]; rfl
  have b3 := Img.zipWith_get? (a := (med.map Flt.absF).map (Flt.mul · (.num A))) (b := wt.map (Flt.sqrtF rt))
    (h1.trans h3.symm) (h2.trans h4.symm) Flt.mul i j b1 b2
  have b4 : ((Img.zipWith Flt.mul ((med.map Flt.absF).map (Flt.mul · (.num A))) (wt.map (Flt.sqrtF rt))).map (Flt.add · (.num nsigma))).get? i j =
      some (((m.absF.mul (.num A)).mul (w.sqrtF rt)).add (.num nsigma)) := by
    rw [Img.map_get?, b3]; rfl
  have b5 := Img.zipWith_get? rfl rfl Flt.mul i j b4 b4
  exact Img.zipWith_get? (by simpa [Img.zipWith, Img.map] using h1.symm) (by simpa [Img.zipWith, Img.map] using h2.symm) Flt.gtF i j a3 b5

theorem outlierFlt_WF {rt : ℚ → ℚ} {nsigma A : ℚ} {med im wt : Img Flt} (h1 : med.nr = im.nr) (h2 : med.nc = im.nc) (h3 : wt.nr = im.nr) (h4 : wt.nc = im.nc)
    (hm : med.WF) (hi : im.WF) (hw : wt.WF) : (outlierFlt rt nsigma A med im wt).WF := by
  have e1 : med.flat.length = im.nr * im.nc := by rw [hm, h1, h2]
  have e2 : wt.flat.length = im.nr * im.nc := by rw [hw, h3, h4]
  have e3 : im.flat.length = im.nr * im.nc := hi
  simp [Img.WF, outlierFlt, Img.zipWith, Img.map, e1, e2, e3]

def medOfFlt (ps : List (Img Flt × Img Flt)) (nr nc : Nat) : Img Flt := medianImageFlt (nr, nc) (ps.map (·.1))

theorem loopFlt {rt : ℚ → ℚ} {nsigma A : ℚ} {ps : List (Img Flt × Img Flt)} {nr nc : Nat} (hs : StackFlt ps nr nc) (med : Img Flt) :
    ∀ j ≤ ps.length, foldRes (stepFlt rt nsigma A med) ⟨ps.map (·.1), ps.map (·.2), 0⟩ (List.range j) =
      .ok ⟨ps.map (·.1), (ps.take j).map (newWtFlt rt nsigma A med) ++ (ps.drop j).map (·.2), ((ps.take j).map (newCountFlt rt nsigma A med)).sum⟩ := by
  intro j
  induction j with
  | zero => intro _; simp [foldRes]
  | succ j ih =>
    intro hj
    have hj' : j < ps.length := by omega
    rw [List.range_succ, foldRes_append, ih (by omega)]
    simp only [Res.ok_bind, foldRes]
    have hp : ps[j]? = some ps[j] := List.getElem?_eq_getElem hj'
    obtain ⟨_, _, q1, q2, q3, q4⟩ := hs ps[j] (List.getElem_mem hj')
    have hd : ps.drop j = ps[j] :: ps.drop (j + 1) := List.drop_eq_getElem_cons hj'
    have ht : ps.take (j + 1) = ps.take j ++ [ps[j]] := List.take_succ_eq_append_getElem hj'
    have hlen : ((ps.take j).map (newWtFlt rt nsigma A med)).length = j := by simp; omega
    have g1 : pyGet (ps.map (·.1)) (j : Int) = .ok ps[j].1 := pyGet_nat_some (by rw [List.getElem?_map, hp]; rfl)
    have g2 : pyGet ((ps.take j).map (newWtFlt rt nsigma A med) ++ (ps.drop j).map (·.2)) (j : Int) = .ok ps[j].2 := by
      apply pyGet_nat_some
      rw [List.getElem?_append_right (by omega), hlen, hd, Nat.sub_self, List.map_cons]
      rfl
    unfold stepFlt
    simp only [g1, g2, Res.ok_bind]
    rw [if_neg (by simp [Img.map, q1, q2, q3, q4])]
    simp only [Except.ok.injEq, RejectedFlt.mk.injEq, true_and]
    constructor
    · rw [List.set_append_right _ _ (by omega), hlen, hd, ht, Nat.sub_self, List.map_cons, List.set_cons_zero, List.map_append, List.append_assoc]
      rfl
    · rw [ht, List.map_append, List.sum_append]
      rfl

theorem runFlt {rt : ℚ → ℚ} {nsigma A : ℚ} {ps : List (Img Flt × Img Flt)} {nr nc : Nat} (hs : StackFlt ps nr nc) (h3 : 3 ≤ ps.length) :
    rejectOutliersFlt rt nsigma A (ps.map (·.1)) (ps.map (·.2)) =
      .ok ⟨ps.map (·.1), ps.map (newWtFlt rt nsigma A (medOfFlt ps nr nc)), (ps.map (newCountFlt rt nsigma A (medOfFlt ps nr nc))).sum⟩ := by
  unfold rejectOutliersFlt
  rw [if_neg (by simp; omega)]
  cases ps with
  | nil => simp at h3
  | cons p t =>
    simp only [List.map_cons]
    obtain ⟨_, _, q1, q2, q3, q4⟩ := hs p (by simp)
    rw [if_neg]
    · have := loopFlt (rt := rt) (nsigma := nsigma) (A := A) hs (medOfFlt (p :: t) nr nc) (p :: t).length (le_refl _)
      rw [q1, q2]
      simp only [List.take_length, List.drop_length, List.map_nil, List.append_nil] at this
      simpa [medOfFlt] using this
    · rw [List.any_eq_true]
      rintro ⟨im, him, hd⟩
      rw [← List.map_cons (f := fun q : Img Flt × Img Flt => q.1), List.mem_map] at him
      obtain ⟨b, hb, rfl⟩ := him
      obtain ⟨_, _, r1, r2, _⟩ := hs b hb
      exact (of_decide_eq_true hd) ⟨by rw [r1, q1], by rw [r2, q2]⟩

theorem newWtFlt_get {rt : ℚ → ℚ} {nsigma A : ℚ} {ps : List (Img Flt × Img Flt)} {nr nc : Nat} (hs : StackFlt ps nr nc) {p : Img Flt × Img Flt} (hp : p ∈ ps)
    {a b : Nat} {x w : Flt} (hx : p.1.get? a b = some x) (hw : p.2.get? a b = some w) :
    (newWtFlt rt nsigma A (medOfFlt ps nr nc) p).get? a b =
      some (if testFlt rt nsigma A (Coadd.medianF (ps.filterMap (fun q => q.1.get? a b))) x w.clipF then .num 0 else w.clipF) := by
  obtain ⟨q1, q2, q3, q4, q5, q6⟩ := hs p hp
  have hlt := Img.get?_lt hx
  have ha : a < nr := by omega
  have hb : b < nc := by omega
  have e : (ps.map (·.1)).filterMap (·.get? a b) = ps.filterMap (fun q => q.1.get? a b) := by rw [List.filterMap_map]; rfl
  have hm : (medOfFlt ps nr nc).get? a b = some (Coadd.medianF (ps.filterMap (fun q => q.1.get? a b))) := by
    unfold medOfFlt medianImageFlt
    rw [Img.ofFn_get? _ ha hb, e]
  have hw' : (p.2.map Flt.clipF).get? a b = some w.clipF := by rw [Img.map_get?, hw]; rfl
  have ho := outlierFlt_get rt (nsigma := nsigma) (A := A) (med := medOfFlt ps nr nc) (im := p.1) (wt := p.2.map Flt.clipF)
    (by simp [medOfFlt, medianImageFlt, q3]) (by simp [medOfFlt, medianImageFlt, q4]) (by simp [Img.map, q3, q5]) (by simp [Img.map, q4, q6]) hm hx hw'
  unfold newWtFlt
  rw [Img.zipWith_get? (by show p.1.nr = p.2.nr; rw [q3, q5]) (by show p.1.nc = p.2.nc; rw [q4, q6]) _ a b ho hw']

theorem newWtFlt_shape {rt : ℚ → ℚ} {nsigma A : ℚ} {ps : List (Img Flt × Img Flt)} {nr nc : Nat} (hs : StackFlt ps nr nc) {p : Img Flt × Img Flt} (hp : p ∈ ps) :
    (newWtFlt rt nsigma A (medOfFlt ps nr nc) p).WF ∧ (newWtFlt rt nsigma A (medOfFlt ps nr nc) p).nr = nr ∧ (newWtFlt rt nsigma A (medOfFlt ps nr nc) p).nc = nc := by
  obtain ⟨q1, q2, q3, q4, q5, q6⟩ := hs p hp
  refine ⟨?_, q3, q4⟩
  unfold newWtFlt
  refine Img.zipWith_WF (outlierFlt_WF ?_ ?_ ?_ ?_ (Img.ofFn_WF _ _ _) q1 (Img.map_WF q2 _)) (Img.map_WF q2 _) ?_ ?_ _
  · exact q3.symm
  · exact q4.symm
  · exact q5.trans q3.symm
  · exact q6.trans q4.symm
  · exact q3.trans q5.symm
  · exact q4.trans q6.symm

open Classical in
/-- Pixel lists: how many tests are true, and how many positive weights became zero. -/
theorem count_zeroedFlt {test : Flt → Flt → Flt → Bool} (ht : ∀ m x w, test m x (Flt.clipF w) = true → Positive w) : ∀ (ms xs ws : List Flt), ms.length = ws.length →
    xs.length = ws.length →
    (List.zipWith (fun (xm : Flt × Flt) w => test xm.2 xm.1 w) (xs.zip ms) (ws.map Flt.clipF)).count true =
    (ws.zip (List.zipWith (fun bad v => if bad then .num 0 else v) (List.zipWith (fun (xm : Flt × Flt) w => test xm.2 xm.1 w) (xs.zip ms) (ws.map Flt.clipF)) (ws.map Flt.clipF))).countP
      (fun p => decide (Positive p.1 ∧ p.2 = .num 0)) := by
  intro ms xs ws
  induction ws generalizing ms xs with
  | nil => intro _ _; simp
  | cons w ws ih =>
    intro h1 h2
    cases ms with
    | nil => simp at h1
    | cons m ms =>
      cases xs with
      | nil => simp at h2
      | cons x xs =>
        simp only [List.map_cons, List.zip_cons_cons, List.zipWith_cons_cons, List.count_cons, List.countP_cons]
        rw [ih ms xs (by simpa using h1) (by simpa using h2)]
        congr 1
        by_cases hb : test m x w.clipF = true
        · have := ht m x w hb
          simp [hb, this]
        · rw [Bool.not_eq_true] at hb
          simp only [hb, beq_iff_eq, Bool.false_eq_true, if_false, decide_eq_true_eq]
          rw [if_neg]
          rintro ⟨h3, h4⟩
          cases w with
          | num q =>
            have h3 : 0 < q := h3
            simp only [Flt.clipF, Flt.num.injEq] at h4
            rw [max_eq_left h3.le] at h4
            linarith
          | nan => exact h3
          | inf s =>
            have h3 : s = false := h3
            subst h3
            simp [Flt.clipF] at h4

theorem newCountFlt_zeroed {rt : ℚ → ℚ} {nsigma A : ℚ} {p : Img Flt × Img Flt} {med : Img Flt} (h1 : med.flat.length = p.2.flat.length) (h2 : p.1.flat.length = p.2.flat.length) :
    newCountFlt rt nsigma A med p = zeroedFlt p.2 (newWtFlt rt nsigma A med p) := by
  have key := count_zeroedFlt (test := testFlt rt nsigma A) (by
    intro m x w h
    obtain ⟨_, w', _, rfl, h, _⟩ := (testFlt_iff rt nsigma A m x w).mp h
    exact h) med.flat p.1.flat p.2.flat h1 h2
  have e : (outlierFlt rt nsigma A med p.1 (p.2.map Flt.clipF)).flat =
      List.zipWith (fun (xm : Flt × Flt) w => testFlt rt nsigma A xm.2 xm.1 w) (p.1.flat.zip med.flat) (p.2.flat.map Flt.clipF) := by
    apply List.ext_getElem?
    intro k
    simp only [outlierFlt, Img.zipWith, Img.map, List.getElem?_zipWith, List.getElem?_map, List.zip]
    cases p.1.flat[k]? <;> cases med.flat[k]? <;> cases p.2.flat[k]? <;> simp [testFlt]
  unfold newCountFlt zeroedFlt newWtFlt
  simp only [Img.zipWith] at e ⊢
  rw [e]
  exact key

end Meds.Reject
