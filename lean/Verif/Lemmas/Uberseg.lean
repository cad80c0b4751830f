import Verif.Model.Uberseg
import Verif.Lemmas.Composite

/-! Lemmas on the tree, the sphere search and the growing loop. -/

namespace Meds.Uberseg

/-! ### The tree holds exactly the points it was given, and its boxes contain them -/

theorem partition_mem (dim : Bool) (lim2 : Int) (n : Nat) (l : List Pt) (p : Pt) :
    p ∈ (partition dim lim2 n l).1 ++ (partition dim lim2 n l).2 ↔ p ∈ l := by
  induction n generalizing l with
  | zero => cases l <;> simp [partition]
  | succ n ih =>
    cases l with
    | nil => simp [partition]
    | cons x rest =>
      unfold partition
      cases hl : rest.getLast? with
      | none =>
        have : rest = [] := List.getLast?_eq_none_iff.mp hl
        subst this
        dsimp only
        split <;> simp
      | some z =>
        have hr : rest.dropLast ++ [z] = rest := List.dropLast_append_getLast? z hl
        dsimp only
        split
        · have h := ih (z :: rest.dropLast)
          rw [List.mem_append] at h
          rw [List.mem_append, List.mem_append, ← or_assoc, h]
          have h2 : p ∈ rest ↔ p ∈ rest.dropLast ∨ p = z := by
            conv_lhs => rw [← hr]
            simp
          simp only [List.mem_cons, List.not_mem_nil, or_false, h2]
          tauto
        · have h := ih rest
          rw [List.mem_append] at h
          simp only [List.cons_append, List.mem_cons, List.mem_append, h]

/-- The box contains the point. -/
def Box.Has (b : Box) (p : Pt) : Prop := b.min0 ≤ p.x ∧ p.x ≤ b.max0 ∧ b.min1 ≤ p.y ∧ p.y ≤ b.max1

theorem Box.add_self {b : Box} {p q : Pt} (h : b.Has q) : (b.add p).Has p := by
  unfold Has at *
  unfold add
  dsimp only
  split_ifs <;> omega

theorem Box.add_mono {b : Box} {p q : Pt} (h : b.Has q) : (b.add p).Has q := by
  unfold Has at *
  unfold add
  dsimp only
  split_ifs <;> omega

theorem foldl_add_has (ps : List Pt) (b : Box) (q : Pt) (h : b.Has q) : (ps.foldl Box.add b).Has q ∧ ∀ p ∈ ps, (ps.foldl Box.add b).Has p := by
  induction ps generalizing b q with
  | nil => exact ⟨h, fun p hp => by cases hp⟩
  | cons x xs ih =>
    rw [List.foldl_cons]
    obtain ⟨h1, h2⟩ := ih (b.add x) q (Box.add_mono h)
    refine ⟨h1, ?_⟩
    intro p hp
    rcases List.mem_cons.mp hp with rfl | hp
    · exact (ih (b.add p) p (Box.add_self h)).1
    · exact h2 p hp

theorem minmax_has {ps : List Pt} {p : Pt} (h : p ∈ ps) : (minmax ps).Has p := by
  cases ps with
  | nil => cases h
  | cons x xs =>
    have h0 : (⟨x.x, x.x, x.y, x.y⟩ : Box).Has x := ⟨le_rfl, le_rfl, le_rfl, le_rfl⟩
    obtain ⟨h1, h2⟩ := foldl_add_has xs _ x h0
    rcases List.mem_cons.mp h with rfl | h
    · exact h1
    · exact h2 p h

/-- Every box of the tree contains the points below it. -/
def Tree.Ok : Tree → Prop
  | .leaf b ps => ∀ p ∈ ps, b.Has p
  | .node b _ l r => (∀ p ∈ l.pts ++ r.pts, b.Has p) ∧ l.Ok ∧ r.Ok

theorem build_ok (F : F32) (n : Nat) (ps : List Pt) : (build F n ps).Ok ∧ ∀ p, p ∈ (build F n ps).pts ↔ p ∈ ps := by
  induction n generalizing ps with
  | zero => exact ⟨fun p hp => minmax_has hp, fun p => Iff.rfl⟩
  | succ n ih =>
    unfold build
    dsimp only
    split
    · split
      · exact ⟨fun p hp => minmax_has hp, fun p => Iff.rfl⟩
      · have hm := partition_mem (largestDim F (minmax ps)) (F.int ((minmax ps).hi (largestDim F (minmax ps)) + (minmax ps).lo (largestDim F (minmax ps)))) ps.length ps
        split
        · exact ⟨fun p hp => minmax_has ((hm p).mp hp), hm⟩
        · obtain ⟨l1, l2⟩ := ih (partition (largestDim F (minmax ps)) (F.int ((minmax ps).hi (largestDim F (minmax ps)) + (minmax ps).lo (largestDim F (minmax ps)))) ps.length ps).1
          obtain ⟨r1, r2⟩ := ih (partition (largestDim F (minmax ps)) (F.int ((minmax ps).hi (largestDim F (minmax ps)) + (minmax ps).lo (largestDim F (minmax ps)))) ps.length ps).2
          have hall : ∀ p, p ∈ (build F n (partition (largestDim F (minmax ps)) (F.int ((minmax ps).hi (largestDim F (minmax ps)) + (minmax ps).lo (largestDim F (minmax ps)))) ps.length ps).1).pts ++
              (build F n (partition (largestDim F (minmax ps)) (F.int ((minmax ps).hi (largestDim F (minmax ps)) + (minmax ps).lo (largestDim F (minmax ps)))) ps.length ps).2).pts ↔ p ∈ ps := by
            intro p
            rw [List.mem_append, l2, r2, ← List.mem_append]
            exact hm p
          exact ⟨⟨fun p hp => minmax_has ((hall p).mp hp), l1, r1⟩, hall⟩
    · exact ⟨fun p hp => minmax_has hp, fun p => Iff.rfl⟩

theorem init_ok (F : F32) (ps : List Pt) : (init F ps).Ok := (build_ok F _ _).1
theorem init_mem (F : F32) (ps : List Pt) (p : Pt) : p ∈ (init F ps).pts ↔ p ∈ ps := (build_ok F _ _).2 p

/-! ### The sphere search -/

/-- What the proofs need to know about the rounding: of integers (first five), and of the search radius. -/
structure F32.Sound (F : F32) : Prop where
  mono : Monotone F.int
  zero : F.int 0 = 0
  neg : ∀ k, F.int (-k) = -F.int k
  idem : ∀ k, F.int (F.int k) = F.int k
  close : ∀ k : Int, 0 ≤ k → (F.int k : ℚ) ≤ 1001 / 1000 * k
  fac0 : 9 / 10 ≤ F.fac0
  grow : ∀ x, 9 / 10 ≤ x → 109 / 100 * x ≤ F.grow x
  maxr : ∀ (nr nc : Nat) x, F.maxr nr nc < x → 11 / 10 * ((nr ^ 2 + nc ^ 2 : Nat) : ℚ) ≤ F.mul x x

namespace F32.Sound
variable {F : F32} (hF : F.Sound)
include hF

theorem nonneg {k : Int} (h : 0 ≤ k) : 0 ≤ F.int k := by
  have := hF.mono h
  rwa [hF.zero] at this

theorem nonpos {k : Int} (h : k ≤ 0) : F.int k ≤ 0 := by
  have := hF.mono h
  rwa [hF.zero] at this

theorem sq_nonneg (a : Int) : 0 ≤ F.sq a := hF.nonneg (mul_self_nonneg _)

theorem sq_le {a b : Int} (h : |F.int a| ≤ |F.int b|) : F.sq a ≤ F.sq b := by
  apply hF.mono
  rw [← abs_mul_abs_self (F.int a), ← abs_mul_abs_self (F.int b)]
  exact mul_self_le_mul_self (abs_nonneg _) h

theorem sq_neg (a : Int) : F.sq (-a) = F.sq a := by
  unfold F32.sq
  rw [hF.neg, neg_mul_neg]

theorem sq_sub (a b : Int) : F.sq (a - b) = F.sq (b - a) := by
  rw [← hF.sq_neg, neg_sub]

theorem sq_idem (a : Int) : F.int (F.sq a) = F.sq a := hF.idem _

theorem d2_nonneg (p : Pt) (c : Int × Int) : 0 ≤ F.d2 p c := hF.nonneg (add_nonneg (hF.sq_nonneg _) (hF.sq_nonneg _))

theorem le_d2_left (p : Pt) (c : Int × Int) : F.sq (c.1 - p.x) ≤ F.d2 p c := by
  rw [← hF.sq_idem]
  exact hF.mono (by have := hF.sq_nonneg (c.2 - p.y); omega)

theorem le_d2_right (p : Pt) (c : Int × Int) : F.sq (c.2 - p.y) ≤ F.d2 p c := by
  rw [← hF.sq_idem]
  exact hF.mono (by have := hF.sq_nonneg (c.1 - p.x); omega)

theorem axisGap_le {c mn mx x d : Int} (h1 : mn ≤ x) (h2 : x ≤ mx) (h : axisGap F c mn mx = some d) : d ≤ F.sq (c - x) := by
  unfold axisGap at h
  split at h
  · rename_i h0
    injection h with h
    subst h
    apply hF.sq_le
    have := hF.mono (show c - x ≤ c - mn by omega)
    rw [abs_of_neg h0, abs_of_nonpos (by omega)]
    omega
  · split at h
    · rename_i h0
      injection h with h
      subst h
      apply hF.sq_le
      have := hF.mono (show c - mx ≤ c - x by omega)
      rw [abs_of_pos h0, abs_of_nonneg (by omega)]
      omega
    · cases h

theorem le_axisFar {c mn mx x : Int} (h1 : mn ≤ x) (h2 : x ≤ mx) : F.sq (c - x) ≤ axisFar F c mn mx := by
  unfold axisFar
  dsimp only
  have key : F.sq (c - x) ≤ F.sq (mn - c) ∨ F.sq (c - x) ≤ F.sq (c - mx) := by
    by_cases h : c ≤ x
    · right
      apply hF.sq_le
      have e1 := hF.mono (show c - mx ≤ c - x by omega)
      have e2 := hF.nonpos (show c - x ≤ 0 by omega)
      rw [abs_of_nonpos e2, abs_of_nonpos (by omega)]
      omega
    · left
      rw [hF.sq_sub mn c]
      apply hF.sq_le
      have e1 := hF.mono (show c - x ≤ c - mn by omega)
      have e2 := hF.nonneg (show 0 ≤ c - x by omega)
      rw [abs_of_nonneg e2, abs_of_nonneg (by omega)]
      omega
  split <;> omega

end F32.Sound

theorem boxNotIntersect_far {F : F32} (hF : F.Sound) {b : Box} {c : Int × Int} {r : Flt} {p : Pt} (hb : b.Has p) (h : boxNotIntersect F b c r = true) :
    (F.fmul r r).geInt (F.d2 p c) = true := by
  obtain ⟨h1, h2, h3, h4⟩ := hb
  have mono : ∀ d e : Int, d ≤ e → (F.fmul r r).geInt d = true → (F.fmul r r).geInt e = true := by
    intro d e hde hd
    cases hr : F.fmul r r with
    | fin q =>
      rw [hr] at hd
      unfold Flt.geInt at *
      dsimp only at *
      rw [decide_eq_true_eq] at *
      exact hd.trans (by exact_mod_cast hde)
    | inf => rw [hr] at hd; cases hd
    | nan => rw [hr] at hd; cases hd
  have s0 := hF.le_d2_left p c
  have s1 := hF.le_d2_right p c
  unfold boxNotIntersect at h
  dsimp only at h
  cases g0 : axisGap F c.1 b.min0 b.max0 with
  | none =>
    cases g1 : axisGap F c.2 b.min1 b.max1 with
    | none => rw [g0, g1] at h; cases h
    | some d1 =>
      rw [g0, g1] at h
      have := hF.axisGap_le h3 h4 g1
      exact mono d1 _ (by omega) h
  | some d0 =>
    have l0 := hF.axisGap_le h1 h2 g0
    cases g1 : axisGap F c.2 b.min1 b.max1 with
    | none =>
      rw [g0, g1] at h
      exact mono d0 _ (by omega) h
    | some d1 =>
      have l1 := hF.axisGap_le h3 h4 g1
      rw [g0, g1] at h
      rcases Bool.or_eq_true _ _ |>.mp h with h | h
      · exact mono d0 _ (by omega) h
      · exact mono _ _ (hF.mono (by omega)) h

theorem boxInside_near {F : F32} (hF : F.Sound) {b : Box} {c : Int × Int} {r : Flt} {p : Pt} (hb : b.Has p) (h : boxInside F b c r = true) :
    (F.fmul r r).gtInt (F.d2 p c) = false := by
  obtain ⟨h1, h2, h3, h4⟩ := hb
  unfold boxInside at h
  dsimp only at h
  split at h
  · cases h
  · split at h
    · cases h
    · split at h
      · cases h
      · rename_i hn
        have f0 := hF.le_axisFar (c := c.1) h1 h2
        have f1 := hF.le_axisFar (c := c.2) h3 h4
        cases hr : F.fmul r r with
        | inf => rfl
        | nan => rfl
        | fin q =>
          rw [hr] at hn
          unfold Flt.gtInt at *
          dsimp only at *
          rw [decide_eq_true_eq, not_lt] at hn
          rw [decide_eq_false_iff_not, not_lt]
          refine le_trans ?_ hn
          have : F.d2 p c ≤ F.int (axisFar F c.1 b.min0 b.max0 + axisFar F c.2 b.min1 b.max1) := hF.mono (by omega)
          exact_mod_cast this

/-- `_fast3tree_find_sphere` returns points of the tree, not farther than the radius, and all those strictly nearer. -/
theorem findSphere_spec {F : F32} (hF : F.Sound) {c : Int × Int} {r : Flt} {t : Tree} (ht : t.Ok) :
    (∀ p ∈ findSphere F c r t, p ∈ t.pts ∧ (F.fmul r r).gtInt (F.d2 p c) = false) ∧
    (∀ p ∈ t.pts, (F.fmul r r).geInt (F.d2 p c) = false → F.fmul r r ≠ .nan → p ∈ findSphere F c r t) := by
  induction t with
  | leaf b ps =>
    unfold findSphere
    constructor
    · intro p hp
      split at hp
      · cases hp
      · split at hp
        · rename_i hin
          exact ⟨hp, boxInside_near hF (ht p hp) hin⟩
        · obtain ⟨h1, h2⟩ := List.mem_filter.mp hp
          refine ⟨h1, ?_⟩
          cases hr : F.fmul r r with
          | inf => rfl
          | nan => rfl
          | fin q =>
            rw [hr] at h2
            unfold Flt.ltInt at h2
            unfold Flt.gtInt
            dsimp only at *
            rw [decide_eq_true_eq] at h2
            rw [decide_eq_false_iff_not, not_lt]
            exact h2.le
    · intro p hp hge hnan
      split
      · rename_i hb
        rw [boxNotIntersect_far hF (ht p hp) hb] at hge
        cases hge
      · split
        · exact hp
        · refine List.mem_filter.mpr ⟨hp, ?_⟩
          cases hr : F.fmul r r with
          | inf => rfl
          | nan => exact absurd hr hnan
          | fin q =>
            rw [hr] at hge
            unfold Flt.geInt at hge
            unfold Flt.ltInt
            dsimp only at *
            rw [decide_eq_false_iff_not, not_le] at hge
            rw [decide_eq_true_eq]
            exact hge
  | node b dim l rt ihl ihr =>
    obtain ⟨hb, hl, hr⟩ := ht
    obtain ⟨l1, l2⟩ := ihl hl
    obtain ⟨r1, r2⟩ := ihr hr
    unfold findSphere
    constructor
    · intro p hp
      split at hp
      · cases hp
      · split at hp
        · rename_i hin
          exact ⟨hp, boxInside_near hF (hb p hp) hin⟩
        · rcases List.mem_append.mp hp with h | h
          · exact ⟨List.mem_append_left _ (l1 p h).1, (l1 p h).2⟩
          · exact ⟨List.mem_append_right _ (r1 p h).1, (r1 p h).2⟩
    · intro p hp hge hnan
      split
      · rename_i hbb
        rw [boxNotIntersect_far hF (hb p hp) hbb] at hge
        cases hge
      · split
        · exact hp
        · rcases List.mem_append.mp hp with h | h
          · exact List.mem_append_left _ (l2 p h hge hnan)
          · exact List.mem_append_right _ (r2 p h hge hnan)

theorem fmul_self_nan {F : F32} {r : Flt} (h : F.fmul r r = .nan) : r = .nan := by
  cases r with
  | fin q =>
    unfold F32.fmul Flt.ofRat at h
    dsimp only at h
    split at h <;> cases h
  | inf => cases h
  | nan => rfl

/-- A NaN radius finds everything. -/
theorem findSphere_nan {F : F32} {c : Int × Int} {t : Tree} : findSphere F c .nan t = t.pts := by
  have h1 : ∀ b, boxNotIntersect F b c .nan = false := by
    intro b
    unfold boxNotIntersect
    dsimp only
    cases axisGap F c.1 b.min0 b.max0 <;> cases axisGap F c.2 b.min1 b.max1 <;> rfl
  have h2 : ∀ b, boxInside F b c .nan = true := fun b => rfl
  cases t with
  | leaf b ps => unfold findSphere; rw [h1, h2]; rfl
  | node b dim l r => unfold findSphere; rw [h1, h2]; rfl

/-- Results that suffice to find the nearest: points of the tree, among them one at least as near as any. -/
def Covers (F : F32) (c : Int × Int) (t : Tree) (res : List Pt) : Prop :=
  (∀ p ∈ res, p ∈ t.pts) ∧ ∀ p ∈ t.pts, ∃ q ∈ res, F.d2 q c ≤ F.d2 p c

theorem findSphere_covers {F : F32} (hF : F.Sound) {c : Int × Int} {r : Flt} {t : Tree} (ht : t.Ok) (hne : findSphere F c r t ≠ []) :
    Covers F c t (findSphere F c r t) := by
  obtain ⟨h1, h2⟩ := findSphere_spec hF (c := c) (r := r) ht
  refine ⟨fun p hp => (h1 p hp).1, ?_⟩
  intro p hp
  by_cases hin : p ∈ findSphere F c r t
  · exact ⟨p, hin, le_rfl⟩
  · cases hr : F.fmul r r with
    | inf => exact absurd (h2 p hp (by rw [hr]; rfl) (by rw [hr]; simp)) hin
    | nan =>
      have := fmul_self_nan hr
      subst this
      rw [findSphere_nan] at hin
      exact absurd hp hin
    | fin q =>
      have hge : q ≤ ((F.d2 p c : Int) : ℚ) := by
        by_contra hlt
        refine hin (h2 p hp ?_ (by rw [hr]; simp))
        rw [hr]
        unfold Flt.geInt
        dsimp only
        rw [decide_eq_false_iff_not]
        exact hlt
      obtain ⟨z, hz⟩ := List.exists_mem_of_ne_nil _ hne
      refine ⟨z, hz, ?_⟩
      have hz2 := (h1 z hz).2
      rw [hr] at hz2
      unfold Flt.gtInt at hz2
      dsimp only at hz2
      rw [decide_eq_false_iff_not, not_lt] at hz2
      exact_mod_cast hz2.trans hge

/-! ### The growing loop -/

theorem growLoop_covers {F : F32} (hF : F.Sound) {c : Int × Int} {t : Tree} (ht : t.Ok) {r : ℚ} {nr nc : Nat}
    (hin : ∀ p ∈ t.pts, ((F.d2 p c : Int) : ℚ) < 11 / 10 * ((nr ^ 2 + nc ^ 2 : Nat) : ℚ)) {n : Nat} {fac : Flt} {res : List Pt}
    (h : growLoop F c t r (F.maxr nr nc) n fac = some res) : Covers F c t res := by
  induction n generalizing fac with
  | zero => cases h
  | succ n ih =>
    unfold growLoop at h
    dsimp only at h
    split at h
    · exact ih h
    · rename_i hstop
      injection h with h
      subst h
      by_cases hne : findSphere F c (F.fmul (.fin r) (F.fgrow fac)) t = []
      · rw [hne]
        have hle : (F.fmul (.fin r) (F.fgrow fac)).le (F.maxr nr nc) ≠ true := fun hh => hstop ⟨hne, hh⟩
        refine ⟨fun p hp => (by cases hp), ?_⟩
        intro p hp
        exfalso
        have hin' : p ∈ findSphere F c (F.fmul (.fin r) (F.fgrow fac)) t := by
          cases hrf : F.fmul (.fin r) (F.fgrow fac) with
          | nan => rw [findSphere_nan]; exact hp
          | inf => exact (findSphere_spec hF ht).2 p hp rfl (by intro h; cases h)
          | fin q =>
            rw [hrf] at hle
            unfold Flt.le at hle
            dsimp only at hle
            rw [ne_eq, decide_eq_true_eq, not_le] at hle
            have hm := hF.maxr nr nc q hle
            refine (findSphere_spec hF ht).2 p hp ?_ (by intro h; cases fmul_self_nan h)
            show (Flt.ofRat (F.mul q q)).geInt _ = false
            unfold Flt.ofRat
            split
            · rfl
            · unfold Flt.geInt
              dsimp only
              rw [decide_eq_false_iff_not, not_le]
              refine lt_of_lt_of_le ?_ hm
              exact hin p hp
        rw [hne] at hin'
        cases hin'
      · exact findSphere_covers hF ht hne

/-- The growth factor after some passes: at least this, or infinite. -/
def FacAtLeast (x : ℚ) : Flt → Prop
  | .fin q => x ≤ q ∧ 9 / 10 ≤ q
  | .inf => True
  | .nan => False

theorem fgrow_atLeast {F : F32} (hF : F.Sound) {x : ℚ} {fac : Flt} (h : FacAtLeast x fac) : FacAtLeast (109 / 100 * x) (F.fgrow fac) := by
  cases fac with
  | fin q =>
    obtain ⟨h1, h2⟩ := h
    have hg := hF.grow q h2
    unfold F32.fgrow Flt.ofRat
    dsimp only
    split
    · trivial
    · exact ⟨by linarith, by linarith⟩
  | inf => trivial
  | nan => exact h.elim

theorem fgrow_overflow {F : F32} (hF : F.Sound) {x : ℚ} {fac : Flt} (h : FacAtLeast x fac) (hx : fltMax < 109 / 100 * x) : F.fgrow fac = .inf := by
  cases fac with
  | fin q =>
    obtain ⟨h1, h2⟩ := h
    have hg := hF.grow q h2
    unfold F32.fgrow Flt.ofRat
    dsimp only
    rw [if_pos (by linarith)]
  | inf => rfl
  | nan => exact h.elim

theorem growLoop_ends {F : F32} (hF : F.Sound) {c : Int × Int} {t : Tree} {r maxr x : ℚ} {k n : Nat} (hn : k < n) {fac : Flt} (h : FacAtLeast x fac)
    (hx : fltMax < (109 / 100) ^ (k + 1) * x) : ∃ res, growLoop F c t r maxr n fac = some res := by
  induction k generalizing n fac x with
  | zero =>
    obtain ⟨n, rfl⟩ : ∃ n', n = n' + 1 := ⟨n - 1, by omega⟩
    have ho := fgrow_overflow hF h (by simpa using hx)
    unfold growLoop
    dsimp only
    rw [if_neg]
    · exact ⟨_, rfl⟩
    · rintro ⟨_, hle⟩
      rw [ho] at hle
      unfold F32.fmul at hle
      dsimp only at hle
      split at hle <;> cases hle
  | succ k ih =>
    obtain ⟨n, rfl⟩ : ∃ n', n = n' + 1 := ⟨n - 1, by omega⟩
    unfold growLoop
    dsimp only
    split
    · exact ih (x := 109 / 100 * x) (by omega) (fgrow_atLeast hF h) (by rw [show (109 / 100 : ℚ) ^ (k + 1) * (109 / 100 * x) = (109 / 100) ^ (k + 1 + 1) * x by ring]; exact hx)
    · exact ⟨_, rfl⟩

/-- Enough passes for the growth factor to overflow. -/
def enough : Nat := 1032

theorem overflow_bound : fltMax < (109 / 100 : ℚ) ^ (1031 + 1) * (9 / 10) := by
  decide +kernel

theorem growLoop_returns {F : F32} (hF : F.Sound) (c : Int × Int) (t : Tree) (r maxr : ℚ) {n : Nat} (hn : enough ≤ n) :
    ∃ res, growLoop F c t r maxr n (.fin F.fac0) = some res :=
  growLoop_ends hF (k := 1031) (x := 9 / 10) hn ⟨hF.fac0, hF.fac0⟩ overflow_bound

/-! ### Picking the nearest of the points found -/

theorem pick_eq {F : F32} (hF : F.Sound) (c s : Int × Int) (p : Pt) :
    pick F c s p = if s.1 = -1 ∨ F.d2 p c < s.2 then (p.seg, F.d2 p c) else s := by
  unfold pick F32.d2
  dsimp only
  rw [hF.sq_sub p.x, hF.sq_sub p.y]

theorem pick_spec {F : F32} (hF : F.Sound) (c : Int × Int) (res : List Pt) (hs : ∀ p ∈ res, p.seg ≠ -1) (s : Int × Int) (hs0 : s.1 ≠ -1) :
    (res.foldl (pick F c) s = s ∧ ∀ q ∈ res, s.2 ≤ F.d2 q c) ∨
    ∃ p ∈ res, res.foldl (pick F c) s = (p.seg, F.d2 p c) ∧ F.d2 p c ≤ s.2 ∧ ∀ q ∈ res, F.d2 p c ≤ F.d2 q c := by
  induction res generalizing s with
  | nil => exact .inl ⟨rfl, fun q hq => by cases hq⟩
  | cons x xs ih =>
    rw [List.foldl_cons, pick_eq hF]
    by_cases hlt : F.d2 x c < s.2
    · rw [if_pos (.inr hlt)]
      right
      rcases ih (fun p hp => hs p (by simp [hp])) (x.seg, F.d2 x c) (hs x (by simp)) with ⟨h1, h2⟩ | ⟨p, h1, h2, h3, h4⟩
      · refine ⟨x, by simp, h1, hlt.le, ?_⟩
        intro q hq
        rcases List.mem_cons.mp hq with rfl | hq
        · exact le_rfl
        · exact h2 q hq
      · refine ⟨p, by simp [h1], h2, h3.trans hlt.le, ?_⟩
        intro q hq
        rcases List.mem_cons.mp hq with rfl | hq
        · exact h3
        · exact h4 q hq
    · rw [if_neg (by rintro (h | h); exacts [hs0 h, hlt h])]
      rcases ih (fun p hp => hs p (by simp [hp])) s hs0 with ⟨h1, h2⟩ | ⟨p, h1, h2, h3, h4⟩
      · left
        refine ⟨h1, ?_⟩
        intro q hq
        rcases List.mem_cons.mp hq with rfl | hq
        · exact not_lt.mp hlt
        · exact h2 q hq
      · right
        refine ⟨p, by simp [h1], h2, h3, ?_⟩
        intro q hq
        rcases List.mem_cons.mp hq with rfl | hq
        · exact h3.trans (not_lt.mp hlt)
        · exact h4 q hq

theorem pick_first {F : F32} (hF : F.Sound) (c : Int × Int) (x : Pt) (xs : List Pt) (hs : ∀ p ∈ x :: xs, p.seg ≠ -1) :
    ∃ p ∈ x :: xs, ((x :: xs).foldl (pick F c) (-1, 0)).1 = p.seg ∧ ∀ q ∈ x :: xs, F.d2 p c ≤ F.d2 q c := by
  rw [List.foldl_cons]
  have e : pick F c (-1, 0) x = (x.seg, F.d2 x c) := by rw [pick_eq hF, if_pos (.inl rfl)]
  rw [e]
  rcases pick_spec hF c xs (fun p hp => hs p (by simp [hp])) (x.seg, F.d2 x c) (hs x (by simp)) with ⟨h1, h2⟩ | ⟨p, h1, h2, h3, h4⟩
  · refine ⟨x, by simp, by rw [h1], ?_⟩
    intro q hq
    rcases List.mem_cons.mp hq with rfl | hq
    · exact le_rfl
    · exact h2 q hq
  · refine ⟨p, by simp [h1], by rw [h2], ?_⟩
    intro q hq
    rcases List.mem_cons.mp hq with rfl | hq
    · exact h3
    · exact h4 q hq

end Meds.Uberseg
