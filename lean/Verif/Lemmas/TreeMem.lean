import Verif.Model.TreeMem
import Verif.Props.CHeap

/-!
# Lemmas about the arrays of the compiled uberseg
-/

namespace Meds.Uberseg
open Meds.C (Heap malloc free Leads)

/-! ## Ranges of the array of points -/

/-- The points in a range. -/
def slice (pts : List Pt) (s n : Nat) : List Pt := (pts.drop s).take n

theorem slice_length {pts : List Pt} {s n : Nat} (h : s + n ≤ pts.length) : (slice pts s n).length = n := by
  simp only [slice, List.length_take, List.length_drop]
  omega

theorem slice_get {pts : List Pt} {s n i : Nat} (h : i < n) : (slice pts s n)[i]? = pts[s + i]? := by
  simp only [slice, List.getElem?_take, h, if_true, List.getElem?_drop]

theorem slice_ext {pts qts : List Pt} {s n : Nat} (h : ∀ i, s ≤ i → i < s + n → qts[i]? = pts[i]?) : slice qts s n = slice pts s n := by
  apply List.ext_getElem?
  intro i
  by_cases hi : i < n
  · rw [slice_get hi, slice_get hi]
    exact h _ (by omega) (by omega)
  · have hn : ∀ l : List Pt, (slice l s n)[i]? = none := by
      intro l
      rw [List.getElem?_eq_none]
      simp only [slice, List.length_take]
      omega
    rw [hn, hn]

theorem slice_add (pts : List Pt) (s a b : Nat) : slice pts s (a + b) = slice pts s a ++ slice pts (s + a) b := by
  simp only [slice, List.take_add, List.drop_drop]

theorem slice_zero (pts : List Pt) (s : Nat) : slice pts s 0 = [] := by simp only [slice, List.take_zero]

theorem slice_succ {pts : List Pt} {s n : Nat} {p : Pt} (h : pts[s]? = some p) : slice pts s (n + 1) = p :: slice pts (s + 1) n := by
  obtain ⟨hlt, rfl⟩ := List.getElem?_eq_some_iff.mp h
  simp only [slice]
  rw [List.drop_eq_getElem_cons hlt, List.take_succ_cons]

theorem slice_split {pts : List Pt} {s n : Nat} (h : s + n ≤ pts.length) : ∃ A B, pts = A ++ slice pts s n ++ B ∧ A.length = s := by
  refine ⟨pts.take s, pts.drop (s + n), ?_, by rw [List.length_take]; omega⟩
  simp only [slice, List.append_assoc]
  conv_lhs => rw [← List.take_append_drop s pts, ← List.take_append_drop n (pts.drop s), List.drop_drop]

theorem slice_mid {A l B : List Pt} : slice (A ++ l ++ B) A.length l.length = l := by
  simp only [slice, List.append_assoc, List.drop_left, List.take_left]

theorem readPts_ok {pts : List Pt} {s n : Nat} (h : s + n ≤ pts.length) : readPts pts s n = .ok (slice pts s n) := by
  simp only [readPts, h, if_true, slice]

theorem getP_ok {pts : List Pt} {i : Nat} {p : Pt} (h : pts[i]? = some p) : getP pts i = .ok p := by
  simp only [getP, h]

/-! ## The swapping loop -/

theorem partition_length (dim : Bool) (lim2 : Int) (n : Nat) (l : List Pt) : (partition dim lim2 n l).1.length + (partition dim lim2 n l).2.length = l.length := by
  induction n generalizing l with
  | zero => cases l <;> simp [partition]
  | succ n ih =>
    cases l with
    | nil => simp [partition]
    | cons x rest =>
      rcases List.eq_nil_or_concat rest with rfl | ⟨mid, z, rfl⟩
      · simp only [partition, List.getLast?_nil]
        split <;> simp
      · simp only [partition, List.concat_eq_append, List.getLast?_append, List.getLast?_singleton, Option.some_or, List.dropLast_concat]
        split
        · have := ih (z :: mid)
          simp only [List.length_append, List.length_cons, List.length_nil] at this ⊢
          omega
        · have := ih (mid ++ [z])
          simp only [List.length_append, List.length_cons, List.length_nil] at this ⊢
          omega

theorem swapLoop_spec (dim : Bool) (lim2 : Int) (base : Nat) : ∀ (d i : Nat) (A l B : List Pt), l.length = d + 1 → A.length = base + i →
    ∃ j p, swapLoop dim lim2 base d i (A ++ l ++ B) = .ok (A ++ ((partition dim lim2 (d + 1) l).1 ++ (partition dim lim2 (d + 1) l).2) ++ B, i + j) ∧
      ((partition dim lim2 (d + 1) l).1 ++ (partition dim lim2 (d + 1) l).2)[j]? = some p ∧
      (partition dim lim2 (d + 1) l).1.length = j + (if 2 * p.pos dim ≤ lim2 then 1 else 0) := by
  intro d
  induction d with
  | zero =>
    intro i A l B hl hA
    obtain ⟨x, rfl⟩ : ∃ x, l = [x] := List.length_eq_one_iff.mp (by omega)
    by_cases hx : 2 * x.pos dim ≤ lim2
    · exact ⟨0, x, by simp [swapLoop, partition, hx], by simp [partition, hx], by simp [partition, hx]⟩
    · exact ⟨0, x, by simp [swapLoop, partition, hx], by simp [partition, hx], by simp [partition, hx]⟩
  | succ d ih =>
    intro i A l B hl hA
    obtain ⟨x, rest, rfl⟩ : ∃ x rest, l = x :: rest := by
      cases l with
      | nil => simp at hl
      | cons x rest => exact ⟨x, rest, rfl⟩
    have hg : getP (A ++ (x :: rest) ++ B) (base + i) = .ok x := by
      apply getP_ok
      rw [← hA, List.append_assoc, List.getElem?_append_right (Nat.le_refl _)]
      simp
    rcases List.eq_nil_or_concat rest with rfl | ⟨mid, z, rfl⟩
    · simp at hl
    · rw [List.concat_eq_append] at *
      have hmid : mid.length = d := by simp at hl; omega
      by_cases hx : 2 * x.pos dim > lim2
      · have hpart : partition dim lim2 (d + 1 + 1) (x :: (mid ++ [z])) =
            ((partition dim lim2 (d + 1) (z :: mid)).1, (partition dim lim2 (d + 1) (z :: mid)).2 ++ [x]) := by
          rw [partition]
          simp only [List.getLast?_append, List.getLast?_singleton, Option.some_or, List.dropLast_concat, hx, if_true]
        obtain ⟨j, p, h1, h2, h3⟩ := ih i A (z :: mid) (x :: B) (by simp [hmid]) hA
        refine ⟨j, p, ?_, ?_, ?_⟩
        · rw [swapLoop, hg, Res.ok_bind, if_pos hx]
          have hz : getP (A ++ (x :: (mid ++ [z])) ++ B) (base + i + (d + 1)) = .ok z := by
            apply getP_ok
            rw [← hA, List.append_assoc, List.getElem?_append_right (by omega)]
            simp [← hmid]
          rw [hz, Res.ok_bind]
          have hset : ((A ++ (x :: (mid ++ [z])) ++ B).set (base + i + (d + 1)) x).set (base + i) z = A ++ (z :: mid) ++ (x :: B) := by
            rw [← hA, ← hmid, List.append_assoc, List.append_assoc, List.set_append_right _ _ (by omega)]
            rw [List.set_append_right _ _ (by omega)]
            simp
          rw [hset, h1, hpart]
          simp
        · rw [hpart]
          simp only
          rw [← List.append_assoc, List.getElem?_append_left]
          · exact h2
          · exact (List.getElem?_eq_some_iff.mp h2).1
        · rw [hpart]
          exact h3
      · have hpart : partition dim lim2 (d + 1 + 1) (x :: (mid ++ [z])) =
            (x :: (partition dim lim2 (d + 1) (mid ++ [z])).1, (partition dim lim2 (d + 1) (mid ++ [z])).2) := by
          rw [partition]
          simp only [List.getLast?_append, List.getLast?_singleton, Option.some_or, hx, if_false]
        obtain ⟨j, p, h1, h2, h3⟩ := ih (i + 1) (A ++ [x]) (mid ++ [z]) B (by simp [hmid]) (by simp; omega)
        refine ⟨j + 1, p, ?_, ?_, ?_⟩
        · rw [swapLoop, hg, Res.ok_bind, if_neg hx]
          have : A ++ x :: (mid ++ [z]) ++ B = A ++ [x] ++ (mid ++ [z]) ++ B := by simp
          rw [this, h1, hpart]
          simp [Nat.add_comm, Nat.add_left_comm]
        · rw [hpart]
          simpa using h2
        · rw [hpart]
          simp only [List.length_cons, h3]
          omega

/-- What `_fast3tree_sort_dim_pos` does to the array of points and what it returns, if the box is not flat. -/
theorem sortDimPos_spec {F : F32} {dim : Bool} {nd : Node} {pts : List Pt} (hr : nd.start + nd.num ≤ pts.length) (h0 : 0 < nd.num)
    (hne : nd.box.hi dim ≠ nd.box.lo dim) :
    let q := partition dim (F.int (nd.box.hi dim + nd.box.lo dim)) nd.num (slice pts nd.start nd.num)
    ∃ pts', sortDimPos F dim nd pts = .ok (pts', q.1.length) ∧ pts'.length = pts.length ∧ slice pts' nd.start nd.num = q.1 ++ q.2 ∧
      ∀ i, i < nd.start ∨ nd.start + nd.num ≤ i → pts'[i]? = pts[i]? := by
  intro q
  obtain ⟨A, B, hp, hA⟩ := slice_split hr
  have hl : (slice pts nd.start nd.num).length = nd.num := slice_length hr
  obtain ⟨n, hn⟩ : ∃ n, nd.num = n + 1 := ⟨nd.num - 1, by omega⟩
  obtain ⟨j, p, h1, h2, h3⟩ := swapLoop_spec dim (F.int (nd.box.hi dim + nd.box.lo dim)) nd.start n 0 A (slice pts nd.start nd.num) B (by omega) (by omega)
  rw [← hn] at h1 h2 h3
  have hq : q = partition dim (F.int (nd.box.hi dim + nd.box.lo dim)) nd.num (slice pts nd.start nd.num) := rfl
  rw [← hq] at h1 h2 h3
  have hql : (q.1 ++ q.2).length = nd.num := by
    rw [List.length_append, hq, partition_length, hl]
  refine ⟨A ++ (q.1 ++ q.2) ++ B, ?_, ?_, ?_, ?_⟩
  · rw [sortDimPos, if_neg hne, if_neg (by omega)]
    have hn1 : nd.num - 1 = n := by omega
    conv_lhs => rw [hp]
    simp only [hn1, h1, Res.ok_bind]
    have hg : getP (A ++ (q.1 ++ q.2) ++ B) (nd.start + (0 + j)) = .ok p := by
      apply getP_ok
      rw [← hA, List.append_assoc, List.getElem?_append_right (by omega), List.getElem?_append_left]
      · simpa using h2
      · have := (List.getElem?_eq_some_iff.mp h2).1
        simpa using this
    rw [hg, Res.ok_bind]
    by_cases hx : 2 * p.pos dim ≤ F.int (nd.box.hi dim + nd.box.lo dim)
    · rw [if_pos hx, h3, if_pos hx, Nat.zero_add]
    · rw [if_neg hx, h3, if_neg hx, Nat.zero_add, Nat.add_zero]
  · conv_rhs => rw [hp]
    simp only [List.length_append, hl] at hql ⊢
    omega
  · conv_lhs => rw [← hA, ← hql]
    exact slice_mid
  · intro i hi
    conv_rhs => rw [hp]
    rcases hi with hi | hi
    · have e : ∀ l : List Pt, (A ++ l ++ B)[i]? = A[i]? := by
        intro l
        rw [List.append_assoc, List.getElem?_append_left (by omega)]
      rw [e, e]
    · rw [List.getElem?_append_right (by simp only [List.length_append] at hql ⊢; omega), List.getElem?_append_right (by simp only [List.length_append, hl] at hql ⊢; omega)]
      simp only [List.length_append, hl] at hql ⊢
      congr 1
      omega

/-! ## The nodes -/

/-- The arrays hold the tree `t` below node `k`. -/
def Holds (m : Tab) : Nat → Tree → Prop
  | k, .leaf b ps => ∃ nd, m.nodes[k]? = some nd ∧ nd.div = none ∧ nd.box = b ∧ nd.start + nd.num ≤ m.pts.length ∧ slice m.pts nd.start nd.num = ps
  | k, .node b dim l r => ∃ nd nl nr, m.nodes[k]? = some nd ∧ nd.div = some dim ∧ nd.box = b ∧ m.nodes[nd.left]? = some nl ∧ m.nodes[nd.right]? = some nr ∧
      0 < nd.left ∧ 0 < nd.right ∧ nl.parent = k ∧ nr.parent = k ∧ nl.start = nd.start ∧ nr.start = nd.start + nl.num ∧ nd.num = nl.num + nr.num ∧ 0 < nl.num ∧ 0 < nr.num ∧
      Holds m nd.left l ∧ Holds m nd.right r

theorem Holds.node {m : Tab} {k : Nat} {t : Tree} (h : Holds m k t) : ∃ nd, m.nodes[k]? = some nd ∧ nd.box = t.box := by
  cases t with
  | leaf b ps =>
    obtain ⟨nd, h1, _, h3, _⟩ := h
    exact ⟨nd, h1, h3⟩
  | node b dim l r =>
    obtain ⟨nd, _, _, h1, _, h3, _⟩ := h
    exact ⟨nd, h1, h3⟩

/-- The points below a node are its range of the array of points. -/
theorem Holds.pts {m : Tab} {t : Tree} : ∀ {k : Nat} {nd : Node}, Holds m k t → m.nodes[k]? = some nd → nd.start + nd.num ≤ m.pts.length ∧ t.pts = slice m.pts nd.start nd.num := by
  induction t with
  | leaf b ps =>
    intro k nd h hn
    obtain ⟨nd', h1, _, _, h4, h5⟩ := h
    obtain rfl : nd' = nd := by simpa [h1] using hn
    exact ⟨h4, h5.symm⟩
  | node b dim l r ihl ihr =>
    intro k nd h hn
    obtain ⟨nd', nl, nr, h1, _, _, hl, hr, _, _, _, _, sl, sr, sn, _, _, Hl, Hr⟩ := h
    obtain rfl : nd' = nd := by simpa [h1] using hn
    obtain ⟨al, bl⟩ := ihl Hl hl
    obtain ⟨ar, br⟩ := ihr Hr hr
    refine ⟨by omega, ?_⟩
    rw [Tree.pts, bl, br, sn, sl, sr, slice_add]

/-- A tree stays if the points of its range and the nodes within its range stay. -/
theorem Holds.frame {m m' : Tab} (hlen : m'.pts.length = m.pts.length) {t : Tree} : ∀ {k : Nat} {nd : Node}, Holds m k t → m.nodes[k]? = some nd → 0 < nd.num →
    (∀ (j : Nat) (nj : Node), m.nodes[j]? = some nj → nd.start ≤ nj.start → nj.start + nj.num ≤ nd.start + nd.num → 0 < nj.num → m'.nodes[j]? = some nj) →
    (∀ i, nd.start ≤ i → i < nd.start + nd.num → m'.pts[i]? = m.pts[i]?) → Holds m' k t := by
  induction t with
  | leaf b ps =>
    intro k nd h hn h0 hN hP
    obtain ⟨nd', h1, h2, h3, h4, h5⟩ := h
    obtain rfl : nd' = nd := by simpa [h1] using hn
    exact ⟨nd', hN k nd' h1 (Nat.le_refl _) (Nat.le_refl _) h0, h2, h3, hlen ▸ h4, by rw [slice_ext hP, h5]⟩
  | node b dim l r ihl ihr =>
    intro k nd h hn h0 hN hP
    obtain ⟨nd', nl, nr, h1, h2, h3, hl, hr, z1, z2, p1, p2, sl, sr, sn, n1, n2, Hl, Hr⟩ := h
    obtain rfl : nd' = nd := by simpa [h1] using hn
    refine ⟨nd', nl, nr, hN k nd' h1 (Nat.le_refl _) (Nat.le_refl _) h0, h2, h3, hN _ _ hl (by omega) (by omega) n1, hN _ _ hr (by omega) (by omega) n2,
      z1, z2, p1, p2, sl, sr, sn, n1, n2, ?_, ?_⟩
    · exact ihl Hl hl n1 (fun j nj a b c d => hN j nj a (by omega) (by omega) d) (fun i a b => hP i (by omega) (by omega))
    · exact ihr Hr hr n2 (fun j nj a b c d => hN j nj a (by omega) (by omega) d) (fun i a b => hP i (by omega) (by omega))

/-! ## Splitting -/

theorem BState.node_ok {s : BState} {k : Nat} {nd : Node} {L : List Nat} (hL : s.heap.live.Perm (s.root :: L)) (h : s.tab.nodes[k]? = some nd) :
    s.node (s.root, k) = .ok nd := by
  have : s.root ∈ s.heap.live := hL.mem_iff.mpr (List.mem_cons_self ..)
  simp only [BState.node, this, and_self, if_true, Tab.node, h]

theorem BState.setNode_ok {s : BState} {k : Nat} {nd : Node} {L : List Nat} (hL : s.heap.live.Perm (s.root :: L)) (h : k < s.tab.nodes.length) :
    s.setNode (s.root, k) nd = .ok { s with tab := { s.tab with nodes := s.tab.nodes.set k nd } } := by
  have : s.root ∈ s.heap.live := hL.mem_iff.mpr (List.mem_cons_self ..)
  simp only [BState.setNode, this, and_self, if_true, Tab.setNode, h, Res.ok_bind]

theorem BState.realloc_ok {s : BState} {L : List Nat} (n : Nat) (hL : s.heap.live.Perm (s.root :: L)) :
    ∃ s', s.realloc n = .ok s' ∧ s'.tab = { s.tab with alloc := n } ∧ Leads s.heap s'.heap (s'.root :: L) := by
  obtain ⟨h1, e1, l1⟩ := C.free_leads hL
  refine ⟨{ tab := { s.tab with alloc := n }, root := (malloc h1).1, heap := (malloc h1).2 }, by simp only [BState.realloc, e1, Res.ok_bind], rfl, ?_⟩
  exact l1.trans (C.malloc_leads' l1.live)

theorem BState.room_ok {s : BState} {L : List Nat} (k : Nat) (hL : s.heap.live.Perm (s.root :: L)) (ha : s.tab.nodes.length ≤ s.tab.alloc) :
    ∃ s', s.room (s.root, k) = .ok (s', (s'.root, k)) ∧ s'.tab.pts = s.tab.pts ∧ s'.tab.nodes = s.tab.nodes ∧ s.tab.nodes.length + 2 ≤ s'.tab.alloc ∧
      Leads s.heap s'.heap (s'.root :: L) := by
  by_cases hc : s.tab.nodes.length + 2 > s.tab.alloc
  · obtain ⟨s', e, et, l⟩ := BState.realloc_ok (moreNodes s.tab.alloc) hL
    refine ⟨s', by simp only [BState.room, hc, if_true, e, Res.ok_bind], by rw [et], by rw [et], ?_, l⟩
    rw [et]
    simp only [moreNodes]
    omega
  · exact ⟨s, by simp only [BState.room, hc, if_false], rfl, rfl, by omega, Leads.refl hL⟩

theorem findMinmax_ok {pts : List Pt} {s n : Nat} (h : s + n ≤ pts.length) (h0 : 0 < n) : findMinmax pts s n = .ok (minmax (slice pts s n)) := by
  rw [findMinmax, if_neg (by omega), readPts_ok h, Res.ok_bind]

/-- What splitting node `k` leaves behind. -/
structure Split (F : F32) (fuel : Nat) (L : List Nat) (s : BState) (k : Nat) (nd : Node) (ps : List Pt) (s' : BState) : Prop where
  holds : Holds s'.tab k (build F fuel ps)
  leads : Leads s.heap s'.heap (s'.root :: L)
  room : s'.tab.nodes.length ≤ s'.tab.alloc
  len : s'.tab.pts.length = s.tab.pts.length
  points : ∀ i, i < nd.start ∨ nd.start + nd.num ≤ i → s'.tab.pts[i]? = s.tab.pts[i]?
  nodes : ∀ j, j ≠ k → j < s.tab.nodes.length → s'.tab.nodes[j]? = s.tab.nodes[j]?
  more : s.tab.nodes.length ≤ s'.tab.nodes.length
  self : ∃ nd', s'.tab.nodes[k]? = some nd' ∧ nd'.start = nd.start ∧ nd'.num = nd.num ∧ nd'.box = nd.box ∧ nd'.parent = nd.parent

theorem build_small {F : F32} {n : Nat} {ps : List Pt} (h : ¬ ps.length > 40) : build F n ps = .leaf (minmax ps) ps := by
  cases n with
  | zero => rfl
  | succ n => simp only [build, if_neg h]

/-- A small node is left alone, a large one split. -/
theorem Split.small {F : F32} {fuel : Nat} {L : List Nat} {s : BState} {k : Nat} {nd : Node} {ps : List Pt} (hL : s.heap.live.Perm (s.root :: L))
    (ha : s.tab.nodes.length ≤ s.tab.alloc) (hk : s.tab.nodes[k]? = some nd) (hd : nd.div = none) (hb : nd.box = minmax ps) (hr : nd.start + nd.num ≤ s.tab.pts.length)
    (hps : slice s.tab.pts nd.start nd.num = ps) (h : ¬ ps.length > 40) : Split F fuel L s k nd ps s := by
  refine ⟨?_, Leads.refl hL, ha, rfl, fun _ _ => rfl, fun _ _ _ => rfl, Nat.le_refl _, nd, hk, rfl, rfl, rfl, rfl⟩
  rw [build_small h]
  exact ⟨nd, hk, hd, hb, hr, hps⟩

theorem BState.addChildren_ok {s : BState} {L : List Nat} {k n : Nat} {nd : Node} {dim : Bool} (hL : s.heap.live.Perm (s.root :: L)) (ha : s.tab.nodes.length ≤ s.tab.alloc)
    (hk : k < s.tab.nodes.length) (hr : nd.start + nd.num ≤ s.tab.pts.length) (h0 : 0 < n) (hn : n < nd.num) :
    ∃ s', s.addChildren (s.root, k) nd dim n = .ok (s', s.tab.nodes.length) ∧ s'.tab.pts = s.tab.pts ∧
      s'.tab.nodes = s.tab.nodes.set k { nd with div := some dim, left := s.tab.nodes.length, right := s.tab.nodes.length + 1 } ++
        [⟨nd.start, n, none, minmax (slice s.tab.pts nd.start n), 0, 0, k⟩, ⟨nd.start + n, nd.num - n, none, minmax (slice s.tab.pts (nd.start + n) (nd.num - n)), 0, 0, k⟩] ∧
      s'.tab.nodes.length ≤ s'.tab.alloc ∧ Leads s.heap s'.heap (s'.root :: L) := by
  obtain ⟨s1, e1, p1, n1, a1, l1⟩ := BState.room_ok k hL ha
  have e2 := BState.setNode_ok (s := s1) (k := k) (nd := { nd with div := some dim, left := s.tab.nodes.length, right := s.tab.nodes.length + 1 }) l1.live (by rw [n1]; exact hk)
  rw [n1] at e2
  refine ⟨⟨⟨s1.tab.pts, s.tab.nodes.set k { nd with div := some dim, left := s.tab.nodes.length, right := s.tab.nodes.length + 1 } ++
        [⟨nd.start, n, none, minmax (slice s.tab.pts nd.start n), 0, 0, k⟩, ⟨nd.start + n, nd.num - n, none, minmax (slice s.tab.pts (nd.start + n) (nd.num - n)), 0, 0, k⟩], s1.tab.alloc⟩, s1.root, s1.heap⟩, ?_, ?_⟩
  · rw [BState.addChildren, e1, Res.ok_bind]
    simp only
    rw [p1, findMinmax_ok (by omega) h0, Res.ok_bind, findMinmax_ok (by omega) (by omega), Res.ok_bind, n1, e2, Res.ok_bind]
    simp only [Tab.push2, List.length_set, a1, if_true, Res.ok_bind, p1]
  · refine ⟨p1, rfl, ?_, l1⟩
    simp only [List.length_append, List.length_set, List.length_cons, List.length_nil]
    exact a1

/-- Continue with a child that is split only if it is large. -/
theorem Split.of_spec {F : F32} {fuel : Nat} {L : List Nat}
    (ih : ∀ (s : BState) (k : Nat) (nd : Node) (ps : List Pt), s.heap.live.Perm (s.root :: L) →
      s.tab.nodes.length ≤ s.tab.alloc → s.tab.nodes[k]? = some nd → nd.div = none → nd.box = minmax ps → nd.start + nd.num ≤ s.tab.pts.length →
      slice s.tab.pts nd.start nd.num = ps → ps.length > 40 → ps.length ≤ fuel → ∃ s', splitNode F fuel s (s.root, k) = .ok s' ∧ Split F fuel L s k nd ps s')
    {s : BState} {k : Nat} {nd : Node} {ps : List Pt} (hL : s.heap.live.Perm (s.root :: L))
    (ha : s.tab.nodes.length ≤ s.tab.alloc) (hk : s.tab.nodes[k]? = some nd) (hd : nd.div = none) (hb : nd.box = minmax ps) (hr : nd.start + nd.num ≤ s.tab.pts.length)
    (hps : slice s.tab.pts nd.start nd.num = ps) (hf : ps.length ≤ fuel) :
    ∃ s', (if nd.num > 40 then splitNode F fuel s (s.root, k) else .ok s) = .ok s' ∧ Split F fuel L s k nd ps s' := by
  have hnum : nd.num = ps.length := by rw [← hps, slice_length hr]
  by_cases hc : nd.num > 40
  · rw [if_pos hc]
    exact ih s k nd ps hL ha hk hd hb hr hps (by omega) hf
  · rw [if_neg hc]
    exact ⟨s, rfl, Split.small hL ha hk hd hb hr hps (by omega)⟩

theorem splitNode_spec (F : F32) (L : List Nat) : ∀ (fuel : Nat) (s : BState) (k : Nat) (nd : Node) (ps : List Pt), s.heap.live.Perm (s.root :: L) →
    s.tab.nodes.length ≤ s.tab.alloc → s.tab.nodes[k]? = some nd → nd.div = none → nd.box = minmax ps → nd.start + nd.num ≤ s.tab.pts.length →
    slice s.tab.pts nd.start nd.num = ps → ps.length > 40 → ps.length ≤ fuel → ∃ s', splitNode F fuel s (s.root, k) = .ok s' ∧ Split F fuel L s k nd ps s' := by
  intro fuel
  induction fuel with
  | zero =>
    intro s k nd ps _ _ _ _ _ _ _ h1 h2
    omega
  | succ fuel ih =>
    intro s k nd ps hL ha hk hd hb hr hps h40 hfuel
    have hnum : nd.num = ps.length := by rw [← hps, slice_length hr]
    have hklt : k < s.tab.nodes.length := (List.getElem?_eq_some_iff.mp hk).1
    rw [splitNode, BState.node_ok hL hk, Res.ok_bind]
    by_cases hflat : (minmax ps).hi (largestDim F (minmax ps)) = (minmax ps).lo (largestDim F (minmax ps))
    · have hsort : sortDimPos F (largestDim F nd.box) nd s.tab.pts = .ok (s.tab.pts, nd.num) := by
        rw [sortDimPos, hb, if_pos hflat]
      have hnd : ({ nd with div := none } : Node) = nd := by cases nd; simp_all
      have hset : s.tab.nodes.set k nd = s.tab.nodes := by
        obtain ⟨hlt, rfl⟩ := List.getElem?_eq_some_iff.mp hk
        exact List.set_getElem_self hlt
      refine ⟨s, ?_, ?_, Leads.refl hL, ha, rfl, fun _ _ => rfl, fun _ _ _ => rfl, Nat.le_refl _, nd, hk, rfl, rfl, rfl, rfl⟩
      · rw [hsort, Res.ok_bind]
        simp only [true_or, if_true, hnd]
        rw [BState.setNode_ok hL hklt, hset]
      · simp only [build, if_pos h40, if_pos hflat]
        exact ⟨nd, hk, hd, hb, hr, hps⟩
    · obtain ⟨pts', hsort, hlen, hsl, hout⟩ := sortDimPos_spec (F := F) (dim := largestDim F nd.box) hr (by omega) (by rw [hb]; exact hflat)
      rw [hb, hps] at hsort hsl
      rw [hnum] at hsort hsl
      have hpl := partition_length (largestDim F (minmax ps)) (F.int ((minmax ps).hi (largestDim F (minmax ps)) + (minmax ps).lo (largestDim F (minmax ps)))) ps.length ps
      have hbuild : build F (fuel + 1) ps = if (partition (largestDim F (minmax ps)) (F.int ((minmax ps).hi (largestDim F (minmax ps)) + (minmax ps).lo (largestDim F (minmax ps)))) ps.length ps).1 = [] ∨
          (partition (largestDim F (minmax ps)) (F.int ((minmax ps).hi (largestDim F (minmax ps)) + (minmax ps).lo (largestDim F (minmax ps)))) ps.length ps).2 = [] then
          .leaf (minmax ps) ((partition (largestDim F (minmax ps)) (F.int ((minmax ps).hi (largestDim F (minmax ps)) + (minmax ps).lo (largestDim F (minmax ps)))) ps.length ps).1 ++
            (partition (largestDim F (minmax ps)) (F.int ((minmax ps).hi (largestDim F (minmax ps)) + (minmax ps).lo (largestDim F (minmax ps)))) ps.length ps).2)
          else .node (minmax ps) (largestDim F (minmax ps)) (build F fuel (partition (largestDim F (minmax ps)) (F.int ((minmax ps).hi (largestDim F (minmax ps)) + (minmax ps).lo (largestDim F (minmax ps)))) ps.length ps).1)
            (build F fuel (partition (largestDim F (minmax ps)) (F.int ((minmax ps).hi (largestDim F (minmax ps)) + (minmax ps).lo (largestDim F (minmax ps)))) ps.length ps).2) := by
        simp only [build, if_pos h40, if_neg hflat]
      generalize hq : partition (largestDim F (minmax ps)) (F.int ((minmax ps).hi (largestDim F (minmax ps)) + (minmax ps).lo (largestDim F (minmax ps)))) ps.length ps = q at *
      rw [hb, hsort, Res.ok_bind]
      simp only
      by_cases hone : q.1.length = nd.num ∨ q.1.length = 0
      · have hor : q.1 = [] ∨ q.2 = [] := by
          rcases hone with h | h
          · right
            exact List.length_eq_zero_iff.mp (by omega)
          · left
            exact List.length_eq_zero_iff.mp h
        rw [if_pos hone, BState.setNode_ok (s := { s with tab := { s.tab with pts := pts' } }) hL hklt]
        refine ⟨_, rfl, ?_, Leads.refl hL, ?_, hlen, hout, ?_, ?_, ?_⟩
        · rw [hbuild, if_pos hor]
          exact ⟨_, List.getElem?_set_self hklt, rfl, rfl, by simpa only [hlen] using hr, by rw [← hsl, hnum]⟩
        · simpa using ha
        · intro j hj _
          exact List.getElem?_set_ne (Ne.symm hj)
        · simp
        · exact ⟨_, List.getElem?_set_self hklt, rfl, rfl, hb.symm, rfl⟩
      · have h1 : 0 < q.1.length := by omega
        have h2 : q.1.length < nd.num := by omega
        have hor : ¬ (q.1 = [] ∨ q.2 = []) := by
          rintro (h | h)
          · rw [h] at h1; simp at h1
          · rw [h] at hpl; simp at hpl; omega
        rw [if_neg hone]
        obtain ⟨s2, e2, p2, n2, a2, l2⟩ := BState.addChildren_ok (s := { s with tab := { s.tab with pts := pts' } }) (L := L) (k := k) (n := q.1.length) (nd := nd)
          (dim := largestDim F (minmax ps)) hL ha hklt (by simpa only [hlen] using hr) h1 h2
        simp only at p2 n2 l2
        have hsub : ps.length = q.1.length + q.2.length := hpl.symm
        have hsplit : slice pts' nd.start q.1.length = q.1 ∧ slice pts' (nd.start + q.1.length) (nd.num - q.1.length) = q.2 := by
          rw [hsub, slice_add] at hsl
          have hr2 : nd.num - q.1.length = q.2.length := by omega
          rw [hr2]
          exact List.append_inj hsl (by rw [slice_length (by omega)])
        rw [hsplit.1, hsplit.2] at n2
        rw [e2, Res.ok_bind]
        simp only
        have hli : s2.tab.nodes[s.tab.nodes.length]? = some ⟨nd.start, q.1.length, none, minmax q.1, 0, 0, k⟩ := by
          rw [n2, List.getElem?_append_right (by simp)]
          simp
        have hri : s2.tab.nodes[s.tab.nodes.length + 1]? = some ⟨nd.start + q.1.length, nd.num - q.1.length, none, minmax q.2, 0, 0, k⟩ := by
          rw [n2, List.getElem?_append_right (by simp)]
          simp
        have hki : s2.tab.nodes[k]? = some { nd with div := some (largestDim F (minmax ps)), left := s.tab.nodes.length, right := s.tab.nodes.length + 1 } := by
          rw [n2, List.getElem?_append_left (by simpa using hklt), List.getElem?_set_self hklt]
        have hlen2 : s2.tab.nodes.length = s.tab.nodes.length + 2 := by rw [n2]; simp
        rw [BState.node_ok l2.live hli, Res.ok_bind]
        obtain ⟨s3, e3, S3⟩ := Split.of_spec (ih) l2.live a2 hli rfl rfl (by rw [p2]; simp only; omega) (by rw [p2]; exact hsplit.1) (by omega)
        rw [e3, Res.ok_bind]
        have hri3 : s3.tab.nodes[s.tab.nodes.length + 1]? = some ⟨nd.start + q.1.length, nd.num - q.1.length, none, minmax q.2, 0, 0, k⟩ := by
          rw [S3.nodes _ (by omega) (by omega), hri]
        have hpts3 : slice s3.tab.pts (nd.start + q.1.length) (nd.num - q.1.length) = q.2 := by
          rw [← hsplit.2]
          apply slice_ext
          intro i hi _
          rw [S3.points i (Or.inr hi), p2]
        rw [BState.node_ok S3.leads.live hri3, Res.ok_bind]
        obtain ⟨s4, e4, S4⟩ := Split.of_spec (ih) S3.leads.live S3.room hri3 rfl rfl (by rw [S3.len, p2]; simp only; omega) hpts3 (by omega)
        refine ⟨s4, e4, ?_⟩
        obtain ⟨nl, hl3, sl1, sl2, sl3, sl4⟩ := S3.self
        obtain ⟨nr, hr4, sr1, sr2, sr3, sr4⟩ := S4.self
        simp only at sl1 sl2 sl3 sl4 sr1 sr2 sr3 sr4
        have more3 := S3.more
        have more4 := S4.more
        have hk4 : s4.tab.nodes[k]? = some { nd with div := some (largestDim F (minmax ps)), left := s.tab.nodes.length, right := s.tab.nodes.length + 1 } := by
          rw [S4.nodes k (by omega) (by omega), S3.nodes k (by omega) (by omega), hki]
        have hl4 : s4.tab.nodes[s.tab.nodes.length]? = some nl := by
          rw [S4.nodes _ (by omega) (by omega), hl3]
        refine ⟨?_, (l2.trans S3.leads).trans S4.leads, S4.room, by rw [S4.len, S3.len, p2, hlen], ?_, ?_, by omega, ?_⟩
        · rw [hbuild, if_neg hor]
          refine ⟨_, nl, nr, hk4, rfl, hb, hl4, hr4, by simp only; omega, by simp only; omega, sl4, sr4, sl1, by simp only; omega, by simp only; omega, by omega, by omega, ?_, S4.holds⟩
          refine Holds.frame (m := s3.tab) S4.len S3.holds hl3 (by omega) ?_ ?_
          · intro j nj hj b1 b2 b3
            rw [S4.nodes j ?_ (List.getElem?_eq_some_iff.mp hj).1, hj]
            rintro rfl
            rw [hri3] at hj
            obtain rfl := Option.some.inj hj
            simp only at b1 b2 b3
            omega
          · intro i b1 b2
            exact S4.points i (Or.inl (by simp only; omega))
        · intro i hi
          rw [S4.points i (by simp only; omega), S3.points i (by simp only; omega), p2, hout i (by omega)]
        · intro j hj hjl
          rw [S4.nodes j (by omega) (by omega), S3.nodes j (by omega) (by omega), n2, List.getElem?_append_left (by simpa using hjl), List.getElem?_set_ne (Ne.symm hj)]
        · exact ⟨_, hk4, rfl, rfl, rfl, rfl⟩

/-! ## Building -/

theorem buildMem_spec (F : F32) (ps : List Pt) (h : Heap) :
    ∃ s, buildMem F ps h = .ok s ∧ Holds s.tab 0 (init F ps) ∧ s.tab.nodes.length ≤ s.tab.alloc ∧ Leads h s.heap (s.root :: h.live) := by
  have hm := C.malloc_leads h
  have hs : ∃ s, (if ps.length > 40 then splitNode F ps.length ⟨⟨ps, [⟨0, ps.length, none, minmax ps, 0, 0, 0⟩], 3 + ps.length / 20⟩, (malloc h).1, (malloc h).2⟩ ((malloc h).1, 0)
      else .ok ⟨⟨ps, [⟨0, ps.length, none, minmax ps, 0, 0, 0⟩], 3 + ps.length / 20⟩, (malloc h).1, (malloc h).2⟩) = .ok s ∧
      Split F ps.length h.live ⟨⟨ps, [⟨0, ps.length, none, minmax ps, 0, 0, 0⟩], 3 + ps.length / 20⟩, (malloc h).1, (malloc h).2⟩ 0 ⟨0, ps.length, none, minmax ps, 0, 0, 0⟩ ps s :=
    Split.of_spec (splitNode_spec F h.live ps.length) (s := ⟨⟨ps, [⟨0, ps.length, none, minmax ps, 0, 0, 0⟩], 3 + ps.length / 20⟩, (malloc h).1, (malloc h).2⟩) (k := 0)
      (nd := ⟨0, ps.length, none, minmax ps, 0, 0, 0⟩) hm.live (by simp only [List.length_cons, List.length_nil]; omega) rfl rfl rfl (by simp) (by simp [slice]) (Nat.le_refl _)
  obtain ⟨s, e, S⟩ := hs
  obtain ⟨s', e', t', l'⟩ := BState.realloc_ok s.tab.nodes.length S.leads.live
  refine ⟨s', ?_, ?_, ?_, (hm.trans S.leads).trans l'⟩
  · simp only [buildMem]
    rw [e, Res.ok_bind, e']
  · obtain ⟨nd, hn, hs0, hn0, _⟩ := S.self
    simp only at hs0 hn0
    have H := S.holds
    rw [t']
    clear e t' l' e' S hn hs0 hn0
    unfold init
    generalize build F ps.length ps = t at H
    revert H
    generalize 0 = k
    induction t generalizing k with
    | leaf b qs => exact id
    | node b dim l r ihl ihr =>
      rintro ⟨nd, nl, nr, h1, h2, h3, h4, h5, h6, h7, h8, h9, h10, h11, h12, h13, h14, Hl, Hr⟩
      exact ⟨nd, nl, nr, h1, h2, h3, h4, h5, h6, h7, h8, h9, h10, h11, h12, h13, h14, ihl _ Hl, ihr _ Hr⟩
  · rw [t']

/-! ## Searching -/

/-- Levels of a tree. -/
def Tree.depth : Tree → Nat
  | .leaf _ _ => 1
  | .node _ _ l r => max l.depth r.depth + 1

theorem build_depth (F : F32) (n : Nat) (ps : List Pt) : (build F n ps).depth ≤ n + 1 := by
  induction n generalizing ps with
  | zero => simp [build, Tree.depth]
  | succ n ih =>
    rw [build]
    simp only
    split
    · split
      · simp [Tree.depth]
      · split
        · simp [Tree.depth]
        · simp only [Tree.depth]
          have := ih (partition (largestDim F (minmax ps)) (F.int ((minmax ps).hi (largestDim F (minmax ps)) + (minmax ps).lo (largestDim F (minmax ps)))) ps.length ps).1
          have := ih (partition (largestDim F (minmax ps)) (F.int ((minmax ps).hi (largestDim F (minmax ps)) + (minmax ps).lo (largestDim F (minmax ps)))) ps.length ps).2
          omega
    · simp [Tree.depth]

theorem Tab.node_ok {m : Tab} {k : Nat} {nd : Node} (h : m.nodes[k]? = some nd) : m.node k = .ok nd := by
  simp only [Tab.node, h]

/-- Node `o` is at the end of the path from node `k`, below which there is the tree. -/
def At (m : Tab) : List Bool → Tree → Nat → Nat → Prop
  | [], _, k, o => k = o
  | _ :: _, .leaf _ _, _, _ => False
  | b :: p, .node _ _ l r, k, o => ∃ nd, m.nodes[k]? = some nd ∧ (if b then At m p r nd.right o else At m p l nd.left o)

/-- Nodes further down have ranges inside, and fewer points. -/
theorem At.range {m : Tab} : ∀ {p : List Bool} {t : Tree} {k o : Nat} {nd : Node}, Holds m k t → At m p t k o → m.nodes[k]? = some nd →
    ∃ no, m.nodes[o]? = some no ∧ nd.start ≤ no.start ∧ no.start + no.num ≤ nd.start + nd.num ∧ (p ≠ [] → 0 < no.num ∧ no.num < nd.num) := by
  intro p
  induction p with
  | nil =>
    intro t k o nd H h hn
    obtain rfl : k = o := h
    exact ⟨nd, hn, Nat.le_refl _, Nat.le_refl _, fun h => absurd rfl h⟩
  | cons b p ih =>
    intro t k o nd H h hn
    cases t with
    | leaf b' ps => exact absurd h id
    | node b' dim l r =>
      obtain ⟨nd', h1, h2⟩ := h
      obtain rfl : nd' = nd := by simpa [h1] using hn
      obtain ⟨nd'', nl, nr, g1, _, _, hl, hr, _, _, _, _, sl, sr, sn, n1, n2, Hl, Hr⟩ := H
      obtain rfl : nd'' = nd' := by simpa [g1] using hn
      have key : ∀ {t' : Tree} {k' : Nat} {nc : Node}, Holds m k' t' → At m p t' k' o → m.nodes[k']? = some nc → 0 < nc.num → nd''.start ≤ nc.start →
          nc.start + nc.num ≤ nd''.start + nd''.num → nc.num < nd''.num →
          ∃ no, m.nodes[o]? = some no ∧ nd''.start ≤ no.start ∧ no.start + no.num ≤ nd''.start + nd''.num ∧ (b :: p ≠ [] → 0 < no.num ∧ no.num < nd''.num) := by
        intro t' k' nc H' h' hn' h0 a1 a2 a3
        obtain ⟨no, e, b1, b2, b3⟩ := ih H' h' hn'
        refine ⟨no, e, by omega, by omega, fun _ => ?_⟩
        by_cases hp : p = []
        · subst hp
          obtain rfl : k' = o := h'
          obtain rfl : nc = no := by simpa [hn'] using e
          exact ⟨h0, a3⟩
        · exact ⟨(b3 hp).1, by have := (b3 hp).2; omega⟩
      cases b
      · exact key Hl (by simpa using h2) hl n1 (by omega) (by omega) (by omega)
      · exact key Hr (by simpa using h2) hr n2 (by omega) (by omega) (by omega)

/-- Going down and up again leads to the starting node of the abstract search. -/
theorem start_spec (c : Int × Int) {m : Tab} {t : Tree} : ∀ {k fuel : Nat}, Holds m k t → t.depth ≤ fuel →
    ∃ e o j, descend c m fuel k = .ok e ∧ At m (startNode c t).1 t k o ∧ Holds m o (startNode c t).2 ∧ j < t.depth ∧
      ((startNode c t).1 = [] → ∀ f, ascend m (j + f) e = ascend m f k) ∧ ((startNode c t).1 ≠ [] → ∀ f, ascend m (j + (f + 1)) e = .ok o) := by
  induction t with
  | leaf b ps =>
    intro k fuel H hf
    obtain ⟨nd, h1, h2, _⟩ := id H
    obtain ⟨n, rfl⟩ : ∃ n, fuel = n + 1 := ⟨fuel - 1, by simp only [Tree.depth] at hf; omega⟩
    refine ⟨k, k, 0, ?_, rfl, H, by simp [Tree.depth], fun _ f => by rw [Nat.zero_add], fun h => absurd rfl h⟩
    rw [descend, Tab.node_ok h1, Res.ok_bind, h2]
  | node b dim l r ihl ihr =>
    intro k fuel H hf
    obtain ⟨nd, nl, nr, h1, h2, h3, hl, hr, z1, z2, p1, p2, sl, sr, sn, n1, n2, Hl, Hr⟩ := id H
    obtain ⟨n, rfl⟩ : ∃ n, fuel = n + 1 := ⟨fuel - 1, by simp only [Tree.depth] at hf; omega⟩
    simp only [Tree.depth] at hf
    have hbl : nl.box = l.box := by
      obtain ⟨x, hx, hb⟩ := Hl.node
      obtain rfl : x = nl := by simpa [hx] using hl
      exact hb
    have hbr : nr.box = r.box := by
      obtain ⟨x, hx, hb⟩ := Hr.node
      obtain rfl : x = nr := by simpa [hx] using hr
      exact hb
    -- one step up from a child
    have up : ∀ {kc : Nat} {nc : Node}, m.nodes[kc]? = some nc → 0 < kc → nc.parent = k → ∀ f, ascend m (f + 1) kc = if nc.box.lo dim = nc.box.hi dim then ascend m f k else .ok kc := by
      intro kc nc hc h0 hp f
      rw [ascend, if_neg (by omega), Tab.node_ok hc, Res.ok_bind, hp, Tab.node_ok h1, Res.ok_bind, h2]
    by_cases hside : coord c dim ≤ l.box.hi dim
    · obtain ⟨e, o, j, d1, a1, H1, j1, f1, g1⟩ := ihl Hl (by omega : l.depth ≤ n)
      have hdesc : descend c m (n + 1) k = .ok e := by
        rw [descend, Tab.node_ok h1, Res.ok_bind, h2]
        simp only
        rw [Tab.node_ok hl, Res.ok_bind, hbl, if_pos hside, d1]
      cases hsn : startNode c l with
      | mk path u =>
        rw [hsn] at a1 H1 f1 g1
        cases path with
        | nil =>
          obtain rfl : nd.left = o := a1
          by_cases hflat : l.box.lo dim = l.box.hi dim
          · have hst : startNode c (.node b dim l r) = ([], .node b dim l r) := by
              simp only [startNode, hside, decide_true, Bool.not_true, hsn, Bool.false_eq_true, if_false, if_pos hflat]
            refine ⟨e, k, j + 1, hdesc, by rw [hst]; rfl, by rw [hst]; exact H, by simp only [Tree.depth]; omega, fun _ f => ?_, fun h => absurd (by rw [hst]) h⟩
            have := f1 rfl (f + 1)
            rw [up hl z1 p1, hbl, if_pos hflat] at this
            rw [← this]
            congr 1
            omega
          · have hst : startNode c (.node b dim l r) = ([false], l) := by
              simp only [startNode, hside, decide_true, Bool.not_true, hsn, Bool.false_eq_true, if_false, if_neg hflat]
            refine ⟨e, nd.left, j, hdesc, by rw [hst]; exact ⟨nd, h1, rfl⟩, by rw [hst]; exact Hl, by simp only [Tree.depth]; omega, fun h => ?_, fun _ f => ?_⟩
            · rw [hst] at h
              simp at h
            · rw [f1 rfl (f + 1), up hl z1 p1, hbl, if_neg hflat]
        | cons q qs =>
          have hst : startNode c (.node b dim l r) = (false :: q :: qs, u) := by
            simp only [startNode, hside, decide_true, Bool.not_true, hsn, Bool.false_eq_true, if_false]
          refine ⟨e, o, j, hdesc, by rw [hst]; exact ⟨nd, h1, by simpa using a1⟩, by rw [hst]; exact H1, by simp only [Tree.depth]; omega, fun h => ?_, fun _ => g1 (by simp)⟩
          rw [hst] at h
          simp at h
    · obtain ⟨e, o, j, d1, a1, H1, j1, f1, g1⟩ := ihr Hr (by omega : r.depth ≤ n)
      have hdesc : descend c m (n + 1) k = .ok e := by
        rw [descend, Tab.node_ok h1, Res.ok_bind, h2]
        simp only
        rw [Tab.node_ok hl, Res.ok_bind, hbl, if_neg hside, d1]
      cases hsn : startNode c r with
      | mk path u =>
        rw [hsn] at a1 H1 f1 g1
        cases path with
        | nil =>
          obtain rfl : nd.right = o := a1
          by_cases hflat : r.box.lo dim = r.box.hi dim
          · have hst : startNode c (.node b dim l r) = ([], .node b dim l r) := by
              simp only [startNode, hside, decide_false, Bool.not_false, hsn, if_true, if_pos hflat]
            refine ⟨e, k, j + 1, hdesc, by rw [hst]; rfl, by rw [hst]; exact H, by simp only [Tree.depth]; omega, fun _ f => ?_, fun h => absurd (by rw [hst]) h⟩
            have := f1 rfl (f + 1)
            rw [up hr z2 p2, hbr, if_pos hflat] at this
            rw [← this]
            congr 1
            omega
          · have hst : startNode c (.node b dim l r) = ([true], r) := by
              simp only [startNode, hside, decide_false, Bool.not_false, hsn, if_true, if_neg hflat]
            refine ⟨e, nd.right, j, hdesc, by rw [hst]; exact ⟨nd, h1, rfl⟩, by rw [hst]; exact Hr, by simp only [Tree.depth]; omega, fun h => ?_, fun _ f => ?_⟩
            · rw [hst] at h
              simp at h
            · rw [f1 rfl (f + 1), up hr z2 p2, hbr, if_neg hflat]
        | cons q qs =>
          have hst : startNode c (.node b dim l r) = (true :: q :: qs, u) := by
            simp only [startNode, hside, decide_false, Bool.not_false, hsn, if_true]
          refine ⟨e, o, j, hdesc, by rw [hst]; exact ⟨nd, h1, by simpa using a1⟩, by rw [hst]; exact H1, by simp only [Tree.depth]; omega, fun h => ?_, fun _ => g1 (by simp)⟩
          rw [hst] at h
          simp at h

/-- The node to leave out, seen from node `k`: at the end of the path, or elsewhere. -/
def SkipOk (m : Tab) (o : Nat) (t : Tree) (k : Nat) : Option (List Bool) → Prop
  | some p => At m p t k o
  | none => ∃ nd no, m.nodes[k]? = some nd ∧ m.nodes[o]? = some no ∧ 0 < no.num ∧ 0 < nd.num ∧ (no.start + no.num ≤ nd.start ∨ nd.start + nd.num ≤ no.start)

theorem SkipOk.eq {m : Tab} {o k : Nat} {t : Tree} {skip : Option (List Bool)} (H : Holds m k t) (h : SkipOk m o t k skip) : decide (o = k) = decide (skip = some []) := by
  cases skip with
  | none =>
    obtain ⟨nd, no, h1, h2, h3, h4, h5⟩ := h
    have : o ≠ k := by
      rintro rfl
      obtain rfl : nd = no := by simpa [h1] using h2
      omega
    simp [this]
  | some p =>
    cases p with
    | nil =>
      obtain rfl : k = o := h
      simp
    | cons b p =>
      obtain ⟨nd, h1, _⟩ := H.node
      obtain ⟨no, h2, _, _, h3⟩ := At.range H h h1
      have : o ≠ k := by
        rintro rfl
        obtain rfl : nd = no := by simpa [h1] using h2
        have := (h3 (by simp)).2
        omega
      simp [this]

theorem SkipOk.child {m : Tab} {o k : Nat} {b : Box} {dim : Bool} {l r : Tree} {skip : Option (List Bool)} {nd : Node} (H : Holds m k (.node b dim l r)) (hn : m.nodes[k]? = some nd)
    (h : SkipOk m o (.node b dim l r) k skip) (hne : skip ≠ some []) :
    SkipOk m o l nd.left (skipIn false skip) ∧ SkipOk m o r nd.right (skipIn true skip) := by
  obtain ⟨nd', nl, nr, h1, h2, h3, hl, hr, z1, z2, p1, p2, sl, sr, sn, n1, n2, Hl, Hr⟩ := id H
  obtain rfl : nd' = nd := by simpa [h1] using hn
  cases skip with
  | none =>
    obtain ⟨nd, no, g1, g2, g3, g4, g5⟩ := h
    obtain rfl : nd' = nd := by simpa [g1] using hn.symm
    exact ⟨⟨nl, no, hl, g2, g3, n1, by omega⟩, ⟨nr, no, hr, g2, g3, n2, by omega⟩⟩
  | some p =>
    cases p with
    | nil => exact absurd rfl hne
    | cons s p =>
      obtain ⟨nd, g1, g2⟩ := h
      obtain rfl : nd' = nd := by simpa [g1] using hn.symm
      cases s
      · have g2 : At m p l nd'.left o := by simpa using g2
        refine ⟨by simpa [skipIn, SkipOk] using g2, ?_⟩
        obtain ⟨no, e, b1, b2, b3⟩ := At.range Hl g2 hl
        have hpos : 0 < no.num := by
          by_cases hp : p = []
          · subst hp
            obtain rfl : nd'.left = o := g2
            obtain rfl : nl = no := by simpa [hl] using e
            exact n1
          · exact (b3 hp).1
        simp only [skipIn, Bool.false_eq_true, if_false]
        exact ⟨nr, no, hr, e, hpos, n2, by omega⟩
      · have g2 : At m p r nd'.right o := by simpa using g2
        refine ⟨?_, by simpa [skipIn, SkipOk] using g2⟩
        obtain ⟨no, e, b1, b2, b3⟩ := At.range Hr g2 hr
        have hpos : 0 < no.num := by
          by_cases hp : p = []
          · subst hp
            obtain rfl : nd'.right = o := g2
            obtain rfl : nr = no := by simpa [hr] using e
            exact n2
          · exact (b3 hp).1
        simp only [skipIn, Bool.true_eq_false, if_false]
        exact ⟨nl, no, hl, e, hpos, n1, by omega⟩

theorem nextDistMem_spec (F : F32) (c : Int × Int) {m : Tab} {o : Nat} {t : Tree} : ∀ {k fuel : Nat} {skip : Option (List Bool)} {r : ℚ}, Holds m k t → t.depth ≤ fuel →
    SkipOk m o t k skip → nextDistMem F c m o fuel k r = .ok (nextDist F c skip r t) := by
  induction t with
  | leaf b ps =>
    intro k fuel skip r H hf hs
    have he := hs.eq H
    obtain ⟨nd, h1, h2, h3, h4, h5⟩ := id H
    obtain ⟨n, rfl⟩ : ∃ n, fuel = n + 1 := ⟨fuel - 1, by simp only [Tree.depth] at hf; omega⟩
    rw [nextDistMem, Tab.node_ok h1, Res.ok_bind, h2, he, h3, nextDist]
    simp only
    split
    · rfl
    · rw [readPts_ok h4, Res.ok_bind, h5]
  | node b dim l rt ihl ihr =>
    intro k fuel skip r H hf hs
    have he := hs.eq H
    obtain ⟨nd, nl, nr, h1, h2, h3, hl, hr, z1, z2, p1, p2, sl, sr, sn, n1, n2, Hl, Hr⟩ := id H
    obtain ⟨n, rfl⟩ : ∃ n, fuel = n + 1 := ⟨fuel - 1, by simp only [Tree.depth] at hf; omega⟩
    simp only [Tree.depth] at hf
    rw [nextDistMem, Tab.node_ok h1, Res.ok_bind, h2, he, h3, nextDist]
    simp only
    by_cases hc : (boxNotIntersect F b c (.fin r) || decide (skip = some [])) = true
    · rw [if_pos hc, if_pos hc]
    · rw [if_neg hc, if_neg hc]
      have hne : skip ≠ some [] := by
        intro h
        simp [h] at hc
      obtain ⟨cl, cr⟩ := SkipOk.child H h1 hs hne
      split
      · rw [ihr Hr (by omega) cr, Res.ok_bind, ihl Hl (by omega) cl]
      · rw [ihl Hl (by omega) cl, Res.ok_bind, ihr Hr (by omega) cr]

theorem nextClosestMem_spec (F : F32) (c : Int × Int) {m : Tab} {t : Tree} {fuel : Nat} (H : Holds m 0 t) (hf : t.depth ≤ fuel) :
    nextClosestMem F c fuel m = .ok (nextClosest F c t) := by
  obtain ⟨e, o, j, d1, a1, H1, j1, f1, g1⟩ := start_spec c H hf
  have hasc : ascend m fuel e = .ok o := by
    obtain ⟨f, rfl⟩ : ∃ f, fuel = j + (f + 1) := ⟨fuel - j - 1, by omega⟩
    by_cases hp : (startNode c t).1 = []
    · rw [f1 hp]
      rw [hp] at a1
      obtain rfl : 0 = o := a1
      rw [ascend, if_pos rfl]
    · exact g1 hp f
  obtain ⟨nd, hn, hb⟩ := H1.node
  obtain ⟨hr, hp⟩ := H1.pts hn
  rw [nextClosestMem, d1, Res.ok_bind, hasc, Res.ok_bind, Tab.node_ok hn, Res.ok_bind, readPts_ok hr, Res.ok_bind]
  have hsd : startDist F c (.leaf nd.box (slice m.pts nd.start nd.num)) = startDist F c (startNode c t).2 := by
    rw [← hp, hb]
    rfl
  rw [hsd]
  exact nextDistMem_spec F c H hf a1

/-! ## Results -/

/-- The array of results is as large as it says, and its block is in use besides the blocks `L`. -/
structure ResOk (L : List Nat) (x : Results × Heap) : Prop where
  le : x.1.points.length ≤ x.1.cap
  null : x.1.block = none → x.1.cap = 0
  live : x.2.live.Perm (x.1.block.toList ++ L)

theorem checkSpace_ok {L : List Nat} {x : Results × Heap} (n : Nat) (h : ResOk L x) :
    ∃ y, checkSpace n x = .ok y ∧ y.1.points = x.1.points ∧ x.1.points.length + n ≤ y.1.cap ∧ ResOk L y ∧ Leads x.2 y.2 (y.1.block.toList ++ L) := by
  by_cases hc : x.1.points.length + n > x.1.cap
  · obtain ⟨h1, e1, l1⟩ := C.freeOpt_leads h.live
    have l2 := C.malloc_leads' l1.live
    refine ⟨({ x.1 with cap := x.1.points.length + n + 1000, block := some (malloc h1).1 }, (malloc h1).2), ?_, rfl, by simp only; omega, ⟨by simp only; omega, by simp, l2.live⟩, l1.trans l2⟩
    rw [checkSpace, if_pos hc, e1, Res.ok_bind]
  · exact ⟨x, by rw [checkSpace, if_neg hc], rfl, by omega, h, Leads.refl h.live⟩

theorem pushPoint_ok {L : List Nat} {x : Results × Heap} (i : Nat) (h : ResOk L x) (hlt : x.1.points.length < x.1.cap) :
    pushPoint x i = .ok ({ x.1 with points := x.1.points ++ [i] }, x.2) ∧ ResOk L ({ x.1 with points := x.1.points ++ [i] }, x.2) := by
  refine ⟨?_, ⟨by simp only [List.length_append, List.length_cons, List.length_nil]; omega, h.null, h.live⟩⟩
  cases hb : x.1.block with
  | none => exact absurd (h.null hb) (by omega)
  | some b =>
    have hm : b ∈ x.2.live := h.live.mem_iff.mpr (by simp [hb])
    simp only [pushPoint, hb, hm, not_true_eq_false, if_false, hlt, if_true]

theorem pushAll_ok {L : List Nat} : ∀ (is : List Nat) {x : Results × Heap}, ResOk L x → x.1.points.length + is.length ≤ x.1.cap →
    foldRes pushPoint x is = .ok ({ x.1 with points := x.1.points ++ is }, x.2) ∧ ResOk L ({ x.1 with points := x.1.points ++ is }, x.2) := by
  intro is
  induction is with
  | nil =>
    intro x h _
    refine ⟨?_, ?_⟩
    · simp only [List.append_nil]
      rfl
    · simpa using h
  | cons i is ih =>
    intro x h hle
    simp only [List.length_cons] at hle
    obtain ⟨e1, o1⟩ := pushPoint_ok i h (by omega)
    obtain ⟨e2, o2⟩ := ih o1 (by simp only [List.length_append, List.length_cons, List.length_nil]; omega)
    simp only [List.append_assoc, List.cons_append, List.nil_append] at e2 o2
    exact ⟨foldRes_cons_ok.mpr ⟨_, e1, e2⟩, o2⟩

theorem pushNear_ok {F : F32} {c : Int × Int} {r : Flt} {m : Tab} {L : List Nat} : ∀ (n s : Nat) {x : Results × Heap}, ResOk L x → x.1.points.length + n ≤ x.1.cap →
    s + n ≤ m.pts.length → ∃ is, foldRes (pushNear F c r m) x (List.range' s n) = .ok ({ x.1 with points := x.1.points ++ is }, x.2) ∧
      ResOk L ({ x.1 with points := x.1.points ++ is }, x.2) ∧
      is.map (fun i => m.pts[i]?) = ((slice m.pts s n).filter (fun p => (F.fmul r r).ltInt (F.d2 p c))).map some := by
  intro n
  induction n with
  | zero =>
    intro s x h _ _
    refine ⟨[], ?_, by simpa using h, by simp [slice_zero]⟩
    simp only [List.append_nil]
    rfl
  | succ n ih =>
    intro s x h hle hs
    obtain ⟨p, hp⟩ : ∃ p, m.pts[s]? = some p := ⟨m.pts[s], List.getElem?_eq_getElem (by omega)⟩
    rw [List.range'_succ, slice_succ hp]
    by_cases hc : (F.fmul r r).ltInt (F.d2 p c) = true
    · obtain ⟨e1, o1⟩ := pushPoint_ok s h (by omega)
      obtain ⟨is, e2, o2, m2⟩ := ih (s + 1) o1 (by simp only [List.length_append, List.length_cons, List.length_nil]; omega) (by omega)
      simp only [List.append_assoc, List.cons_append, List.nil_append] at e2 o2
      refine ⟨s :: is, foldRes_cons_ok.mpr ⟨_, ?_, e2⟩, o2, ?_⟩
      · rw [pushNear, getP_ok hp, Res.ok_bind, if_pos hc, e1]
      · rw [List.filter_cons, if_pos hc, List.map_cons, List.map_cons, hp, m2]
    · obtain ⟨is, e2, o2, m2⟩ := ih (s + 1) h (by omega) (by omega)
      refine ⟨is, foldRes_cons_ok.mpr ⟨x, ?_, e2⟩, o2, ?_⟩
      · rw [pushNear, getP_ok hp, Res.ok_bind, if_neg hc]
      · rw [List.filter_cons, if_neg hc, m2]

theorem range_points {pts : List Pt} : ∀ (n s : Nat), s + n ≤ pts.length → (List.range' s n).map (fun i => pts[i]?) = (slice pts s n).map some := by
  intro n
  induction n with
  | zero =>
    intro s _
    simp [slice_zero]
  | succ n ih =>
    intro s hs
    obtain ⟨p, hp⟩ : ∃ p, pts[s]? = some p := ⟨pts[s], List.getElem?_eq_getElem (by omega)⟩
    rw [List.range'_succ, slice_succ hp, List.map_cons, List.map_cons, hp, ih (s + 1) (by omega)]

theorem findSphereMem_spec (F : F32) (c : Int × Int) (r : Flt) {m : Tab} {L : List Nat} {t : Tree} : ∀ {k fuel : Nat} {x : Results × Heap}, Holds m k t → t.depth ≤ fuel → ResOk L x →
    ∃ y is, findSphereMem F c r m fuel k x = .ok y ∧ y.1.points = x.1.points ++ is ∧ is.map (fun i => m.pts[i]?) = (findSphere F c r t).map some ∧ ResOk L y ∧
      Leads x.2 y.2 (y.1.block.toList ++ L) := by
  -- a box inside the sphere
  have inside : ∀ {n : Nat} {k : Nat} {t : Tree} {nd : Node} {x : Results × Heap}, Holds m k t → m.nodes[k]? = some nd → boxNotIntersect F nd.box c r = false →
      boxInside F nd.box c r = true → ResOk L x →
      ∃ y is, findSphereMem F c r m (n + 1) k x = .ok y ∧ y.1.points = x.1.points ++ is ∧ is.map (fun i => m.pts[i]?) = t.pts.map some ∧ ResOk L y ∧
        Leads x.2 y.2 (y.1.block.toList ++ L) := by
    intro n k t nd x H hn h1 h2 hx
    obtain ⟨hr, hp⟩ := H.pts hn
    obtain ⟨y, e1, p1, c1, o1, l1⟩ := checkSpace_ok nd.num hx
    obtain ⟨e2, o2⟩ := pushAll_ok (List.range' nd.start nd.num) o1 (by rw [p1, List.length_range']; exact c1)
    refine ⟨_, List.range' nd.start nd.num, ?_, by rw [p1], by rw [range_points _ _ hr, hp], o2, l1⟩
    rw [findSphereMem, Tab.node_ok hn, Res.ok_bind, h1, h2]
    simp only [Bool.false_eq_true, if_false, if_true]
    rw [e1, Res.ok_bind, e2]
  induction t with
  | leaf b ps =>
    intro k fuel x H hf hx
    obtain ⟨nd, h1, h2, h3, h4, h5⟩ := id H
    obtain ⟨n, rfl⟩ : ∃ n, fuel = n + 1 := ⟨fuel - 1, by simp only [Tree.depth] at hf; omega⟩
    rw [findSphere]
    by_cases ha : boxNotIntersect F b c r = true
    · refine ⟨x, [], ?_, by simp, by simp [ha], hx, Leads.refl hx.live⟩
      rw [findSphereMem, Tab.node_ok h1, Res.ok_bind, h3, if_pos ha]
    · by_cases hb : boxInside F b c r = true
      · rw [if_neg ha, if_pos hb]
        exact inside (n := n) H h1 (by rw [h3]; simpa using ha) (by rw [h3]; exact hb) hx
      · rw [if_neg ha, if_neg hb]
        obtain ⟨y, e1, p1, c1, o1, l1⟩ := checkSpace_ok nd.num hx
        obtain ⟨is, e2, o2, m2⟩ := pushNear_ok (F := F) (c := c) (r := r) (m := m) nd.num nd.start o1 (by rw [p1]; exact c1) h4
        refine ⟨_, is, ?_, by rw [p1], by rw [m2, h5], o2, l1⟩
        rw [findSphereMem, Tab.node_ok h1, Res.ok_bind, h3, if_neg ha, if_neg hb, h2]
        simp only
        rw [e1, Res.ok_bind, e2]
  | node b dim l rt ihl ihr =>
    intro k fuel x H hf hx
    obtain ⟨nd, nl, nr, h1, h2, h3, hl, hr, z1, z2, p1, p2, sl, sr, sn, n1, n2, Hl, Hr⟩ := id H
    obtain ⟨n, rfl⟩ : ∃ n, fuel = n + 1 := ⟨fuel - 1, by simp only [Tree.depth] at hf; omega⟩
    simp only [Tree.depth] at hf
    rw [findSphere]
    by_cases ha : boxNotIntersect F b c r = true
    · refine ⟨x, [], ?_, by simp, by simp [ha], hx, Leads.refl hx.live⟩
      rw [findSphereMem, Tab.node_ok h1, Res.ok_bind, h3, if_pos ha]
    · by_cases hb : boxInside F b c r = true
      · rw [if_neg ha, if_pos hb]
        exact inside (n := n) H h1 (by rw [h3]; simpa using ha) (by rw [h3]; exact hb) hx
      · rw [if_neg ha, if_neg hb]
        obtain ⟨y, is, e1, q1, m1, o1, l1⟩ := ihl Hl (by omega : l.depth ≤ n) hx
        obtain ⟨y', is', e2, q2, m2, o2, l2⟩ := ihr Hr (by omega : rt.depth ≤ n) o1
        refine ⟨y', is ++ is', ?_, by rw [q2, q1, List.append_assoc], by rw [List.map_append, List.map_append, m1, m2], o2, l1.trans l2⟩
        rw [findSphereMem, Tab.node_ok h1, Res.ok_bind, h3, if_neg ha, if_neg hb, h2]
        simp only
        rw [e1, Res.ok_bind, e2]

theorem growMem_spec (F : F32) (c : Int × Int) {depth : Nat} {m : Tab} {t : Tree} {r maxr : ℚ} {L : List Nat} (H : Holds m 0 t) (hd : t.depth ≤ depth) :
    ∀ {n : Nat} {fac : Flt} {x : Results × Heap} {res : List Pt}, ResOk L x → growLoop F c t r maxr n fac = some res →
    ∃ y, growMem F c depth m r maxr n fac x = .ok y ∧ y.1.points.map (fun i => m.pts[i]?) = res.map some ∧ ResOk L y ∧ Leads x.2 y.2 (y.1.block.toList ++ L) := by
  intro n
  induction n with
  | zero =>
    intro fac x res _ h
    simp [growLoop] at h
  | succ n ih =>
    intro fac x res hx h
    obtain ⟨h1, e1, l1⟩ := C.freeOpt_leads hx.live
    obtain ⟨y, is, e2, q2, m2, o2, l2⟩ := findSphereMem_spec F c (F.fmul (.fin r) (F.fgrow fac)) (L := L) H hd
      (x := (⟨[], 0, none⟩, h1)) ⟨by simp, by simp, by simpa using l1.live⟩
    rw [List.nil_append] at q2
    rw [growLoop] at h
    have hempty : y.1.points = [] ↔ findSphere F c (F.fmul (.fin r) (F.fgrow fac)) t = [] := by
      rw [q2, ← List.map_eq_nil_iff (f := fun i => m.pts[i]?), m2, List.map_eq_nil_iff]
    rw [growMem]
    rw [e1, Res.ok_bind, e2, Res.ok_bind]
    by_cases hc : findSphere F c (F.fmul (.fin r) (F.fgrow fac)) t = [] ∧ (F.fmul (.fin r) (F.fgrow fac)).le maxr = true
    · rw [if_pos hc] at h
      rw [if_pos ⟨hempty.mpr hc.1, hc.2⟩]
      obtain ⟨y', e3, m3, o3, l3⟩ := ih o2 h
      exact ⟨y', e3, m3, o3, (l1.trans l2).trans l3⟩
    · rw [if_neg hc] at h
      rw [if_neg (fun h' => hc ⟨hempty.mp h'.1, h'.2⟩)]
      obtain rfl := Option.some.inj h
      exact ⟨y, rfl, by rw [q2]; exact m2, o2, l1.trans l2⟩

theorem mapRes_getP {pts : List Pt} : ∀ {is : List Nat} {l : List Pt}, is.map (fun i => pts[i]?) = l.map some → mapRes (getP pts) is = .ok l := by
  intro is
  induction is with
  | nil =>
    intro l h
    cases l with
    | nil => rfl
    | cons p l => simp at h
  | cons i is ih =>
    intro l h
    cases l with
    | nil => simp at h
    | cons p l =>
      simp only [List.map_cons, List.cons.injEq] at h
      exact mapRes_ok_iff.mpr (List.Forall₂.cons (getP_ok h.1) (mapRes_ok_iff.mp (ih h.2)))

theorem pixelMem_spec {F : F32} {fuel depth : Nat} {m : Tab} {t : Tree} {root obj : Nat} {maxr : ℚ} {number s : Int} {c : Int × Int} {L : List Nat} {x : Results × Heap} {z : Bool}
    (H : Holds m 0 t) (hd : t.depth ≤ depth) (hx : ResOk L x) (h1 : root ∈ L) (h2 : obj ∈ L) (h : treeZero F fuel t maxr number s c = .ok z) :
    ∃ y, pixelMem F fuel depth m root obj maxr number s c x = .ok (z, y) ∧ ResOk L y ∧ Leads x.2 y.2 (y.1.block.toList ++ L) := by
  unfold treeZero at h
  unfold pixelMem
  by_cases ha : s = number
  · rw [if_pos ha] at h ⊢
    obtain rfl := Except.ok.inj h
    exact ⟨x, rfl, hx, Leads.refl hx.live⟩
  · rw [if_neg ha] at h ⊢
    by_cases hb : s > 0 ∧ s ≠ number
    · rw [if_pos hb] at h ⊢
      obtain rfl := Except.ok.inj h
      exact ⟨x, rfl, hx, Leads.refl hx.live⟩
    · rw [if_neg hb] at h ⊢
      have m1 : root ∈ x.2.live := hx.live.mem_iff.mpr (List.mem_append_right _ h1)
      have m2 : obj ∈ x.2.live := hx.live.mem_iff.mpr (List.mem_append_right _ h2)
      rw [if_neg (by simp [m1, m2])]
      rw [nextClosestMem_spec F c H hd, Res.ok_bind]
      cases hg : growLoop F c t (nextClosest F c t) maxr fuel (.fin F.fac0) with
      | none =>
        rw [hg] at h
        simp at h
      | some res =>
        rw [hg] at h
        simp only at h
        obtain ⟨y, e, my, oy, ly⟩ := growMem_spec F c H hd hx hg
        rw [e, Res.ok_bind, mapRes_getP my, Res.ok_bind]
        refine ⟨y, ?_, oy, ly⟩
        simp only
        split at h
        · rename_i hs
          rw [if_pos hs]
          obtain rfl := Except.ok.inj h
          rfl
        · rename_i hs
          rw [if_neg hs]
          obtain rfl := Except.ok.inj h
          rfl

theorem pixelsMem_spec {F : F32} {fuel depth : Nat} {m : Tab} {t : Tree} {root obj : Nat} {seg : Img Int} {number : Int} {L : List Nat} (H : Holds m 0 t) (hd : t.depth ≤ depth)
    (h1 : root ∈ L) (h2 : obj ∈ L) (hseg : seg.WF) (z : Nat → Bool)
    (hz : ∀ k < seg.nr * seg.nc, treeZero F fuel t (F.maxr seg.nr seg.nc) number (labelAt seg (k / seg.nc) (k % seg.nc)) (F.int (k / seg.nc : Nat), F.int (k % seg.nc : Nat)) = .ok (z k)) :
    ∀ {ks : List Nat} {w : Img ℚ} {x : Results × Heap}, (∀ k ∈ ks, k < seg.nr * seg.nc) → w.nr = seg.nr → w.nc = seg.nc → w.WF → ResOk L x →
    ∃ w' y, pixelsMem F fuel depth m root obj seg number ks (w, x) = .ok (w', y) ∧ w'.nr = w.nr ∧ w'.nc = w.nc ∧
      (∀ i < seg.nr * seg.nc, w'.flat[i]? = if i ∈ ks ∧ z i = true then some 0 else w.flat[i]?) ∧ w'.WF ∧ ResOk L y ∧ Leads x.2 y.2 (y.1.block.toList ++ L) := by
  intro ks
  induction ks with
  | nil =>
    intro w x _ hr hc hw hx
    exact ⟨w, x, rfl, rfl, rfl, fun i _ => by simp, hw, hx, Leads.refl hx.live⟩
  | cons k ks ih =>
    intro w x hk hr hc hw hx
    have hk0 : k < seg.nr * seg.nc := hk k (List.mem_cons_self ..)
    have hnc : 0 < seg.nc := Nat.pos_of_ne_zero (by intro h; rw [h] at hk0; simp at hk0)
    have ha : k / seg.nc < seg.nr := Nat.div_lt_of_lt_mul (by rw [Nat.mul_comm]; exact hk0)
    have hb : k % seg.nc < seg.nc := Nat.mod_lt _ hnc
    have hidx : k / seg.nc * seg.nc + k % seg.nc = k := by rw [Nat.mul_comm]; exact Nat.div_add_mod k seg.nc
    obtain ⟨v, hv⟩ := Img.get?_some_of_WF hseg ha hb
    have hlab : labelAt seg (k / seg.nc) (k % seg.nc) = v := by rw [labelAt, hv]; rfl
    obtain ⟨y, e, oy, ly⟩ := pixelMem_spec H hd hx h1 h2 (hz k hk0)
    rw [hlab] at e
    obtain ⟨w1, ew, wr, wc, wf, wp⟩ : ∃ w1, (if z k = true then setZero w (k / seg.nc) (k % seg.nc) else .ok w) = .ok w1 ∧ w1.nr = w.nr ∧ w1.nc = w.nc ∧ w1.WF ∧
        ∀ i < seg.nr * seg.nc, w1.flat[i]? = if i = k ∧ z i = true then some 0 else w.flat[i]? := by
      by_cases hzk : z k = true
      · refine ⟨{ w with flat := w.flat.set k 0 }, ?_, rfl, rfl, ?_, ?_⟩
        · rw [if_pos hzk, setZero, if_pos ⟨by omega, by omega⟩, hc, hidx]
        · show (w.flat.set k 0).length = _
          rw [List.length_set]
          exact hw
        · intro i hi
          show (w.flat.set k 0)[i]? = _
          by_cases hik : i = k
          · subst hik
            rw [List.getElem?_set_self (by rw [hw, hr, hc]; exact hi), if_pos ⟨rfl, hzk⟩]
          · rw [List.getElem?_set_ne (Ne.symm hik), if_neg (fun h => hik h.1)]
      · refine ⟨w, by rw [if_neg hzk], rfl, rfl, hw, fun i _ => ?_⟩
        rw [if_neg]
        rintro ⟨rfl, h⟩
        exact hzk h
    obtain ⟨w', y', e', r', c', f', wf', o', l'⟩ := ih (fun k hk' => hk k (List.mem_cons_of_mem _ hk')) (wr.trans hr) (wc.trans hc) wf oy
    refine ⟨w', y', ?_, r'.trans wr, c'.trans wc, fun i hi => ?_, wf', o', ly.trans l'⟩
    · rw [pixelsMem, hv]
      simp only
      rw [e, Res.ok_bind]
      simp only
      rw [ew, Res.ok_bind, e']
    · rw [f' i hi, wp i hi]
      by_cases hik : i = k
      · subst hik
        by_cases hzi : z i = true <;> simp [hzi]
      · simp [hik]

end Meds.Uberseg
