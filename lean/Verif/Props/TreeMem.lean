import Verif.Lemmas.TreeMem
import Verif.Props.UbersegFast

/-!
# Memory of the compiled uberseg (C105)

An access outside of an array, the use of a freed block, a second `free` and a call of `exit` are errors of the model (`Model/TreeMem`).  The theorems say that none of
them happens, that nothing stays allocated, and that the weights are those of the search tree without memory (`Model/Uberseg`), about which C31 and C32 are proved.
-/

namespace Meds.Uberseg
open Meds.C (Heap malloc free Leads)
open Spec

/-- **C105** `uberseg_tree` on arrays of one shape and positions inside of them, in any state of the heap: whenever the search itself comes to an end, the program runs without an
access outside of the arrays it has allocated, uses no block after it has been freed or moved, frees all of its blocks once, and leaves the weights of the search. -/
theorem C105_memory_safe {F : F32} {fuel : Nat} {seg : Img Int} {inds : List (Nat × Nat)} {weight u : Img ℚ} {number : Int} (hs : seg.WF) (hw : weight.WF)
    (hr : weight.nr = seg.nr) (hc : weight.nc = seg.nc) (hin : ∀ q ∈ inds, q.1 < seg.nr ∧ q.2 < seg.nc) (h : tree F fuel seg inds weight number = .ok u) (hp : Heap) :
    ∃ hp', treeMem F fuel seg inds weight number hp = .ok (u, hp') ∧ hp'.live.Perm hp.live ∧ (Fresh hp → Fresh hp') := by
  -- the points
  have hps : mapRes (pointMem F seg) inds = .ok (points F seg inds) := by
    rw [points]
    clear h
    induction inds with
    | nil => rfl
    | cons q qs ih =>
      refine mapRes_ok_iff.mpr (List.Forall₂.cons ?_ (mapRes_ok_iff.mp (ih (fun q hq => hin q (List.mem_cons_of_mem _ hq)))))
      obtain ⟨h1, h2⟩ := hin q (List.mem_cons_self ..)
      obtain ⟨v, hv⟩ := Img.get?_some_of_WF hs h1 h2
      simp only [pointMem, hv, labelAt, Option.getD_some]
  obtain ⟨z, hz, hu⟩ := Res.bind_eq_ok.mp h
  obtain rfl := Except.ok.inj hu
  obtain ⟨z1, z2, z3, z4⟩ := Img.ofFnRes_ok hz
  -- the blocks
  have l1 := C.malloc_leads hp
  have l2 := C.malloc_leads' l1.live
  obtain ⟨s, es, Hs, as, l3⟩ := buildMem_spec F (points F seg inds) (malloc (malloc hp).2).2
  have l3 := l3.perm (l2.live.cons _)
  have l4 := C.malloc_leads' l3.live
  have hd : (init F (points F seg inds)).depth ≤ (points F seg inds).length + 1 := build_depth F _ _
  have hzk : ∀ k < seg.nr * seg.nc, treeZero F fuel (init F (points F seg inds)) (F.maxr seg.nr seg.nc) number (labelAt seg (k / seg.nc) (k % seg.nc))
      (F.int (k / seg.nc : Nat), F.int (k % seg.nc : Nat)) = .ok ((z.get? (k / seg.nc) (k % seg.nc)).getD false) := by
    intro k hk
    have hnc : 0 < seg.nc := Nat.pos_of_ne_zero (by intro h; rw [h] at hk; simp at hk)
    obtain ⟨v, hv, hf⟩ := z4 (k / seg.nc) (k % seg.nc) (Nat.div_lt_of_lt_mul (by rw [Nat.mul_comm]; exact hk)) (Nat.mod_lt _ hnc)
    rw [hv]
    exact hf
  obtain ⟨w', y, ey, wr, wc, wf, wwf, oy, ly⟩ := pixelsMem_spec (root := s.root) (obj := (malloc hp).1) (L := (malloc s.heap).1 :: s.root :: (malloc (malloc hp).2).1 :: (malloc hp).1 :: hp.live) Hs hd
    (by simp) (by simp) hs _ hzk (ks := List.range (seg.nr * seg.nc)) (w := weight) (x := (⟨[], 0, none⟩, (malloc s.heap).2)) (by simp) hr hc hw ⟨by simp, by simp, by simpa using l4.live⟩
  -- freeing
  obtain ⟨g1, f1, m1⟩ := C.free_leads (h := y.2) (b := (malloc hp).1) (L := y.1.block.toList ++ (malloc s.heap).1 :: s.root :: (malloc (malloc hp).2).1 :: hp.live) (by
    refine oy.live.trans ?_
    refine List.Perm.trans (List.Perm.append_left _ ?_) (List.perm_middle)
    exact (List.perm_middle (l₁ := [(malloc s.heap).1, s.root, (malloc (malloc hp).2).1]))
    )
  obtain ⟨g2, f2, m2⟩ := C.free_leads (h := g1) (b := s.root) (L := y.1.block.toList ++ (malloc s.heap).1 :: (malloc (malloc hp).2).1 :: hp.live) (by
    refine m1.live.trans ?_
    refine List.Perm.trans (List.Perm.append_left _ ?_) (List.perm_middle)
    exact (List.perm_middle (l₁ := [(malloc s.heap).1])))
  obtain ⟨g3, f3, m3⟩ := C.free_leads (h := g2) (b := (malloc (malloc hp).2).1) (L := y.1.block.toList ++ (malloc s.heap).1 :: hp.live) (by
    refine m2.live.trans ?_
    refine List.Perm.trans (List.Perm.append_left _ ?_) (List.perm_middle)
    exact (List.perm_middle (l₁ := [(malloc s.heap).1])))
  obtain ⟨g4, f4, m4⟩ := C.freeOpt_leads (h := g3) (o := y.1.block) (L := (malloc s.heap).1 :: hp.live) m3.live
  obtain ⟨g5, f5, m5⟩ := C.free_leads m4.live
  refine ⟨g5, ?_, m5.live, fun hf => ?_⟩
  · have hw' : w' = MEDS.zeroWhere z weight := by
      have hlen : w'.flat.length = weight.flat.length := by rw [wwf, hw, wr, wc]
      have hflat : w'.flat = (MEDS.zeroWhere z weight).flat := by
        apply List.ext_getElem?
        intro i
        by_cases hi : i < seg.nr * seg.nc
        · rw [wf i hi]
          have hnc : 0 < seg.nc := Nat.pos_of_ne_zero (by intro h; rw [h] at hi; simp at hi)
          obtain ⟨v, hv, _⟩ := z4 (i / seg.nc) (i % seg.nc) (Nat.div_lt_of_lt_mul (by rw [Nat.mul_comm]; exact hi)) (Nat.mod_lt _ hnc)
          obtain ⟨a, ha⟩ : ∃ a, weight.flat[i]? = some a := ⟨weight.flat[i]'(by rw [hw, hr, hc]; exact hi), List.getElem?_eq_getElem _⟩
          show _ = (weight.flat.mapIdx _)[i]?
          rw [List.getElem?_mapIdx, ha, hc, hv]
          cases v <;> simp [hi, hv]
        · rw [List.getElem?_eq_none, List.getElem?_eq_none]
          · show (weight.flat.mapIdx _).length ≤ i
            rw [List.length_mapIdx, hw, hr, hc]
            omega
          · rw [wwf, wr, wc, hr, hc]
            omega
      cases w' with
      | mk a b f =>
        simp only at wr wc hflat
        subst wr wc hflat
        rfl
    rw [treeMem, hps]
    simp only [Res.ok_bind]
    rw [es]
    simp only [Res.ok_bind]
    rw [ey]
    simp only [Res.ok_bind]
    rw [f1]
    simp only [Res.ok_bind]
    rw [f2]
    simp only [Res.ok_bind]
    rw [f3]
    simp only [Res.ok_bind]
    rw [f4]
    simp only [Res.ok_bind]
    rw [f5, hw']
    rfl
  · exact m5.fresh (m4.fresh (m3.fresh (m2.fresh (m1.fresh (ly.fresh (l4.fresh (l3.fresh (l2.fresh (l1.fresh hf)))))))))

/-- **C105** The call from `get_uberseg`: for every seg map with whole labels and weights of its shape the compiled code returns, has made only accesses inside of its arrays, and
leaves the heap with the blocks it had before. -/
theorem C105_fast_returns {F : F32} {f32 : ℚ → ℚ} {fuel : Nat} (hF : F.Sound) (hfuel : enough ≤ fuel) {s w : Img ℚ} (hs : s.WF) (hw : w.WF) (hr : w.nr = s.nr) (hc : w.nc = s.nc)
    (hl : WholeLabels s) {number : Int} (hn : 0 < number) (hp : Heap) :
    ∃ u hp', fastLoopMem F f32 fuel s w number hp = .ok (u, hp') ∧ fastLoop F f32 fuel s w number = .ok u ∧ hp'.live.Perm hp.live ∧ (Fresh hp → Fresh hp') := by
  obtain ⟨u, hu, _⟩ := C31_tree_returns (f32 := f32) hF hfuel hs hw hr hc hl hn
  obtain ⟨hp', e, h1, h2⟩ := C105_memory_safe (F := F) (fuel := fuel) (seg := s.map truncZ) (inds := MEDS.where s (fun v => decide (v ≠ 0))) (weight := w.map f32) (number := number)
    (Img.map_WF hs _) (Img.map_WF hw _) hr hc (by
      rintro ⟨a, b⟩ hq
      obtain ⟨v, hv, _⟩ := MEDS.mem_where.mp hq
      exact (Img.get?_lt hv : a < s.nr ∧ b < s.nc)) hu hp
  exact ⟨u, hp', e, hu, h1, h2⟩

/-- **C105** The same through `get_uberseg(..., fast=True)`: it returns what the search without memory returns, whatever the heap holds when the compiled code is called. -/
theorem C105_get_uberseg {F : F32} {f32 : ℚ → ℚ} {fuel : Nat} (hF : F.Sound) (hfuel : enough ≤ fuel) {m : MEDS} {i k : Nat} {o : ObjRow} (hr : m.cat.rows[i]? = some o)
    (hpos : 0 < o.number) {cim s : Img ℚ} (hcw : m.getCweightCutout i k false = .ok cim) (hi : m.interpolateCoaddSeg i k = .ok s) (hl : WholeLabels s) (hp : Heap) :
    MEDS.getUbersegWith (fun seg w number => (fastLoopMem F f32 fuel seg w number hp).map Prod.fst) m i k = getUbersegFast F f32 fuel m i k := by
  obtain ⟨e1, e2, e3, e4⟩ := MEDS.uberseg_shapes hcw hi
  unfold getUbersegFast MEDS.getUbersegWith
  rw [hcw]; simp only [Res.ok_bind]
  rw [hi]; simp only [Res.ok_bind]
  split
  · rfl
  · unfold MEDS.numberColumn
    split
    · rw [show m.row (i : Int) = .ok o from pyGet_nat_some hr]
      simp only [Res.ok_bind]
      obtain ⟨u, hp', h1, h2, _⟩ := C105_fast_returns (f32 := f32) hF hfuel e4 e3 e1 e2 hl hpos hp
      rw [h1, h2]
      rfl
    · rfl

/-- **C105** The compiled code trusts the positions it is given: one outside of the seg map is an access outside of the array. -/
theorem C105_outside {F : F32} {fuel : Nat} {seg : Img Int} {inds : List (Nat × Nat)} {weight : Img ℚ} {number : Int} {q : Nat × Nat} (hq : q ∈ inds)
    (h : ¬ (q.1 < seg.nr ∧ q.2 < seg.nc)) (hp : Heap) : treeMem F fuel seg inds weight number hp = .error .indexError := by
  have : mapRes (pointMem F seg) inds = .error .indexError := by
    induction inds with
    | nil => simp at hq
    | cons p ps ih =>
      rw [mapRes]
      cases hp : pointMem F seg p with
      | error e =>
        have : e = .indexError := by
          unfold pointMem at hp
          split at hp
          · cases hp
          · injection hp with hp
            exact hp.symm
        subst this
        rfl
      | ok v =>
        simp only
        rw [ih]
        · rcases List.mem_cons.mp hq with rfl | hq
          · exfalso
            unfold pointMem Img.get? at hp
            rw [if_neg h] at hp
            cases hp
          · exact hq
  rw [treeMem, this]
  rfl

/-! ### Concrete cases -/

-- all blocks of the heap before, and no others
example : (treeMem exF 1032 (lineSeg.map truncZ) [(0, 0), (0, 3)] ⟨1, 4, [5, 6, 7, 8]⟩ 1 ⟨[3, 1], 7⟩).map (fun x => (x.1.flat, x.2)) = .ok ([5, 6, 0, 0], ⟨[3, 1], 16⟩) := by decide +kernel

/-- 41 points in a row and four further and further away. -/
def skewed : List Pt := ((List.range 41).map (fun (i : Nat) => (⟨0, (i : Int), 1⟩ : Pt))) ++ [⟨0, 2000, 2⟩, ⟨0, 900, 3⟩, ⟨0, 400, 3⟩, ⟨0, 100, 3⟩]

-- 11 nodes, where the first estimate was 5: the array of nodes has been moved while its nodes were split
example : ((buildMem exF skewed ⟨[], 0⟩).map (fun s => (s.tab.nodes.length, s.tab.alloc, s.root, s.heap.live))) = .ok (11, 11, 2, [2]) := by decide +kernel

/-- Outside an array there is an error. -/
example : setZero ⟨2, 3, [1, 1, 1, 1, 1, 1]⟩ 1 2 = .ok ⟨2, 3, [1, 1, 1, 1, 1, 0]⟩ ∧ setZero ⟨2, 3, [1, 1, 1, 1, 1, 1]⟩ 0 3 = .error .indexError ∧
    setZero ⟨2, 3, [1, 1, 1, 1, 1, 1]⟩ 2 0 = .error .indexError := ⟨rfl, rfl, rfl⟩

end Meds.Uberseg
