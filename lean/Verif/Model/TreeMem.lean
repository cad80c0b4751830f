import Verif.Model.Uberseg
import Verif.Model.CHeap

/-!
# The compiled uberseg with its arrays (/repo/meds/_uberseg.c, /repo/meds/fast3tree.c)

As `Model/Uberseg`, but the tree is what it is in C: one array of points that is reordered in place, one array of nodes that refer to each other by position and is
reallocated while it grows, and one array of results.  An access outside of the part of an array that was allocated, or to a node that was not written, is `indexError`;
`exit(1)` is `runtimeError`; the use of a block that has been freed is `unmodelled`.  `malloc` is taken to succeed, also for zero bytes.  All positions are finite, so that the loop that removes others (/repo/meds/fast3tree.c:739-748)
does nothing.
-/

namespace Meds.Uberseg

open Meds.C (Heap malloc free)

/-- `struct tree3_node` (/repo/meds/fast3tree.c:171-180): the points are the range `start`, ... of the array of points; `div` is `div_dim`, where `none` is -1; other nodes
are given by their position in the array of nodes (`null_ptr + index`, to which `_fast3tree_rebuild_pointers`, /repo/meds/fast3tree.c:716-726, adds the address of the array). -/
structure Node where
  start : Nat
  num : Nat
  div : Option Bool
  box : Box
  left : Nat
  right : Nat
  parent : Nat
deriving DecidableEq

/-- The arrays of a tree: the points, the nodes that have been written (`num_nodes` is their number), and the number of nodes there is room for. -/
structure Tab where
  pts : List Pt
  nodes : List Node
  alloc : Nat

/-- `p[i]`. -/
def getP (pts : List Pt) (i : Nat) : Res Pt :=
  match pts[i]? with
  | some p => .ok p
  | none => .error .indexError

/-- Points `start`, ..., `start + num - 1`. -/
def readPts (pts : List Pt) (start num : Nat) : Res (List Pt) :=
  if start + num ≤ pts.length then .ok ((pts.drop start).take num) else .error .indexError

/-- `t->root[k]`. -/
def Tab.node (m : Tab) (k : Nat) : Res Node :=
  match m.nodes[k]? with
  | some n => .ok n
  | none => .error .indexError

/-- Assignment to a node that is already in use. -/
def Tab.setNode (m : Tab) (k : Nat) (n : Node) : Res Tab :=
  if k < m.nodes.length then .ok { m with nodes := m.nodes.set k n } else .error .indexError

/-- Two new nodes behind those in use (/repo/meds/fast3tree.c:688-705). -/
def Tab.push2 (m : Tab) (a b : Node) : Res Tab :=
  if m.nodes.length + 2 ≤ m.alloc then .ok { m with nodes := m.nodes ++ [a, b] } else .error .indexError

/-- `_fast3tree_find_minmax` (/repo/meds/fast3tree.c:647-662), which leaves the program if there are no points. -/
def findMinmax (pts : List Pt) (start num : Nat) : Res Box :=
  if num = 0 then .error .runtimeError
  else do
    let l ← readPts pts start num
    .ok (minmax l)

/-- The swapping loop of `_fast3tree_sort_dim_pos` (/repo/meds/fast3tree.c:632-640): the first argument is `j - i`, which gets smaller by one in every turn.
Returns the array and the value of `i`, which is that of `j`, behind the loop. -/
def swapLoop (dim : Bool) (lim2 : Int) (base : Nat) : Nat → Nat → List Pt → Res (List Pt × Nat)
  | 0, i, pts => .ok (pts, i)
  | d + 1, i, pts => do
    let p ← getP pts (base + i)
    if 2 * p.pos dim > lim2 then do
      let q ← getP pts (base + i + (d + 1))
      swapLoop dim lim2 base d i ((pts.set (base + i + (d + 1)) p).set (base + i) q)
    else swapLoop dim lim2 base d (i + 1) pts

/-- `_fast3tree_sort_dim_pos` (/repo/meds/fast3tree.c:621-643) behind the choice of the dimension: the array and the number of points on the left. -/
def sortDimPos (F : F32) (dim : Bool) (nd : Node) (pts : List Pt) : Res (List Pt × Nat) :=
  if nd.box.hi dim = nd.box.lo dim then .ok (pts, nd.num)
  else if nd.num = 0 then .ok (pts, 0)
  else do
    let lim2 := F.int (nd.box.hi dim + nd.box.lo dim)
    let r ← swapLoop dim lim2 nd.start (nd.num - 1) 0 pts
    let p ← getP r.1 (nd.start + r.2)
    if 2 * p.pos dim ≤ lim2 then .ok (r.1, r.2 + 1) else .ok r

/-- The tree while it is built: the block of the array of nodes, and the blocks in use. -/
structure BState where
  tab : Tab
  root : Nat
  heap : Heap

/-- A pointer to a node while the tree is built: the block and the position in it. -/
abbrev NodePtr := Nat × Nat

/-- `*node`: the block has to be the one in use. -/
def BState.node (s : BState) (p : NodePtr) : Res Node :=
  if p.1 = s.root ∧ s.root ∈ s.heap.live then s.tab.node p.2 else .error .unmodelled

/-- Assignment to `*node`. -/
def BState.setNode (s : BState) (p : NodePtr) (n : Node) : Res BState :=
  if p.1 = s.root ∧ s.root ∈ s.heap.live then do
    let t ← s.tab.setNode p.2 n
    .ok { s with tab := t }
  else .error .unmodelled

/-- `realloc` of the array of nodes to another number of nodes (/repo/meds/fast3tree.c:684, 768, 794-801); the nodes are copied. -/
def BState.realloc (s : BState) (n : Nat) : Res BState := do
  let h ← free s.heap (some s.root)
  let b := malloc h
  .ok { tab := { s.tab with alloc := n }, root := b.1, heap := b.2 }

/-- `t->allocated_nodes*1.05 + 1000` as an integer (/repo/meds/fast3tree.c:683).  Simplification: exact arithmetic. -/
def moreNodes (a : Nat) : Nat := a + a / 20 + 1000

/-- Make room for two more nodes if there is none (/repo/meds/fast3tree.c:681-686); the second result is `node`, which is set anew if the array has been moved. -/
def BState.room (s : BState) (p : NodePtr) : Res (BState × NodePtr) :=
  if s.tab.nodes.length + 2 > s.tab.alloc then do
    let s ← s.realloc (moreNodes s.tab.alloc)
    .ok (s, (s.root, p.2))
  else .ok (s, p)

/-- The middle of `_fast3tree_split_node` (/repo/meds/fast3tree.c:681-705): two nodes behind the others for the first `n` and the remaining points of `*node`.
Returns `left_index` too. -/
def BState.addChildren (s : BState) (p : NodePtr) (nd : Node) (dim : Bool) (n : Nat) : Res (BState × Nat) := do
  let x ← s.room p
  let li := x.1.tab.nodes.length
  let bl ← findMinmax x.1.tab.pts nd.start n
  let br ← findMinmax x.1.tab.pts (nd.start + n) (nd.num - n)
  let y ← x.1.setNode x.2 { nd with div := some dim, left := li, right := li + 1 }
  let t ← y.tab.push2 ⟨nd.start, n, none, bl, 0, 0, x.2.2⟩ ⟨nd.start + n, nd.num - n, none, br, 0, 0, x.2.2⟩
  .ok ({ y with tab := t }, li)

/-- `_fast3tree_split_node` (/repo/meds/fast3tree.c:666-712).  The first argument bounds the recursion; the number of points is enough. -/
def splitNode (F : F32) : Nat → BState → NodePtr → Res BState
  | 0, _, _ => .error .unmodelled
  | fuel + 1, s, p => do
    let nd ← s.node p
    let r ← sortDimPos F (largestDim F nd.box) nd s.tab.pts
    let s1 := { s with tab := { s.tab with pts := r.1 } }
    if r.2 = nd.num ∨ r.2 = 0 then s1.setNode p { nd with div := none }
    else do
      let x ← s1.addChildren p nd (largestDim F nd.box) r.2
      let left : NodePtr := (x.1.root, x.2)
      let nl ← x.1.node left
      let s2 ← (if nl.num > 40 then splitNode F fuel x.1 left else .ok x.1)
      let right : NodePtr := (s2.root, x.2 + 1)
      let nr ← s2.node right
      if nr.num > 40 then splitNode F fuel s2 right else .ok s2

/-- `_fast3tree_build` (/repo/meds/fast3tree.c:730-771). -/
def buildMem (F : F32) (ps : List Pt) (h : Heap) : Res BState := do
  let b := malloc h
  let root : Node := ⟨0, ps.length, none, minmax ps, 0, 0, 0⟩
  let s : BState := { tab := { pts := ps, nodes := [root], alloc := 3 + ps.length / 20 }, root := b.1, heap := b.2 }
  let s ← (if ps.length > 40 then splitNode F ps.length s (s.root, 0) else .ok s)
  s.realloc s.tab.nodes.length

/-- `struct fast3tree_results` (/repo/meds/fast3tree.c:190-194): pointers to points, given by their positions, how many there is room for, and the block. -/
structure Results where
  points : List Nat
  cap : Nat
  block : Option Nat

/-- `_fast3tree_check_results_space` (/repo/meds/fast3tree.c:322-328). -/
def checkSpace (num : Nat) (x : Results × Heap) : Res (Results × Heap) :=
  if x.1.points.length + num > x.1.cap then do
    let h ← free x.2 x.1.block
    let b := malloc h
    .ok ({ x.1 with cap := x.1.points.length + num + 1000, block := some b.1 }, b.2)
  else .ok x

/-- `res->points[res->num_points] = ...; res->num_points++`. -/
def pushPoint (x : Results × Heap) (i : Nat) : Res (Results × Heap) :=
  match x.1.block with
  | none => .error .indexError
  | some b =>
    if b ∉ x.2.live then .error .unmodelled
    else if x.1.points.length < x.1.cap then .ok ({ x.1 with points := x.1.points ++ [i] }, x.2)
    else .error .indexError

/-- One turn of the loop over the points of a leaf (/repo/meds/fast3tree.c:349-361). -/
def pushNear (F : F32) (c : Int × Int) (r : Flt) (m : Tab) (x : Results × Heap) (i : Nat) : Res (Results × Heap) := do
  let p ← getP m.pts i
  if (F.fmul r r).ltInt (F.d2 p c) then pushPoint x i else .ok x

/-- `_fast3tree_find_sphere` (/repo/meds/fast3tree.c:332-367) of node `k`. -/
def findSphereMem (F : F32) (c : Int × Int) (r : Flt) (m : Tab) : Nat → Nat → Results × Heap → Res (Results × Heap)
  | 0, _, _ => .error .unmodelled
  | fuel + 1, k, x => do
    let nd ← m.node k
    if boxNotIntersect F nd.box c r then .ok x
    else if boxInside F nd.box c r then do
      let y ← checkSpace nd.num x
      foldRes pushPoint y (List.range' nd.start nd.num)
    else
      match nd.div with
      | none => do
        let y ← checkSpace nd.num x
        foldRes (pushNear F c r m) y (List.range' nd.start nd.num)
      | some _ => do
        let y ← findSphereMem F c r m fuel nd.left x
        findSphereMem F c r m fuel nd.right y

/-- Down to the leaf on the side of the query (/repo/meds/fast3tree.c:853-856). -/
def descend (c : Int × Int) (m : Tab) : Nat → Nat → Res Nat
  | 0, _ => .error .unmodelled
  | fuel + 1, k => do
    let nd ← m.node k
    match nd.div with
    | none => .ok k
    | some dim => do
      let l ← m.node nd.left
      if coord c dim ≤ l.box.hi dim then descend c m fuel nd.left else descend c m fuel nd.right

/-- Up again from nodes without extent along the dimension in which their parent was split (/repo/meds/fast3tree.c:858). -/
def ascend (m : Tab) : Nat → Nat → Res Nat
  | 0, _ => .error .unmodelled
  | fuel + 1, k =>
    if k = 0 then .ok k
    else do
      let nd ← m.node k
      let par ← m.node nd.parent
      match par.div with
      | none => .error .indexError
      | some dim => if nd.box.lo dim = nd.box.hi dim then ascend m fuel nd.parent else .ok k

/-- `_fast3tree_find_next_closest_dist` (/repo/meds/fast3tree.c:817-843) of node `k`; `o` is the node to leave out. -/
def nextDistMem (F : F32) (c : Int × Int) (m : Tab) (o : Nat) : Nat → Nat → ℚ → Res ℚ
  | 0, _, _ => .error .unmodelled
  | fuel + 1, k, r => do
    let nd ← m.node k
    if boxNotIntersect F nd.box c (.fin r) || decide (o = k) then .ok r
    else
      match nd.div with
      | none => do
        let ps ← readPts m.pts nd.start nd.num
        .ok (F.sqrt (shrink F c (F.mul r r) ps))
      | some dim =>
        if 2 * coord c dim > F.int (nd.box.lo dim + nd.box.hi dim) then do
          let r ← nextDistMem F c m o fuel nd.right r
          nextDistMem F c m o fuel nd.left r
        else do
          let r ← nextDistMem F c m o fuel nd.left r
          nextDistMem F c m o fuel nd.right r

/-- `fast3tree_find_next_closest_distance` (/repo/meds/fast3tree.c:848-877). -/
def nextClosestMem (F : F32) (c : Int × Int) (fuel : Nat) (m : Tab) : Res ℚ := do
  let leaf ← descend c m fuel 0
  let o ← ascend m fuel leaf
  let nd ← m.node o
  let ps ← readPts m.pts nd.start nd.num
  nextDistMem F c m o fuel 0 (F.sqrt (startDist F c (.leaf nd.box ps)))

/-- The do-while loop that grows the sphere until it holds a point (/repo/meds/_uberseg.c:147-152) with `fast3tree_results_clear` and `fast3tree_find_sphere`
(/repo/meds/fast3tree.c:425-428, 593-596). -/
def growMem (F : F32) (c : Int × Int) (depth : Nat) (m : Tab) (r maxr : ℚ) : Nat → Flt → Results × Heap → Res (Results × Heap)
  | 0, _, _ => .error .unmodelled
  | n + 1, fac, x => do
    let fac' := F.fgrow fac
    let rf := F.fmul (.fin r) fac'
    let h ← free x.2 x.1.block
    let y ← findSphereMem F c rf m depth 0 (⟨[], 0, none⟩, h)
    if y.1.points = [] ∧ rf.le maxr = true then growMem F c depth m r maxr n fac' y
    else .ok y

/-- `*ptrw = 0.0` (/repo/meds/_uberseg.c:138-139, 170-172). -/
def setZero (w : Img ℚ) (x y : Nat) : Res (Img ℚ) :=
  if x < w.nr ∧ y < w.nc then .ok { w with flat := w.flat.set (x * w.nc + y) 0 } else .error .indexError

/-- One pixel of `uberseg_tree` (/repo/meds/_uberseg.c:132-173).  The array of nodes and the array of points (block `obj`) have to be in use; nothing but the array of
results is freed while the pixel is treated. -/
def pixelMem (F : F32) (fuel depth : Nat) (m : Tab) (root obj : Nat) (maxr : ℚ) (number s : Int) (c : Int × Int) (x : Results × Heap) : Res (Bool × (Results × Heap)) :=
  if s = number then .ok (false, x)
  else if s > 0 ∧ s ≠ number then .ok (true, x)
  else if root ∉ x.2.live ∨ obj ∉ x.2.live then .error .unmodelled
  else do
    let r ← nextClosestMem F c depth m
    let y ← growMem F c depth m r maxr fuel (.fin F.fac0) x
    let found ← mapRes (getP m.pts) y.1.points
    let segmin := (found.foldl (pick F c) (-1, 0)).1
    if segmin = -1 then .ok (false, y) else .ok (decide (segmin ≠ number), y)

/-- The loop over the pixels (/repo/meds/_uberseg.c:129-175): the weights change in place. -/
def pixelsMem (F : F32) (fuel depth : Nat) (m : Tab) (root obj : Nat) (seg : Img Int) (number : Int) :
    List Nat → Img ℚ × (Results × Heap) → Res (Img ℚ × (Results × Heap))
  | [], x => .ok x
  | k :: ks, x =>
    match seg.get? (k / seg.nc) (k % seg.nc) with
    | none => .error .indexError
    | some v => do
      let a ← pixelMem F fuel depth m root obj (F.maxr seg.nr seg.nc) number v (F.int (k / seg.nc : Nat), F.int (k % seg.nc : Nat)) x.2
      let w ← (if a.1 then setZero x.1 (k / seg.nc) (k % seg.nc) else .ok x.1)
      pixelsMem F fuel depth m root obj seg number ks (w, a.2)

/-- A labelled pixel as it is put in the array of points (/repo/meds/_uberseg.c:111-119); a position outside of the stamp is an access outside of the array. -/
def pointMem (F : F32) (seg : Img Int) (q : Nat × Nat) : Res Pt :=
  match seg.get? q.1 q.2 with
  | some v => .ok ⟨F.int q.1, F.int q.2, v⟩
  | none => .error .indexError

/-- `uberseg_tree` (/repo/meds/_uberseg.c:84-184) with `fast3tree_init`, `fast3tree_results_init`, `fast3tree_free` and `fast3tree_results_free`
(/repo/meds/fast3tree.c:213-226, 234-242, 415-423, 599-604): the weights and the blocks in use afterwards. -/
def treeMem (F : F32) (fuel : Nat) (seg : Img Int) (inds : List (Nat × Nat)) (weight : Img ℚ) (number : Int) (h : Heap) : Res (Img ℚ × Heap) := do
  let obj := malloc h
  let ps ← mapRes (pointMem F seg) inds
  let tree := malloc obj.2
  let s ← buildMem F ps tree.2
  let res := malloc s.heap
  let r ← pixelsMem F fuel (ps.length + 1) s.tab s.root obj.1 seg number (List.range (seg.nr * seg.nc)) (weight, (⟨[], 0, none⟩, res.2))
  let h ← free r.2.2 (some obj.1)
  let h ← free h (some s.root)
  let h ← free h (some tree.1)
  let h ← free h r.2.1.block
  let h ← free h (some res.1)
  .ok (r.1, h)

/-- The call of the compiled code in `get_uberseg` (/repo/meds/meds.py:474-493), as `fastLoop`. -/
def fastLoopMem (F : F32) (f32 : ℚ → ℚ) (fuel : Nat) (seg weight : Img ℚ) (number : Int) (h : Heap) : Res (Img ℚ × Heap) :=
  treeMem F fuel (seg.map truncZ) (MEDS.where seg (fun v => decide (v ≠ 0))) (weight.map f32) number h

end Meds.Uberseg
