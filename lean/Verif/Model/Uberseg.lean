import Verif.Model.Composite
import Mathlib.Data.Int.Log

/-!
# The compiled uberseg (/repo/meds/_uberseg.c, /repo/meds/fast3tree.c)

Pixel positions, differences and squared distances are `float`s in the tree version; their values are integers (a `float` operation on integers that
does not overflow gives an integer), so they are integers here, and each operation on them is followed by the rounding `F32.int`.  The search radius and its growth are `float`s: their
operations are parameters too, with overflow to infinity and NaN as values.  `float` expressions are taken to be evaluated in `float`, without fused operations.  The arrays of the tree and of the results, with `malloc`, `realloc` and `free`, are in `Model/TreeMem`; the functions of fast3tree.c that uberseg does not call are not modelled.
-/

namespace Meds.Uberseg

/-- A `float` that may have overflowed (infinity) or be undefined (NaN). -/
inductive Flt where
  | fin (q : ℚ)
  | inf
  | nan
deriving DecidableEq

/-- Largest finite `float`. -/
def fltMax : ℚ := (2 - 1 / 2 ^ 23) * 2 ^ 127

/-- The rounded operations, as far as the code uses them. -/
structure F32 where
  /-- the result of a conversion, difference, product or sum whose exact result is this integer -/
  int : Int → Int
  /-- product of two floats -/
  mul : ℚ → ℚ → ℚ
  /-- `fac *= 1.1` -/
  grow : ℚ → ℚ
  /-- `fac = 1.0/1.1` -/
  fac0 : ℚ
  /-- `sqrt`, converted to float -/
  sqrt : ℚ → ℚ
  /-- `1.1*sqrt(Nx*Nx+Ny*Ny)` -/
  maxr : Nat → Nat → ℚ

/-- Overflow. -/
def Flt.ofRat (q : ℚ) : Flt := if fltMax < q then .inf else .fin q

namespace F32

/-- Product of non-negative floats with overflow; zero times infinity is NaN. -/
def fmul (F : F32) : Flt → Flt → Flt
  | .fin x, .fin y => Flt.ofRat (F.mul x y)
  | .fin x, .inf => if x = 0 then .nan else .inf
  | .inf, .fin y => if y = 0 then .nan else .inf
  | .inf, .inf => .inf
  | _, _ => .nan

/-- `fac *= 1.1` with overflow. -/
def fgrow (F : F32) : Flt → Flt
  | .fin x => Flt.ofRat (F.grow x)
  | x => x

end F32

/-- `d >= x`; false for NaN. -/
def Flt.geInt (d : Int) : Flt → Bool
  | .fin q => decide (q ≤ d)
  | _ => false

/-- `d > x`; false for NaN. -/
def Flt.gtInt (d : Int) : Flt → Bool
  | .fin q => decide (q < d)
  | _ => false

/-- `d < x`; false for NaN. -/
def Flt.ltInt (d : Int) : Flt → Bool
  | .fin q => decide ((d : ℚ) < q)
  | .inf => true
  | .nan => false

/-- `x <= m` for a finite `m`; false for NaN. -/
def Flt.le (x : Flt) (m : ℚ) : Bool :=
  match x with
  | .fin q => decide (q ≤ m)
  | _ => false

/-- `struct mytype` (/repo/meds/_uberseg.c:79) without the unused index. -/
structure Pt where
  x : Int
  y : Int
  seg : Int
deriving DecidableEq

/-- Coordinate 0 (`false`) or 1 (`true`). -/
def Pt.pos (p : Pt) (dim : Bool) : Int := if dim then p.y else p.x

/-- The rounded square of a difference, `dx*dx`. -/
def F32.sq (F : F32) (dx : Int) : Int := F.int (F.int dx * F.int dx)

/-- Squared distance of a point from the query position: `dx = c[j]-pos[j]; dist += dx*dx` (/repo/meds/fast3tree.c:350-356, 826-831, 868-871). -/
def F32.d2 (F : F32) (p : Pt) (c : Int × Int) : Int := F.int (F.sq (c.1 - p.x) + F.sq (c.2 - p.y))

/-- `min[2]`, `max[2]` of a node. -/
structure Box where
  min0 : Int
  max0 : Int
  min1 : Int
  max1 : Int
deriving DecidableEq

def Box.lo (b : Box) (dim : Bool) : Int := if dim then b.min1 else b.min0
def Box.hi (b : Box) (dim : Bool) : Int := if dim then b.max1 else b.max0

/-- One step of `_fast3tree_find_minmax` (/repo/meds/fast3tree.c:656-662). -/
def Box.add (b : Box) (p : Pt) : Box :=
  { min0 := if p.x < b.min0 then p.x else b.min0
    max0 := if p.x < b.min0 then b.max0 else if p.x > b.max0 then p.x else b.max0
    min1 := if p.y < b.min1 then p.y else b.min1
    max1 := if p.y < b.min1 then b.max1 else if p.y > b.max1 then p.y else b.max1 }

/-- `_fast3tree_find_minmax` (/repo/meds/fast3tree.c:647-662); an empty root keeps the zeros of `memset` (/repo/meds/fast3tree.c:751-755). -/
def minmax : List Pt → Box
  | [] => ⟨0, 0, 0, 0⟩
  | p :: ps => ps.foldl Box.add ⟨p.x, p.x, p.y, p.y⟩

/-- A subtree (`struct tree3_node`); the points of an inner node are those of its children, left first, because children are adjacent ranges of one array. -/
inductive Tree where
  | leaf (b : Box) (pts : List Pt)
  | node (b : Box) (dim : Bool) (l r : Tree)

def Tree.pts : Tree → List Pt
  | .leaf _ ps => ps
  | .node _ _ l r => l.pts ++ r.pts

def Tree.box : Tree → Box
  | .leaf b _ => b
  | .node b _ _ _ => b

/-- `_fast3tree_find_largest_dim` (/repo/meds/fast3tree.c:609-617) for two dimensions: the last one unless the first is strictly larger. -/
def largestDim (F : F32) (b : Box) : Bool := !decide (F.int (b.max0 - b.min0) > F.int (b.max1 - b.min1))

/-- The swapping loop of `_fast3tree_sort_dim_pos` (/repo/meds/fast3tree.c:632-641): what ends up left and right of the limit, in array order.
`lim2` is twice the limit `0.5*(max+min)` (halving is exact).  The first argument bounds the recursion; the length of the list is enough. -/
def partition (dim : Bool) (lim2 : Int) : Nat → List Pt → List Pt × List Pt
  | _, [] => ([], [])
  | 0, l => (l, [])
  | n + 1, x :: rest =>
    match rest.getLast? with
    | none => if 2 * x.pos dim ≤ lim2 then ([x], []) else ([], [x])
    | some z =>
      if 2 * x.pos dim > lim2 then
        let (a, b) := partition dim lim2 n (z :: rest.dropLast)
        (a, b ++ [x])
      else
        let (a, b) := partition dim lim2 n rest
        (x :: a, b)

/-- `_fast3tree_split_node` and the test that leads to it (/repo/meds/fast3tree.c:666-712, 765-766): more than 40 points are split at the middle of the
longer side, unless all of them would end up on one side.  The first argument bounds the recursion; the number of points is enough. -/
def build (F : F32) : Nat → List Pt → Tree
  | 0, ps => .leaf (minmax ps) ps
  | n + 1, ps =>
    let b := minmax ps
    if ps.length > 40 then
      let dim := largestDim F b
      if b.hi dim = b.lo dim then .leaf b ps
      else
        let (l, r) := partition dim (F.int (b.hi dim + b.lo dim)) ps.length ps
        if l = [] ∨ r = [] then .leaf b (l ++ r)
        else .node b dim (build F n l) (build F n r)
    else .leaf b ps

/-- `fast3tree_init`, `_fast3tree_build` (/repo/meds/fast3tree.c:213-226, 730-771).  All positions are finite. -/
def init (F : F32) (ps : List Pt) : Tree := build F ps.length ps

/-- Squared distance from an interval if outside of it (/repo/meds/fast3tree.c:279-285). -/
def axisGap (F : F32) (c mn mx : Int) : Option Int :=
  if F.int (c - mn) < 0 then some (F.sq (c - mn))
  else if F.int (c - mx) > 0 then some (F.sq (c - mx))
  else none

/-- `_fast3tree_box_not_intersect_sphere` (/repo/meds/fast3tree.c:274-288). -/
def boxNotIntersect (F : F32) (b : Box) (c : Int × Int) (r : Flt) : Bool :=
  let r2 := F.fmul r r
  match axisGap F c.1 b.min0 b.max0, axisGap F c.2 b.min1 b.max1 with
  | some d0, some d1 => r2.geInt d0 || r2.geInt (F.int (d0 + d1))
  | some d0, none => r2.geInt d0
  | none, some d1 => r2.geInt d1
  | none, none => false

/-- Squared distance from the farther end of an interval (/repo/meds/fast3tree.c:298-302). -/
def axisFar (F : F32) (c mn mx : Int) : Int :=
  let dx := F.sq (mn - c)
  let dx2 := F.sq (c - mx)
  if dx2 > dx then dx2 else dx

/-- `_fast3tree_box_inside_sphere` (/repo/meds/fast3tree.c:293-307). -/
def boxInside (F : F32) (b : Box) (c : Int × Int) (r : Flt) : Bool :=
  let r2 := F.fmul r r
  if r.gtInt |F.int (c.1 - b.min0)| then false
  else if r2.gtInt (axisFar F c.1 b.min0 b.max0) then false
  else if r2.gtInt (F.int (axisFar F c.1 b.min0 b.max0 + axisFar F c.2 b.min1 b.max1)) then false
  else true

/-- `_fast3tree_find_sphere` (/repo/meds/fast3tree.c:332-367). -/
def findSphere (F : F32) (c : Int × Int) (r : Flt) : Tree → List Pt
  | .leaf b ps =>
    if boxNotIntersect F b c r then []
    else if boxInside F b c r then ps
    else ps.filter (fun p => (F.fmul r r).ltInt (F.d2 p c))
  | .node b _ l rt =>
    if boxNotIntersect F b c r then []
    else if boxInside F b c r then l.pts ++ rt.pts
    else findSphere F c r l ++ findSphere F c r rt

/-- `c[dim]`. -/
def coord (c : Int × Int) (dim : Bool) : Int := if dim then c.2 else c.1

/-- The node where `fast3tree_find_next_closest_distance` starts, with the path to it: down to the leaf on the side of the query, and up again from nodes
without extent along the dimension in which their parent was split (/repo/meds/fast3tree.c:853-858).  `false` is left. -/
def startNode (c : Int × Int) : Tree → List Bool × Tree
  | .leaf b ps => ([], .leaf b ps)
  | .node b dim l r =>
    let side : Bool := !decide (coord c dim ≤ l.box.hi dim)
    let child := if side then r else l
    match (if side then startNode c r else startNode c l) with
    | ([], _) => if child.box.lo dim = child.box.hi dim then ([], .node b dim l r) else ([side], child)
    | (p :: ps, t) => (side :: p :: ps, t)

/-- The smallest squared distance below a bound (/repo/meds/fast3tree.c:823-833). -/
def shrink (F : F32) (c : Int × Int) (r2 : ℚ) (ps : List Pt) : ℚ :=
  ps.foldl (fun r2 p => if ((F.d2 p c : Int) : ℚ) < r2 then ((F.d2 p c : Int) : ℚ) else r2) r2

/-- The rest of the path to the node that is skipped, seen from a child. -/
def skipIn (side : Bool) : Option (List Bool) → Option (List Bool)
  | some (s :: p) => if s = side then some p else none
  | _ => none

/-- `_fast3tree_find_next_closest_dist` (/repo/meds/fast3tree.c:817-843). -/
def nextDist (F : F32) (c : Int × Int) : Option (List Bool) → ℚ → Tree → ℚ
  | skip, r, .leaf b ps =>
    if boxNotIntersect F b c (.fin r) || decide (skip = some []) then r
    else F.sqrt (shrink F c (F.mul r r) ps)
  | skip, r, .node b dim l rt =>
    if boxNotIntersect F b c (.fin r) || decide (skip = some []) then r
    else if 2 * coord c dim > F.int (b.lo dim + b.hi dim) then
      nextDist F c (skipIn false skip) (nextDist F c (skipIn true skip) r rt) l
    else
      nextDist F c (skipIn true skip) (nextDist F c (skipIn false skip) r l) rt

/-- The smallest non-zero squared distance, starting from the squared diagonal of the box (/repo/meds/fast3tree.c:860-873). -/
def startDist (F : F32) (c : Int × Int) (t : Tree) : ℚ :=
  let b := t.box
  let diag : Int := F.int (F.sq (b.max0 - b.min0) + F.sq (b.max1 - b.min1))
  t.pts.foldl (fun m p => if F.d2 p c ≠ 0 ∧ ((F.d2 p c : Int) : ℚ) < m then ((F.d2 p c : Int) : ℚ) else m) (diag : ℚ)

/-- `fast3tree_find_next_closest_distance` (/repo/meds/fast3tree.c:848-877). -/
def nextClosest (F : F32) (c : Int × Int) (t : Tree) : ℚ :=
  let (path, nd) := startNode c t
  nextDist F c (some path) (F.sqrt (startDist F c nd)) t

/-- The do-while loop that grows the sphere until it holds a point (/repo/meds/_uberseg.c:147-152).  `none`: still running after the given number of passes. -/
def growLoop (F : F32) (c : Int × Int) (t : Tree) (r maxr : ℚ) : Nat → Flt → Option (List Pt)
  | 0, _ => none
  | n + 1, fac =>
    let fac' := F.fgrow fac
    let rf := F.fmul (.fin r) fac'
    let res := findSphere F c rf t
    if res = [] ∧ rf.le maxr = true then growLoop F c t r maxr n fac'
    else some res

/-- One step of the loop over the points found (/repo/meds/_uberseg.c:155-164); state `(segmin, dmin)`. -/
def pick (F : F32) (c : Int × Int) (s : Int × Int) (p : Pt) : Int × Int :=
  let d := F.int (F.sq (p.x - c.1) + F.sq (p.y - c.2))
  if s.1 = -1 ∨ d < s.2 then (p.seg, d) else s

/-- Is pixel `(x, y)`, with label `s`, zeroed by `uberseg_tree` (/repo/meds/_uberseg.c:132-173)?  A search still running after `fuel` passes is
reported as `unmodelled`. -/
def treeZero (F : F32) (fuel : Nat) (t : Tree) (maxr : ℚ) (number s : Int) (c : Int × Int) : Res Bool :=
  if s = number then .ok false
  else if s > 0 ∧ s ≠ number then .ok true
  else
    match growLoop F c t (nextClosest F c t) maxr fuel (.fin F.fac0) with
    | none => .error .unmodelled
    | some res =>
      let segmin := (res.foldl (pick F c) (-1, 0)).1
      if segmin = -1 then .ok false else .ok (decide (segmin ≠ number))

/-- Label of a pixel (`*(int*)PyArray_GETPTR2(seg,x,y)`); positions are inside the array. -/
def labelAt (seg : Img Int) (x y : Nat) : Int := (seg.get? x y).getD 0

/-- The points of the labelled pixels (/repo/meds/_uberseg.c:111-119). -/
def points (F : F32) (seg : Img Int) (inds : List (Nat × Nat)) : List Pt := inds.map (fun q => ⟨F.int q.1, F.int q.2, labelAt seg q.1 q.2⟩)

/-- `uberseg_tree` (/repo/meds/_uberseg.c:84-184).  The pixels are independent: only the weight of the pixel itself is written. -/
def tree (F : F32) (fuel : Nat) (seg : Img Int) (inds : List (Nat × Nat)) (weight : Img ℚ) (number : Int) : Res (Img ℚ) := do
  let t := init F (points F seg inds)
  let z ← Img.ofFnRes seg.nr seg.nc (fun x y => treeZero F fuel t (F.maxr seg.nr seg.nc) number (labelAt seg x y) (F.int x, F.int y))
  .ok (MEDS.zeroWhere z weight)

/-- The search loop of `uberseg_direct` (/repo/meds/_uberseg.c:44-56): the nearest of the labelled pixels and its squared distance. -/
def directStep (x y : Nat) (s : Option (Nat × Nat × Int)) (q : Nat × Nat) : Option (Nat × Nat × Int) :=
  let d : Int := ((x : Int) - q.1) * ((x : Int) - q.1) + ((y : Int) - q.2) * ((y : Int) - q.2)
  match s with
  | none => some (q.1, q.2, d)
  | some (a, b, dmin) => if d < dmin then some (q.1, q.2, d) else some (a, b, dmin)

/-- Is pixel `(x, y)` zeroed by `uberseg_direct` (/repo/meds/_uberseg.c:32-69)? -/
def directZero (seg : Img Int) (inds : List (Nat × Nat)) (number : Int) (x y : Nat) : Bool :=
  let s := labelAt seg x y
  if s = number then false
  else if s > 0 ∧ s ≠ number then true
  else
    match inds.foldl (directStep x y) none with
    | none => false
    | some (a, b, _) => decide (labelAt seg a b ≠ number)

/-- `uberseg_direct` (/repo/meds/_uberseg.c:10-75). -/
def direct (seg : Img Int) (inds : List (Nat × Nat)) (weight : Img ℚ) (number : Int) : Img ℚ :=
  weight.mapPix (fun x y v => if directZero seg inds number x y then 0 else v)

/-- The call of the compiled code in `get_uberseg` (/repo/meds/meds.py:474-493); `f32` is the conversion of a weight to `float32`.
Simplification: labels and the object number are unbounded integers, not `int32`. -/
def fastLoop (F : F32) (f32 : ℚ → ℚ) (fuel : Nat) (seg weight : Img ℚ) (number : Int) : Res (Img ℚ) :=
  tree F fuel (seg.map truncZ) (MEDS.where seg (fun v => decide (v ≠ 0))) (weight.map f32) number

/-- The same call with `uberseg_direct` in place of `uberseg_tree`. -/
def directLoop (f32 : ℚ → ℚ) (seg weight : Img ℚ) (number : Int) : Res (Img ℚ) :=
  .ok (direct (seg.map truncZ) (MEDS.where seg (fun v => decide (v ≠ 0))) (weight.map f32) number)

/-- `get_uberseg(..., fast=True)` (/repo/meds/meds.py:445-508). -/
def getUbersegFast (F : F32) (f32 : ℚ → ℚ) (fuel : Nat) (m : MEDS) (iobj icutout : Int) : Res (Img ℚ) :=
  MEDS.getUbersegWith (fastLoop F f32 fuel) m iobj icutout

/-- `get_uberseg` with the direct compiled version. -/
def getUbersegDirect (f32 : ℚ → ℚ) (m : MEDS) (iobj icutout : Int) : Res (Img ℚ) :=
  MEDS.getUbersegWith (directLoop f32) m iobj icutout

end Meds.Uberseg

namespace Meds.Uberseg

/-- Round a non-negative number to `p` significant bits, nearest, halves to even (IEEE 754).  Overflow is treated in `Flt.ofRat`; underflow is left out
(the radius is zero or at least 1, the growth factor at least 0.9). -/
def rnd (p : Nat) (q : ℚ) : ℚ := (roundHE (q / 2 ^ (Int.log 2 q - (p - 1))) : ℚ) * 2 ^ (Int.log 2 q - (p - 1))

/-- The double constant `1.1`. -/
def d11 : ℚ := rnd 53 (11 / 10)

/-- Round an integer to `p` significant bits, nearest, halves to even (IEEE 754); integers below `2^p` are held exactly.  The functions called here do not reach the largest `float`
for any stamp that fits in memory. -/
def rndZ (p : Nat) (k : Int) : Int := k.sign * (roundHE ((k.natAbs : ℚ) / 2 ^ (k.natAbs.log2 + 1 - p)) * 2 ^ (k.natAbs.log2 + 1 - p))

/-- The `float` arithmetic of positions, distances and the search radius (/repo/meds/_uberseg.c:127, 146-152, /repo/meds/fast3tree.c:277, 295, 343, 824, 835, 875): products of floats
are rounded once; expressions with the double constants or `sqrt` are evaluated in double and then converted.  `rt` is the C library's `sqrt`. -/
def F32.ieee (rt : ℚ → ℚ) : F32 :=
  { int := rndZ 24
    mul := fun x y => rnd 24 (x * y)
    grow := fun x => rnd 24 (rnd 53 (x * d11))
    fac0 := rnd 24 (rnd 53 (1 / d11))
    sqrt := fun q => rnd 24 (rt q)
    maxr := fun nr nc => rnd 24 (rnd 53 (d11 * rt ((nr ^ 2 + nc ^ 2 : Nat) : ℚ))) }

/-- A square root rounded down to 60 bits after the point (used in examples). -/
def sqrtApprox (q : ℚ) : ℚ := (Nat.sqrt ⌊q * 4 ^ 60⌋.toNat : ℚ) / 2 ^ 60

end Meds.Uberseg
