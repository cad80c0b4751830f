import Verif.Model.MakeInput
import Verif.Model.Basic
import Mathlib.Data.Nat.Digits.Defs
import Mathlib.Algebra.Order.Field.Basic

/-!
# The viewer (/repo/scripts/meds-view)

Drawing itself (biggles) is outside the model.  A session is the sequence of pictures drawn and questions asked, and the text of the page; what is printed to the
terminal is left out.
-/

namespace Meds.View

/-! ### One combined picture -/

/-- `imtot[r:r+h, c:c+w] = im` for a block inside the array. -/
def paste (tot : Img ℚ) (r c : Nat) (im : Img ℚ) : Img ℚ :=
  Img.ofFn tot.nr tot.nc (fun i j =>
    if r ≤ i ∧ i < r + im.nr ∧ c ≤ j ∧ j < c + im.nc then (im.get? (i - r) (j - c)).getD 0 else (tot.get? i j).getD 0)

/-- `numpy.flipud`. -/
def flipud (im : Img ℚ) : Img ℚ := Img.ofFn im.nr im.nc (fun i j => (im.get? (im.nr - 1 - i) j).getD 0)

/-- One turn of the loop of `make_combined_mosaic` (/repo/scripts/meds-view:262-273).  An image of another shape than the first does not fit its block: `ValueError`
(numpy would stretch an image with a single row or column, which is not modelled). -/
def combineStep (g : Nat × Nat) (nr nc : Nat) (tot : Img ℚ) (x : Nat × Img ℚ) : Res (Img ℚ) :=
  match getRowcol g x.1 with
  | none => .error .valueError
  | some (row, col) => if x.2.nr = nr ∧ x.2.nc = nc then .ok (paste tot (row * nr) (col * nc) x.2) else .error .valueError

/-- `make_combined_mosaic` (/repo/scripts/meds-view:248-277); `sq` is `int(sqrt(len(imlist)))`. -/
def makeCombined (sq : Nat) (imlist : List (Img ℚ)) : Res (Img ℚ) :=
  let g := setGrid sq imlist.length
  match imlist with
  | [] => .error .indexError
  | im0 :: _ => do
    let tot ← foldRes (combineStep g im0.nr im0.nc) (Img.ofFn (g.1 * im0.nr) (g.2 * im0.nc) (fun _ _ => 0)) (imlist.zipIdx.map (fun x => (x.2, x.1)))
    .ok (flipud tot)

/-! ### Grey values -/

/-- `I.max()`. -/
def maxOf {K : Type} [LinearOrder K] : List K → Option K
  | [] => none
  | x :: xs => some (xs.foldl max x)

/-- `linear_scale` with the default `autoscale` (/repo/scripts/meds-view:822-833): the grey value of each pixel, `none` for NaN.  With a maximum of zero, the
factor is infinite: zero becomes NaN, anything below becomes minus infinity, which is clipped to zero.  Simplification: exact arithmetic instead of `f4`. -/
def linearScale {K : Type} [Field K] [LinearOrder K] (im : List K) : Res (List (Option K)) :=
  match maxOf im with
  | none => .error .valueError
  | some m =>
    if m = 0 then .ok (im.map (fun x => if x = 0 then none else some 0))
    else .ok (im.map (fun x => some (min (max (x * (1 / m)) 0) 1)))

/-! ### A session -/

/-- `'%d'` of a number with `w` places filled up with zeros. -/
def padNat (w n : Nat) : List Char :=
  let ds := (Nat.digits 10 n).reverse.map Nat.digitChar
  List.replicate (w - ds.length) '0' ++ ds

/-- `'%06d' % i`. -/
def pad6 (i : Int) : List Char := if i < 0 then '-' :: padNat 5 i.natAbs else padNat 6 i.natAbs

/-- `_get_png_filename` (/repo/scripts/meds-view:1106-1107). -/
def pngName (bname : List Char) (index : Int) (type : List Char) : List Char := bname ++ '-' :: (pad6 index ++ '-' :: (type ++ ".png".toList))

/-- `numpy.arange(a, b)`. -/
def arange (a b : Int) : List Int := (List.range (b - a).toNat).map (fun k : Nat => a + (k : Int))

/-- `_get_indices` (/repo/scripts/meds-view:1109-1127); `size` is `self.m.size`. -/
def getIndices (size : Nat) (start stop : Option Int) (indices : Option (List Int)) : List Int :=
  match indices with
  | some ind => ind
  | none =>
    if start.isSome ∨ stop.isSome then
      let a := start.getD 0
      let b := match stop with
        | none => (size : Int)
        | some e => e + 1
      arange a b
    else arange 0 size

/-- What the page is made of (/repo/scripts/meds-view:1129-1158): the head, begin and end of a line, a picture, the foot. -/
inductive Tok where
  | head | lineBegin | item (fname : List Char) | lineEnd | foot
  deriving DecidableEq

/-- What happens: a picture is drawn, and stored if a name is given; the user is asked. -/
inductive Event where
  | plot (index : Int) (type : List Char) (file : Option (List Char))
  | ask
  deriving DecidableEq

/-- How it ends. -/
inductive Outcome where
  | done | quit | raised (e : Err)
  deriving DecidableEq

/-- What there is so far; `asked` counts the questions. -/
structure Session where
  events : List Event
  page : List Tok
  asked : Nat
  deriving DecidableEq

/-- The things a session depends on: the columns `id` and `ncutout`, `self.cutout_types`, `self.bname`, whether the drawing of an object raises (`plot_one`,
/repo/scripts/meds-view:1039-1096), and whether the answer to the n-th question is `q`. -/
structure World where
  ncutout : List Nat
  types : List (List Char)
  bname : List Char
  plot : Int → List Char → Res Unit
  quits : Nat → Bool

/-- The loop over the types (/repo/scripts/meds-view:1004-1026). -/
def viewTypes (w : World) (save html : Bool) (index : Int) : List (List Char) → Session → Session × Option Err
  | [], s => (s, none)
  | t :: ts, s =>
    let fname := if save then some (pngName w.bname index t) else none
    match w.plot index t with
    | .error e => (s, some e)
    | .ok _ =>
      let s := { s with events := s.events ++ [.plot index t fname] }
      let s := if html then { s with page := s.page ++ [.item (pngName w.bname index t)] } else s
      viewTypes w save html index ts s

/-- The loop over the objects (/repo/scripts/meds-view:989-1034). -/
def viewObjects (w : World) (save shows html : Bool) : List Int → Session → Session × Outcome
  | [], s => (s, .done)
  | index :: rest, s =>
    match pyGet w.ncutout index with
    | .error e => (s, .raised e)
    | .ok n =>
      if n = 0 then viewObjects w save shows html rest s
      else
        let s := if html then { s with page := s.page ++ [.lineBegin] } else s
        match viewTypes w save html index w.types s with
        | (s, some e) => (s, .raised e)
        | (s, none) =>
          let s := if html then { s with page := s.page ++ [.lineEnd] } else s
          if shows then
            let s' := { s with events := s.events ++ [.ask], asked := s.asked + 1 }
            if w.quits s.asked then (s', .quit) else viewObjects w save shows html rest s'
          else viewObjects w save shows html rest s

/-- `Viewer.go` (/repo/scripts/meds-view:961-1037). -/
def go (w : World) (save shows html : Bool) (start stop : Option Int) (indices : Option (List Int)) : Session × Outcome :=
  let save := if html then true else save
  if save = false ∧ shows = false then (⟨[], [], 0⟩, .raised .runtimeError)
  else
    let s : Session := ⟨[], if html then [.head] else [], 0⟩
    match viewObjects w save shows html (getIndices w.ncutout.length start stop indices) s with
    | (s, .done) => (if html then { s with page := s.page ++ [.foot] } else s, .done)
    | r => r

/-- The titles over the single pictures (/repo/scripts/meds-view:1088-1094); `fileId` is the row of the column `file_id`. -/
def titles (hasCoadd : Bool) (fileId : List Int) : List (Option Int) :=
  if hasCoadd then none :: (fileId.drop 1).map some else fileId.map some

end Meds.View
