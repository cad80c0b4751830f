import Verif.Model.Disk

/-!
# Programs with extractor objects: temporary files

The life of extractor objects in a program: bound to variables, used in `with` blocks, closed, destroyed when nothing refers to them any more (`__del__`).  Simplifications: CPython's reference counts,
so an object is destroyed as soon as the last reference goes, and also the object of a constructor that raised; no reference cycles; an exception ends the program.
-/

namespace Meds.Temp
open Disk Extract

/-- A running program: the disk, the extractor objects constructed so far, the variables that refer to one, the open `with` blocks (innermost first), which refer to theirs. -/
structure Prog where
  disk : Disk
  objs : List Request
  vars : List (String × Nat)
  blocks : List Nat

/-- What the program does: `x = E(...)`, `with E(...) as x:`, the end of a block, `y = x`, `del x`, `x.close()`, `E(...)` without keeping the object, a file written by something else. -/
inductive Act
  | make (x : String) (r : Request)
  | enter (x : String) (r : Request)
  | leave
  | copy (y x : String)
  | del (x : String)
  | close (x : String)
  | call (r : Request)
  | save (path : String) (f : Fits)

/-- The object that a variable refers to. -/
def Prog.lookup (p : Prog) (x : String) : Option Nat := (p.vars.find? (fun v => v.1 = x)).map (·.2)

/-- Does anything refer to the object? -/
def Prog.refers (p : Prog) (k : Nat) : Bool := p.vars.any (fun v => v.2 = k) || p.blocks.contains k

variable (nm : String → String)

/-- `close` of an object (/repo/meds/extractor.py:81-85, 225-229; /repo/meds/number_extractor.py:60-64). -/
def closeObj (p : Prog) (k : Nat) : Prog :=
  match p.objs[k]? with
  | some r => { p with disk := Extract.close nm p.disk r }
  | none => p

/-- A reference to the object has gone: `__del__` (/repo/meds/extractor.py:78-79, 222-223; /repo/meds/number_extractor.py:57-58) if it was the last one. -/
def release (p : Prog) (k : Nat) : Prog := if p.refers k then p else closeObj nm p k

/-- `x = object k`; what `x` referred to before loses a reference. -/
def bind (p : Prog) (x : String) (k : Nat) : Prog :=
  let p1 := { p with vars := (x, k) :: p.vars.filter (fun v => v.1 ≠ x) }
  match p.lookup x with
  | some j => release nm p1 j
  | none => p1

/-- The constructor (/repo/meds/extractor.py:47-70, 208-214; /repo/meds/number_extractor.py:33-49); if it raises, the unfinished object is destroyed. -/
def new (p : Prog) (r : Request) : Prog × Option Err :=
  match (construct nm p.disk r).2 with
  | some e => ({ p with disk := Extract.close nm (afterConstruct nm p.disk r) r }, some e)
  | none => ({ p with disk := afterConstruct nm p.disk r, objs := p.objs ++ [r] }, none)

/-- One thing that the program does, and the exception, if any.  `__enter__` returns the object (/repo/meds/extractor.py:72-73); the end of a block calls `__exit__`, which closes it (75-76). -/
def act (p : Prog) : Act → Prog × Option Err
  | .make x r =>
    match new nm p r with
    | (p1, some e) => (p1, some e)
    | (p1, none) => (bind nm p1 x p.objs.length, none)
  | .enter x r =>
    match new nm p r with
    | (p1, some e) => (p1, some e)
    | (p1, none) => (bind nm { p1 with blocks := p.objs.length :: p1.blocks } x p.objs.length, none)
  | .leave =>
    match p.blocks with
    | [] => (p, some .unmodelled)
    | k :: bs => (release nm { closeObj nm p k with blocks := bs } k, none)
  | .copy y x =>
    match p.lookup x with
    | none => (p, some .unboundLocal)
    | some k => (bind nm p y k, none)
  | .del x =>
    match p.lookup x with
    | none => (p, some .unboundLocal)
    | some k => (release nm { p with vars := p.vars.filter (fun v => v.1 ≠ x) } k, none)
  | .close x =>
    match p.lookup x with
    | none => (p, some .unboundLocal)
    | some k => (closeObj nm p k, none)
  | .call r =>
    match new nm p r with
    | (p1, some e) => (p1, some e)
    | (p1, none) => (closeObj nm p1 p.objs.length, none)
  | .save path f =>
    let d := removeIfExists nm p.disk path
    match target nm d 40 (nm path) with
    | none => ({ p with disk := d }, some .osError)
    | some e => ({ p with disk := put d e (some (.file f)) }, none)

/-- A program, up to its end or the first exception. -/
def acts (p : Prog) : List Act → Prog × Option Err
  | [] => (p, none)
  | a :: as =>
    match act nm p a with
    | (p1, some e) => (p1, some e)
    | (p1, none) => acts p1 as

/-- A program begins with files on disk and nothing else. -/
def begin (d : Disk) : Prog := { disk := d, objs := [], vars := [], blocks := [] }

end Meds.Temp
