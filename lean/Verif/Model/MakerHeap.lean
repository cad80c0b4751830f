import Verif.Model.Maker

/-!
# Makers and the objects of the caller

`Model/Maker.lean` treats the arguments of `MEDSMaker` as values.  Here they are objects in memory, which the caller can change at any time and hand to several makers; a maker keeps
references, to copies or to the objects of the caller.
-/

namespace Meds.Heap
open Maker

/-- The objects in memory. -/
inductive Cell
  /-- A configuration: the dictionary entries but `cutout_types`, as what they do to the settings in `self.update(config)`, and the list that the entry `cutout_types` refers to. -/
  | conf (over : MakerCfg → MakerCfg) (types : Option Nat)
  /-- A list of cutout types. -/
  | types (l : List String)
  /-- An input catalogue; has it a column `number`? -/
  | objs (hasNumber : Bool) (l : List InputObj)
  /-- An `image_info` array.  Simplification: with its rows come the images that they name; files are not changed while the program runs. -/
  | info (l : List SrcImage)
  /-- A `meta_data` or `psf_info` array. -/
  | text (s : String)
  /-- A list of PSF objects. -/
  | psfs (l : List PsfModel)
  /-- The full catalogue of a maker. -/
  | full (l : List ObjRow)

/-- A `MEDSMaker` object: settings held by value, and references (/repo/meds/maker.py:63-83).  The entry `cutoutTypes` of `cfg` is not used after the construction. -/
structure MakerObj where
  cfg : MakerCfg
  types : Nat
  info : Nat
  metaData : Nat
  psf : Option Nat
  psfInfo : Option Nat
  dtype : CatDtype
  objs : Nat
  totalPixels : Int
  totalPsfPixels : Int

/-- A running program: memory, the variables of the caller (addresses; the first one is `default_config` of the module), the makers so far, the files written so far. -/
structure State where
  heap : List Cell
  vars : List Nat
  makers : List MakerObj
  files : List Fits

/-- What the caller puts into an object of its own; a dictionary refers to a list by the number of a variable. -/
inductive Val
  | conf (over : MakerCfg → MakerCfg) (types : Option Nat)
  | types (l : List String)
  | objs (hasNumber : Bool) (l : List InputObj)
  | info (l : List SrcImage)
  | text (s : String)
  | psfs (l : List PsfModel)

/-- The arguments of `MEDSMaker(...)`: numbers of variables. -/
structure Args where
  objs : Nat
  info : Nat
  psf : Option Nat
  psfInfo : Option Nat
  config : Option Nat
  metaData : Option Nat

/-- What the caller does: make an object, change one of its objects in place, construct a maker, let a maker write. -/
inductive Op
  | new (v : Val)
  | store (var : Nat) (v : Val)
  | make (a : Args)
  | write (k : Nat)

/-- A value with its reference resolved. -/
def place (vars : List Nat) : Val → Option Cell
  | .conf o none => some (.conf o none)
  | .conf o (some h) => (vars[h]?).map (fun a => .conf o (some a))
  | .types l => some (.types l)
  | .objs n l => some (.objs n l)
  | .info l => some (.info l)
  | .text s => some (.text s)
  | .psfs l => some (.psfs l)

/-- A new object at the end of the memory. -/
def alloc (heap : List Cell) (c : Cell) : List Cell × Nat := (heap ++ [c], heap.length)

/-- The address in a variable. -/
def addr (st : State) (var : Nat) : Res Nat :=
  match st.vars[var]? with
  | some a => .ok a
  | none => .error .unboundLocal

/-- Use of an object as a list of types.  Simplification, here and below: an argument of another kind is a TypeError at once; the code raises some exception later. -/
def getTypes (heap : List Cell) (a : Nat) : Res (List String) :=
  match heap[a]? with
  | some (.types l) => .ok l
  | _ => .error .typeError

/-- Use of an object as an `image_info` array. -/
def getInfo (heap : List Cell) (a : Nat) : Res (List SrcImage) :=
  match heap[a]? with
  | some (.info l) => .ok l
  | _ => .error .typeError

/-- Use of an object as a `meta_data` or `psf_info` array. -/
def getText (heap : List Cell) (a : Nat) : Res String :=
  match heap[a]? with
  | some (.text s) => .ok s
  | _ => .error .typeError

/-- Use of an object as a list of PSF objects. -/
def getPsfs (heap : List Cell) (a : Nat) : Res (List PsfModel) :=
  match heap[a]? with
  | some (.psfs l) => .ok l
  | _ => .error .typeError

/-- Use of an object as an input catalogue. -/
def getObjs (heap : List Cell) (a : Nat) : Res (Bool × List InputObj) :=
  match heap[a]? with
  | some (.objs n l) => .ok (n, l)
  | _ => .error .typeError

/-- Use of an object as the catalogue of a maker. -/
def getFull (heap : List Cell) (a : Nat) : Res (List ObjRow) :=
  match heap[a]? with
  | some (.full l) => .ok l
  | _ => .error .typeError

/-- Use of an object as a configuration; `config must be a dict` is a RuntimeError (/repo/meds/maker.py:1441-1445). -/
def getConf (heap : List Cell) (a : Nat) : Res ((MakerCfg → MakerCfg) × Option Nat) :=
  match heap[a]? with
  | some (.conf o t) => .ok (o, t)
  | _ => .error .runtimeError

/-- An argument that may be `None`. -/
def optional {α β : Type} (f : α → Res β) : Option α → Res (Option β)
  | none => .ok none
  | some x => do
    let y ← f x
    .ok (some y)

/-- The settings of a maker before any dictionary is read: no key is there (for settings without which the code raises a KeyError: some value). -/
def noSettings : MakerCfg :=
  { firstImageIsCoadd := false, checkInCoadd := false, forceIntoCoaddBounds := false, trimToCoadd := false, coaddBuffer := 0, ncutoutMax := none, cutoutTypes := [],
    unusableBmask := none, minWeightKey := false, cast := fun _ q => q }

/-- `_load_config` (/repo/meds/maker.py:1434-1446) up to `_set_cutout_types`: `self.update(default_config)`, `self.update(config)`; the settings, and the list that `self["cutout_types"]` now
is, that of the dictionary itself. -/
def loadConfig (st : State) (config : Option Nat) : Res (MakerCfg × Nat) := do
  let d ← addr st 0
  let dflt ← getConf st.heap d
  let own ← optional (fun v => do let a ← addr st v; getConf st.heap a) config
  let cfg := match own with
    | some c => c.1 (dflt.1 noSettings)
    | none => dflt.1 noSettings
  let types := match own with
    | some (_, some a) => some a
    | _ => dflt.2
  match types with
  | some a => .ok (cfg, a)
  | none => .error .keyError

/-- `_set_cutout_types` (/repo/meds/maker.py:1161-1179) for the list at `a`: `copy.deepcopy`, `remove("image")` on the copy, a new list with "image" in front, the check. -/
def setTypes (heap : List Cell) (a : Nat) : Res (List Cell × Nat × List String) := do
  let l ← getTypes heap a
  let c := alloc heap (.types l)
  let heap1 := if "image" ∈ l then c.1.set c.2 (.types (l.erase "image")) else c.1
  let rest ← getTypes heap1 c.2
  let types := "image" :: rest
  let bad := types.filter (fun t => !(supportedTypes.contains t))
  if bad.length ≠ 0 then .error .valueError
  else
    let n := alloc heap1 (.types types)
    .ok (n.1, n.2, l)

/-- `MEDSMaker(...)` (/repo/meds/maker.py:63-83): `image_info.copy()` (1393-1398), new arrays for the metadata (1185-1223) and the catalogue (1225-1231, 1322-1350), the PSF objects and `psf_info`
as they were given (1233-1251), box sizes made even in the new catalogue (1149-1159).  Simplification: of the metadata only the part of the user is kept here, an empty one for `None`. -/
def make (st : State) (a : Args) : Res State := do
  let ct ← loadConfig st a.config
  let ty ← setTypes st.heap ct.2
  let infoA ← addr st a.info
  let info ← getInfo st.heap infoA
  let md ← optional (fun v => do let x ← addr st v; getText st.heap x) a.metaData
  let psfA ← optional (addr st) a.psf
  let psf ← optional (getPsfs st.heap) psfA
  if psfLengthBad psf info.length then .error .valueError
  else
    let piA ← optional (addr st) a.psfInfo
    let _ ← optional (getText st.heap) piA
    let objsA ← addr st a.objs
    let no ← getObjs st.heap objsA
    let i := alloc ty.1 (.info info)
    let m := alloc i.1 (.text (md.getD ""))
    let rows := no.2.map (fullRow (initialNmax ct.1 info.length))
    let o := alloc m.1 (.full rows)
    let heap := o.1.set o.2 (.full (rows.map forceEven))
    .ok { st with
      heap := heap
      makers := st.makers ++ [{ cfg := { ct.1 with cutoutTypes := ty.2.2 }, types := ty.2.1, info := i.2, metaData := m.2, psf := psfA, psfInfo := piA,
                                dtype := { hasNumber := no.1, psfBox := .absent, psfRowCol := psfKind psf }, objs := o.2, totalPixels := 0, totalPsfPixels := 0 }] }

/-- The maker as it stands, with everything that it refers to. -/
def view (heap : List Cell) (mo : MakerObj) : Res Maker := do
  let types ← getTypes heap mo.types
  let info ← getInfo heap mo.info
  let md ← getText heap mo.metaData
  let objs ← getFull heap mo.objs
  let psf ← optional (getPsfs heap) mo.psf
  let psfInfo ← optional (getText heap) mo.psfInfo
  .ok { cfg := mo.cfg, types := types, images := info, psf := psf, metaData := md, psfInfo := psfInfo, dtype := mo.dtype, objs := objs, totalPixels := mo.totalPixels,
        totalPsfPixels := mo.totalPsfPixels }

/-- `write` (/repo/meds/maker.py:85-90).  The layout is set in the catalogue of the maker.  Simplification: the shortened arrays that the layout makes on the way (/repo/meds/maker.py:649-664,
1065-1128) take the place of the old one. -/
def write (st : State) (k : Nat) : Res State :=
  match st.makers[k]? with
  | none => .error .unboundLocal
  | some mo => do
    let mk ← view st.heap mo
    let r ← mk.write
    .ok { st with
      heap := st.heap.set mo.objs (.full r.1.objs)
      makers := st.makers.set k { mo with totalPixels := r.1.totalPixels, totalPsfPixels := r.1.totalPsfPixels }
      files := st.files ++ [r.2] }

/-- One thing that the caller does. -/
def step (st : State) : Op → Res State
  | .new v =>
    match place st.vars v with
    | some c => .ok { st with heap := (alloc st.heap c).1, vars := st.vars ++ [(alloc st.heap c).2] }
    | none => .error .unboundLocal
  | .store var v => do
    let a ← addr st var
    match place st.vars v with
    | some c => .ok { st with heap := st.heap.set a c }
    | none => .error .unboundLocal
  | .make a => make st a
  | .write k => write st k

/-- A program, up to its end or the first exception. -/
def run (ops : List Op) (st : State) : Res State := foldRes step st ops

/-- The start: `default_config` and its list of types (/repo/meds/defaults.py:15-51); `cast` are the conversions to the default types. -/
def start (cast : String → ℚ → ℚ) : State :=
  { heap := [.conf (fun c => { c with firstImageIsCoadd := true, checkInCoadd := true, forceIntoCoaddBounds := true, coaddBuffer := 1 / 1000, cast := cast }) (some 1), .types []]
    vars := [0, 1], makers := [], files := [] }

end Meds.Heap
