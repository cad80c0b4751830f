import Verif.Model.MakerHeap

/-!
# Makers as values

A program in which a maker takes values when it is constructed: nothing that happens to the objects of the caller afterwards reaches it, but for the PSF objects and `psf_info`, of which it takes
what they are when it writes.  Where the program raises an exception there is no outcome.
-/

namespace Meds.Spec
open Heap Maker

/-- What a program with makers as values has: what is in the objects of the caller; the makers, with the variables from which PSF objects and `psf_info` are taken; the files written. -/
structure Values where
  vals : List Val
  makers : List (Maker × Option Nat × Option Nat)
  files : List Fits

def asTypes : Val → Option (List String)
  | .types l => some l
  | _ => none

def asInfo : Val → Option (List SrcImage)
  | .info l => some l
  | _ => none

def asText : Val → Option String
  | .text s => some s
  | _ => none

def asPsfs : Val → Option (List PsfModel)
  | .psfs l => some l
  | _ => none

def asObjs : Val → Option (Bool × List InputObj)
  | .objs n l => some (n, l)
  | _ => none

def asConf : Val → Option ((MakerCfg → MakerCfg) × Option Nat)
  | .conf o t => some (o, t)
  | _ => none

/-- What is in a variable, if it is of the right kind. -/
def value {α : Type} (s : Values) (as : Val → Option α) (var : Nat) : Option α := s.vals[var]?.bind as

/-- `None`, or what is in the variable. -/
def given {α : Type} (s : Values) (as : Val → Option α) : Option Nat → Option (Option α)
  | none => some none
  | some v => (value s as v).map some

/-- The settings of a maker: those of the caller's configuration over the defaults (which are in the first variable); the list of types is that of the configuration if it has one. -/
def settings (s : Values) (config : Option Nat) : Option MakerCfg := do
  let dflt ← value s asConf 0
  let own ← given s asConf config
  let var ← (own.bind (fun c => c.2)).or dflt.2
  let types ← value s asTypes var
  let over := match own with
    | some c => c.1
    | none => id
  some { over (dflt.1 noSettings) with cutoutTypes := types }

/-- A maker made of the values that the arguments have now. -/
def construct (s : Values) (a : Args) : Option Maker := do
  let cfg ← settings s a.config
  let info ← value s asInfo a.info
  let md ← given s asText a.metaData
  let psf ← given s asPsfs a.psf
  let psfInfo ← given s asText a.psfInfo
  let objs ← value s asObjs a.objs
  (Maker.init cfg objs.1 objs.2 info psf psfInfo (md.getD "")).toOption

/-- What a maker writes with the PSF objects and `psf_info` that are now in the given variables. -/
def writes (s : Values) (mk : Maker) (psf psfInfo : Option Nat) : Option (Maker × Fits) := do
  let p ← given s asPsfs psf
  let q ← given s asText psfInfo
  ({ mk with psf := p, psfInfo := q } : Maker).write.toOption

/-- A reference in a value must be to a variable. -/
def RefersTo (n : Nat) : Val → Prop
  | .conf _ (some h) => h < n
  | _ => True

instance (n : Nat) (v : Val) : Decidable (RefersTo n v) := by
  cases v with
  | conf o t => cases t <;> (unfold RefersTo; infer_instance)
  | _ => unfold RefersTo; infer_instance

/-- One thing that the caller does. -/
def stepV (s : Values) : Op → Option Values
  | .new v => if RefersTo s.vals.length v then some { s with vals := s.vals ++ [v] } else none
  | .store var v => if var < s.vals.length ∧ RefersTo s.vals.length v then some { s with vals := s.vals.set var v } else none
  | .make a => (construct s a).map (fun mk => { s with makers := s.makers ++ [(mk, a.psf, a.psfInfo)] })
  | .write k => do
    let m ← s.makers[k]?
    let r ← writes s m.1 m.2.1 m.2.2
    some { s with makers := s.makers.set k (r.1, m.2), files := s.files ++ [r.2] }

/-- A program with makers as values. -/
def runV (ops : List Op) (s : Values) : Option Values := ops.foldlM stepV s

def startV (cast : String → ℚ → ℚ) : Values :=
  { vals := [.conf (fun c => { c with firstImageIsCoadd := true, checkInCoadd := true, forceIntoCoaddBounds := true, coaddBuffer := 1 / 1000, cast := cast }) (some 1), .types []]
    makers := [], files := [] }

/-- In this state the object in the variable has this content. -/
def Shows (st : State) (var : Nat) (v : Val) : Prop := ∃ a c, st.vars[var]? = some a ∧ st.heap[a]? = some c ∧ place st.vars v = some c

/-- The files are the same, and so are the objects of the caller. -/
def Agree (st : State) (s : Values) : Prop := st.files = s.files ∧ st.vars.length = s.vals.length ∧ ∀ (var : Nat) (v : Val), s.vals[var]? = some v → Shows st var v

end Meds.Spec
