import Verif.Model.Joblib

/-!
# The configuration of the maker (/repo/meds/maker.py:1420-1474, /repo/meds/defaults.py:15-50) and what is decided with it:
colours, the choice of the WCS, parallel or serial work

A configuration is a Python dictionary; a `MEDSMaker` is itself one.
-/

namespace Meds.Config

/-- Values of configuration entries.  Lists are lists of strings (the only kind the code reads). -/
inductive Val
  | none_
  | bool (b : Bool)
  | int (n : Int)
  | float (q : ℚ)
  | str (s : String)
  | list (l : List String)
  | dict (d : List (String × Val))

/-- A Python dictionary: keys with values, every key once. -/
abbrev Dict := List (String × Val)

/-- `d[k]`, `d.get(k)`, `k in d`. -/
def Dict.get? : Dict → String → Option Val
  | [], _ => none
  | (k', v) :: d, k => if k' = k then some v else Dict.get? d k

/-- `d[k] = v`. -/
def Dict.set : Dict → String → Val → Dict
  | [], k, v => [(k, v)]
  | (k', v') :: d, k, v => if k' = k then (k, v) :: d else (k', v') :: Dict.set d k v

/-- `d.update(u)`. -/
def Dict.update (d : Dict) : Dict → Dict
  | [] => d
  | (k, v) :: u => Dict.update (Dict.set d k v) u

/-- `bool(v)`. -/
def Val.truthy : Val → Bool
  | .none_ => false
  | .bool b => b
  | .int n => n != 0
  | .float q => decide (q ≠ 0)
  | .str s => s != ""
  | .list l => !l.isEmpty
  | .dict d => !d.isEmpty

/-- `default_config` (/repo/meds/defaults.py:15-50). -/
def defaultConfig : Dict :=
  [("bounds_buffer_uv", .float 16), ("coadd_bounds_buffer_rowcol", .float (1 / 1000)), ("first_image_is_coadd", .bool true),
   ("check_in_coadd", .bool true), ("force_into_coadd_bounds", .bool true), ("bitmask_allowed", .int 0), ("cutout_types", .list []),
   ("image_dtype", .str "f4"), ("weight_dtype", .str "f4"), ("seg_dtype", .str "i4"), ("bmask_dtype", .str "i4"),
   ("ormask_dtype", .str "i4"), ("noise_dtype", .str "f4")]

/-- A configured maker: the dictionary and the joblib attributes (/repo/meds/maker.py:1460-1474). -/
structure Loaded where
  d : Dict
  useJoblib : Bool
  backend : Val
  maxWorkers : Val
  threads : Option Nat

/-- `numpy.array([allowed], dtype="u4")[0]` (/repo/meds/maker.py:1451-1453).  Numbers that do not fit are left open: they wrap around or raise,
depending on the numpy version. -/
def asU4 : Val → Res Int
  | .int n => if 0 ≤ n ∧ n < 2 ^ 32 then .ok n else .error .unmodelled
  | .bool b => .ok (if b then 1 else 0)
  | _ => .error .unmodelled

/-- The list given to `_set_cutout_types` (/repo/meds/maker.py:1163-1168); anything but a list fails at one of these lines.
Simplification: all these failures are a TypeError here. -/
def asList : Val → Res (List String)
  | .list l => .ok l
  | _ => .error .typeError

/-- `self[k]` when a key is expected to be there. -/
def item (d : Dict) (k : String) : Res Val :=
  match Dict.get? d k with
  | some v => .ok v
  | none => .error .keyError

/-- `self.get(k, {})`, followed by a dictionary method: other values have no such method. -/
def section_ (d : Dict) (k : String) : Res Dict :=
  match Dict.get? d k with
  | none => .ok []
  | some (.dict e) => .ok e
  | some _ => .error .attributeError

/-- `d.get(k, default)`. -/
def getOr (d : Dict) (k : String) (v : Val) : Val := (Dict.get? d k).getD v

/-- The entries that are always replaced by `_set_extra_config` (/repo/meds/maker.py:1424-1433). -/
def extraConfig : Dict :=
  [("object_data_extname", .str "object_data"), ("image_info_extname", .str "image_info"), ("metadata_extname", .str "metadata"),
   ("image_cutout_extname", .str "image_cutouts"), ("weight_cutout_extname", .str "weight_cutouts"),
   ("seg_cutout_extname", .str "seg_cutouts"), ("bmask_cutout_extname", .str "bmask_cutouts"),
   ("ormask_cutout_extname", .str "ormask_cutouts"), ("noise_cutout_extname", .str "noise_cutouts")]

/-- The start of `_load_config` (/repo/meds/maker.py:1439-1446): the defaults, then the user's entries.  `None` is `.none_`. -/
def merged : Val → Res Dict
  | .none_ => .ok (Dict.update [] defaultConfig)
  | .dict u => .ok (Dict.update (Dict.update [] defaultConfig) u)
  | _ => .error .runtimeError

/-- The middle of `_load_config` (/repo/meds/maker.py:1448-1458): cutout types, the allowed bits and the old way to give the PSF type. -/
def derived (d : Dict) : Res Dict := do
  let req ← item d "cutout_types"
  let req ← asList req
  let types ← Maker.setCutoutTypes req
  let d := Dict.set d "cutout_types" (.list types)
  let allowed ← item d "bitmask_allowed"
  let allowed ← asU4 allowed
  let d := Dict.set d "bitmask_allowed" (.int allowed)
  let d := Dict.set d "bitmask_allowed_inv" (.int (2 ^ 32 - 1 - allowed))
  match Dict.get? d "psf_type" with
  | some t => .ok (Dict.set d "psf" (.dict [("type", t)]))
  | none => .ok d

/-- The comparison `self._joblib_backend == "loky"`. -/
def isLoky : Val → Bool
  | .str s => s == "loky"
  | _ => false

/-- `_load_config` (/repo/meds/maker.py:1435-1474) followed by `_set_extra_config` (1420-1433). -/
def load (config : Val) : Res Loaded := do
  let d ← merged config
  let d ← derived d
  let useJoblib := match Dict.get? d "joblib" with
    | some _ => true
    | none => (getOr d "use_joblib" (.bool false)).truthy
  let jl ← section_ d "joblib"
  let backend := getOr jl "backend" (.str "multiprocessing")
  let workers := getOr jl "max_workers" (.int (-1))
  .ok { d := Dict.update d extraConfig, useJoblib := useJoblib, backend := backend, maxWorkers := workers,
        threads := if isLoky backend then some 1 else none }

/-! ### Settings read by the rest of the maker -/

/-- A number.  Other values make the arithmetic raise later on; that is left open. -/
def asNum : Val → Res ℚ
  | .int n => .ok n
  | .float q => .ok q
  | .bool b => .ok (if b then 1 else 0)
  | _ => .error .unmodelled

/-- An integer. -/
def asInt : Val → Res Int
  | .int n => .ok n
  | .bool b => .ok (if b then 1 else 0)
  | _ => .error .unmodelled

/-- An optional integer setting. -/
def optInt (d : Dict) (k : String) : Res (Option Int) :=
  match Dict.get? d k with
  | none => .ok none
  | some v => do
    let n ← asInt v
    .ok (some n)

/-- The dtype of a stored plane (/repo/meds/maker.py:179, 187, 271); `castOf` turns a dtype into the rounding it does. -/
def castFor (castOf : String → ℚ → ℚ) (d : Dict) (t : String) : ℚ → ℚ :=
  if t = "psf" then castOf "f4"
  else match Dict.get? d (t ++ "_dtype") with
    | some (.str s) => castOf s
    | _ => id

/-- The settings the maker reads from its dictionary: `first_image_is_coadd`, `check_in_coadd`, `force_into_coadd_bounds` (/repo/meds/maker.py:684-698),
`trim_to_coadd` (648), `coadd_bounds_buffer_rowcol` (823-827), `ncutout_max` (1336-1337), `cutout_types` (120, 173), `unusable_bmask` and
`min_weight` (568-575), `<type>_dtype` (175, 271).  Simplification: they are read once; values of the wrong kind are left open. -/
def toCfg (castOf : String → ℚ → ℚ) (d : Dict) : Res MakerCfg := do
  let first ← item d "first_image_is_coadd"
  let check ← item d "check_in_coadd"
  let force ← item d "force_into_coadd_bounds"
  let buffer ← item d "coadd_bounds_buffer_rowcol"
  let buffer ← asNum buffer
  let nmax ← optInt d "ncutout_max"
  let types ← item d "cutout_types"
  let types ← asList types
  let unusable ← optInt d "unusable_bmask"
  .ok { firstImageIsCoadd := first.truthy, checkInCoadd := check.truthy, forceIntoCoaddBounds := force.truthy,
        trimToCoadd := (getOr d "trim_to_coadd" (.bool false)).truthy, coaddBuffer := buffer, ncutoutMax := nmax, cutoutTypes := types,
        unusableBmask := unusable, minWeightKey := (Dict.get? d "min_weight").isSome, cast := castFor castOf d }

/-! ### Colours -/

/-- A WCS object as the maker uses it.  The last argument of `sky2image` and `jacobian` is the colour: `none` when the call has no `color`
argument, `some c` for `color=c`, where `c` is `none` when the catalogue has no colour column (Python's `None`)
(/repo/meds/maker.py:773-779, 1497-1503).  `rough` is the outcome of the rough sky cut, which sees no colour (/repo/meds/maker.py:797). -/
structure RawWcs where
  ncol : Nat
  nrow : Nat
  sky2image : ℚ → ℚ → Option (Option ℚ) → ℚ × ℚ
  jacobian : ℚ → ℚ → Option (Option ℚ) → ℚ × ℚ × ℚ × ℚ
  rough : ℚ → ℚ → Bool

/-- A PSF model: `get_rec`, `get_rec_shape`, with the colour as above, and `get_center` (/repo/meds/maker.py:436-439, 1286-1298). -/
structure RawPsf where
  getRec : ℚ → ℚ → Option (Option ℚ) → Img ℚ
  recShape : Option (ℚ → ℚ → Option (Option ℚ) → Nat × Nat)
  center : ℚ → ℚ → ℚ × ℚ

/-- The colour for positions: the column `color`, else `wcs_color`, else `None` (/repo/meds/maker.py:735-740, 802-807). -/
def pickColor (color wcsColor : Option ℚ) : Option ℚ :=
  match color with
  | some c => some c
  | none => wcsColor

/-- A row of the catalogue the user gives: the colour columns may be absent. -/
structure RawObj where
  id : Int
  boxSize : Int
  ra : ℚ
  dec : ℚ
  color : Option ℚ
  wcsColor : Option ℚ
  psfColor : Option ℚ
  number : Int
  extra : String

/-- The row as the layout (/repo/meds/maker.py:735-740, 802-807) and the PSF writing (/repo/meds/maker.py:418-421, 1272-1275) look at it.  A column is there for
all rows or for none in the code; here each row decides for itself. -/
def RawObj.seen (a : RawObj) : Maker.InputObj :=
  { id := a.id, boxSize := a.boxSize, sky := { ra := a.ra, dec := a.dec, color := pickColor a.color a.wcsColor, psfColor := a.psfColor },
    number := a.number, extra := a.extra }

/-- `_wcs_uses_color` (/repo/meds/maker.py:630-634). -/
def wcsUsesColor (d : Dict) (fileId : Nat) : Res Bool := do
  let first ← item d "first_image_is_coadd"
  if fileId = 0 ∧ first.truthy = true then do
    let s ← section_ d "coadd_astrom"
    .ok (getOr s "use_color" (.bool false)).truthy
  else do
    let s ← section_ d "se_astrom"
    .ok (getOr s "use_color" (.bool false)).truthy

/-- `_psf_uses_color` (/repo/meds/maker.py:295-299). -/
def psfUsesColor (d : Dict) (fileId : Nat) : Res Bool := do
  let first ← item d "first_image_is_coadd"
  let p ← section_ d "psf"
  if fileId = 0 ∧ first.truthy = true then do
    let s ← section_ p "coadd"
    .ok (getOr s "use_color" (.bool false)).truthy
  else do
    let s ← section_ p "se"
    .ok (getOr s "use_color" (.bool false)).truthy

/-- The WCS as the layout calls it: `_sky2image_func` and `_get_jacobians` with the colour decision (/repo/meds/maker.py:773-779, 809-816, 742-745,
1497-1503). -/
def callWcs (uses : Bool) (w : RawWcs) : Wcs :=
  { ncol := w.ncol, nrow := w.nrow,
    sky2image := fun s => if uses then w.sky2image s.ra s.dec (some s.color) else w.sky2image s.ra s.dec none,
    jacobian := fun s x y => if uses then w.jacobian x y (some s.color) else w.jacobian x y none,
    rough := fun s => w.rough s.ra s.dec }

/-- The PSF model as the maker calls it (/repo/meds/maker.py:436-439, 1286-1296, 1483-1491). -/
def callPsf (uses : Bool) (p : RawPsf) : PsfModel :=
  { getRec := fun s r c => if uses then p.getRec r c (some s.psfColor) else p.getRec r c none,
    recShape := match p.recShape with
      | some f => some (fun s r c => if uses then f r c (some s.psfColor) else f r c none)
      | none => none,
    center := p.center }

/-- One input image before the colour decision. -/
structure RawImage where
  wcs : RawWcs
  info : InfoRow
  plane : String → Option (Option (Img ℚ))

/-- The image with number `fileId` as the maker sees it. -/
def callImage (d : Dict) (fi : Nat × RawImage) : Res SrcImage := do
  let u ← wcsUsesColor d fi.1
  .ok { wcs := callWcs u fi.2.wcs, info := fi.2.info, plane := fi.2.plane }

/-- The PSF model with number `fileId` as the maker sees it. -/
def callPsfModel (d : Dict) (fp : Nat × RawPsf) : Res PsfModel := do
  let u ← psfUsesColor d fp.1
  .ok (callPsf u fp.2)

/-- The PSF models as the maker sees them, if there are any. -/
def callPsfs (d : Dict) : Option (List RawPsf) → Res (Option (List PsfModel))
  | none => .ok none
  | some ps => do
    let l ← mapRes (callPsfModel d) (Maker.numbered ps)
    .ok (some l)

/-- The assertion of `_set_psf_data` (/repo/meds/maker.py:1244): PSFs need a `psf` entry in the configuration. -/
def psfEntry (d : Dict) : Option (List RawPsf) → Res Unit
  | none => .ok ()
  | some _ => match Dict.get? d "psf" with
    | some _ => .ok ()
    | none => .error .assertionError

/-- The constructor (/repo/meds/maker.py:63-83) from a configuration dictionary.  Simplification: sections of a wrong kind fail here, in the code only when
they are first looked up. -/
def construct (castOf : String → ℚ → ℚ) (config : Val) (hasNumber : Bool) (objs : List Maker.InputObj) (images : List RawImage)
    (psf : Option (List RawPsf)) (psfInfo : Option String) (metaData : String) : Res Maker := do
  let l ← load config
  let cfg ← toCfg castOf l.d
  let ims ← mapRes (callImage l.d) (Maker.numbered images)
  let ps ← callPsfs l.d psf
  let mk ← Maker.init cfg hasNumber objs ims ps psfInfo metaData
  psfEntry l.d psf
  .ok mk

/-! ### Parallel or serial -/

/-- `_write_psf_cutouts` (/repo/meds/maker.py:449-459). -/
def writePsf (useJoblib : Bool) (mk : Maker) (psf : List PsfModel) (buf : List ℚ) : Res (List ℚ) :=
  if useJoblib then Maker.writePsfJoblib 2000 mk psf buf else Maker.writePsfSerial mk psf buf

/-- `n_jobs` of `_do_sky2image` (/repo/meds/maker.py:998-1001): the number of processors, or the configured maximum if smaller. -/
def nJobs (maxWorkers : Int) (cpus : Nat) : Nat := if 0 < maxWorkers then min maxWorkers.toNat cpus else cpus

/-! ### The choice of the WCS -/

/-- An entry of `image_info` with what `fitsio` and `json` get from it: the cards of the image's header (`fitsio.read_header`, /repo/meds/maker.py:925-927,
942-944), the entry of the `wcs` column if there is such a column (938-939), and the rest as in `RawImage`.  Simplification: header keys are looked up as
written, fitsio ignores case. -/
structure SrcFile where
  header : Dict
  wcsColumn : Option String
  info : InfoRow
  plane : String → Option (Option (Img ℚ))

/-- A PSF object of the user: the model, and the WCS its method `get_wcs` returns if it has one (/repo/meds/maker.py:920-923).  `set_naxis` is called on
that WCS (934), which is therefore a function of the size. -/
structure PsfObj where
  model : RawPsf
  getWcs : Option (Nat × Nat → RawWcs)

/-- The libraries: `json.loads` and `eu.wcsutil.WCS` (/repo/meds/maker.py:940, 946). -/
structure WcsLib where
  loads : String → Res Dict
  wcs : Dict → Res RawWcs

/-- A header card with a size (/repo/meds/maker.py:929-932).  Simplification: other values than whole numbers that are not negative are rejected. -/
def sizeCard (hdr : Dict) (k : String) : Res Nat := do
  let v ← item hdr k
  match v with
  | .int n => if 0 ≤ n then .ok n.toNat else .error .valueError
  | _ => .error .typeError

/-- The size of the image by its header (/repo/meds/maker.py:929-932): of the uncompressed image, if it is compressed. -/
def headerSize (hdr : Dict) : Res (Nat × Nat) :=
  if (Dict.get? hdr "znaxis1").isSome then do
    let x ← sizeCard hdr "znaxis1"
    let y ← sizeCard hdr "znaxis2"
    .ok (x, y)
  else do
    let x ← sizeCard hdr "naxis1"
    let y ← sizeCard hdr "naxis2"
    .ok (x, y)

/-- The second half of `_get_wcs` (/repo/meds/maker.py:938-947). -/
def infoWcs (lib : WcsLib) (src : SrcFile) : Res RawWcs :=
  match src.wcsColumn with
  | some s => do
    let d ← lib.loads s
    lib.wcs d
  | none => lib.wcs src.header

/-- `_get_wcs` (/repo/meds/maker.py:914-947).  `psf` is `none` without PSF data. -/
def getWcs (lib : WcsLib) (psf : Option (List PsfObj)) (fileId : Nat) (src : SrcFile) : Res RawWcs :=
  match psf with
  | none => infoWcs lib src
  | some ps =>
    match ps[fileId]? with
    | none => .error .indexError
    | some p =>
      match p.getWcs with
      | none => infoWcs lib src
      | some w => do
        let n ← headerSize src.header
        .ok { w n with ncol := n.1, nrow := n.2 }

/-- An image with its WCS (/repo/meds/maker.py:784-794). -/
def withWcs (lib : WcsLib) (psf : Option (List PsfObj)) (fi : Nat × SrcFile) : Res RawImage := do
  let w ← getWcs lib psf fi.1 fi.2
  .ok { wcs := w, info := fi.2.info, plane := fi.2.plane }

/-- The constructor with the sources of the WCSs in place of the WCSs.  Simplification: the code makes a WCS each time the layout asks for it
(/repo/meds/maker.py:791); here they are made once, first. -/
def constructSrc (lib : WcsLib) (castOf : String → ℚ → ℚ) (config : Val) (hasNumber : Bool) (objs : List Maker.InputObj) (srcs : List SrcFile)
    (psf : Option (List PsfObj)) (psfInfo : Option String) (metaData : String) : Res Maker := do
  let images ← mapRes (withWcs lib psf) (Maker.numbered srcs)
  construct castOf config hasNumber objs images (psf.map (List.map PsfObj.model)) psfInfo metaData

end Meds.Config
