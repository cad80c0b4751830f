import Verif.Model.CMeta

/-!
# Memory of the C reader (/repo/src/meds.c)

Which blocks are allocated and freed, and when.  Sizes and contents of the blocks are left out, and `malloc` is taken to succeed (the library calls `exit` otherwise).
What cfitsio answers is a parameter (`FileView`, `Read`): the control flow depends on nothing else.  The memory of cfitsio itself is not modelled.
-/

namespace Meds.C

/-- Blocks in use, and the name of the next one. -/
structure Heap where
  live : List Nat
  next : Nat
  deriving DecidableEq

/-- `malloc`, `calloc`, `strdup`. -/
def malloc (h : Heap) : Nat × Heap := (h.next, ⟨h.next :: h.live, h.next + 1⟩)

/-- `free`: nothing happens for `NULL`; a block that is not in use is undefined behaviour. -/
def free (h : Heap) (p : Option Nat) : Res Heap :=
  match p with
  | none => .ok h
  | some b => if b ∈ h.live then .ok { h with live := h.live.erase b } else .error .unmodelled

/-- Several allocations. -/
def mallocs : Nat → Heap → List Nat × Heap
  | 0, h => ([], h)
  | n + 1, h => ((malloc h).1 :: (mallocs n (malloc h).2).1, (mallocs n (malloc h).2).2)

/-- Several calls of `free`. -/
def frees (h : Heap) (ps : List Nat) : Res Heap := foldRes (fun h p => free h (some p)) h ps

/-- The answers of cfitsio to the reads of one row of `object_data`: `ncutout`, and the first of the 14 reads that fails, if any. -/
structure RowView where
  ncutout : Nat
  fails : Option Nat

/-- A column of `metadata`. -/
inductive Col where
  | absent
  | good
  | bad
  deriving DecidableEq

/-- The answers of cfitsio while a file is opened; a table that is missing is `none`. -/
structure FileView where
  opens : Bool
  objects : Option (List RowView)
  columns : Bool
  info : Option (List Bool)
  metadata : Option (String → Col)

/-- `struct meds_cat` with the arrays of its objects. -/
structure CatMem where
  self : Nat
  data : Nat
  objs : List (List Nat)
  deriving DecidableEq

/-- `size` times `alloc_fields` (/repo/src/meds.c:294-308, 362-366): nine arrays each. -/
def fieldsNew : Nat → Nat → Heap → List (List Nat) × Heap
  | _, 0, h => ([], h)
  | k, n + 1, h => ((mallocs k h).1 :: (fieldsNew k n (mallocs k h).2).1, (fieldsNew k n (mallocs k h).2).2)

/-- `meds_cat_new` (/repo/src/meds.c:347-369). -/
def catNew (size : Nat) (h : Heap) : CatMem × Heap :=
  let s := malloc h
  let d := malloc s.2
  let o := fieldsNew 9 size d.2
  (⟨s.1, d.1, o.1⟩, o.2)

/-- `meds_cat_free` and `free_fields` (/repo/src/meds.c:309-325, 371-382); for `NULL` nothing happens. -/
def catFree (h : Heap) (c : Option CatMem) : Res Heap :=
  match c with
  | none => .ok h
  | some c => do
    let h ← foldRes frees h c.objs
    let h ← free h (some c.data)
    free h (some c.self)

/-- The loop of `load_table` (/repo/src/meds.c:397-446) with the size `ndist` and the blocks of the four buffers: `none` when a read fails, on which the function
returns at once.  `realloc` frees the old block. -/
def loadRows : List RowView → Nat → List Nat → Heap → Res (Option (List Nat) × Heap)
  | [], _, t, h => .ok (some t, h)
  | r :: rs, ndist, t, h => do
    if r.fails.any (· < 10) then .ok (none, h)
    else
      let (nd, t, h) ← (if r.ncutout > ndist then do
          let h ← frees h t
          .ok (r.ncutout, mallocs 4 h)
        else .ok (ndist, t, h) : Res (Nat × List Nat × Heap))
      if r.fails.isSome then .ok (none, h)
      else loadRows rs nd t h

/-- `load_table` (/repo/src/meds.c:385-453): whether it succeeded. -/
def loadTable (columns : Bool) (rows : List RowView) (h : Heap) : Res (Bool × Heap) :=
  if columns = false then .ok (false, h)
  else do
    let t := mallocs 4 h
    let r ← loadRows rows 20 t.1 t.2
    match r.1 with
    | none => .ok (false, r.2)
    | some t => do
      let h ← frees r.2 t
      .ok (true, h)

/-- `read_object_table` (/repo/src/meds.c:455-482). -/
def readObjectTable (f : FileView) (h : Heap) : Res (Option CatMem × Heap) :=
  match f.objects with
  | none => .ok (none, h)
  | some rows =>
    if rows.length = 0 then .ok (none, h)
    else do
      let c := catNew rows.length h
      let r ← loadTable f.columns rows c.2
      if r.1 then .ok (some c.1, r.2)
      else do
        let h ← catFree r.2 (some c.1)
        .ok (none, h)

/-- `meds_info_cat_new` (/repo/src/meds.c:503-534): four names for each image. -/
def infoNew (size : Nat) (h : Heap) : CatMem × Heap :=
  let s := malloc h
  let d := malloc s.2
  let o := fieldsNew 4 size d.2
  (⟨s.1, d.1, o.1⟩, o.2)

/-- `meds_info_cat_free` (/repo/src/meds.c:536-550). -/
def infoFree (h : Heap) (c : Option CatMem) : Res Heap :=
  match c with
  | none => .ok h
  | some c => do
    let h ← foldRes frees h c.objs
    let h ← free h (some c.data)
    free h (some c.self)

/-- `read_image_info` (/repo/src/meds.c:650-673); the entries of the list tell whether a row can be read (`load_image_info` allocates nothing). -/
def readImageInfo (f : FileView) (h : Heap) : Res (Option CatMem × Heap) :=
  match f.info with
  | none => .ok (none, h)
  | some rows =>
    if rows.length = 0 then .ok (none, h)
    else
      let c := infoNew rows.length h
      if rows.all id then .ok (some c.1, c.2)
      else do
        let h ← infoFree c.2 (some c.1)
        .ok (none, h)

/-- `fits_read_string_byname` (/repo/src/meds.c:678-698): the block, `none` for `NULL`, and the status.  When the read fails the block is not freed. -/
def stringByName (c : Col) (status : Bool) (h : Heap) : (Option Nat × Bool) × Heap :=
  match c with
  | .absent => ((none, true), h)
  | .good => if status then ((none, true), (malloc h).2) else ((some (malloc h).1, false), (malloc h).2)
  | .bad => ((none, true), (malloc h).2)

/-- The status after `fits_read_double_byname` or `fits_read_long_byname` (/repo/src/meds.c:700-741). -/
def numberByName (c : Col) (status : Bool) : Bool := status || c != .good

/-- The reads of `read_meta` one after the other (/repo/src/meds.c:762-810): for each entry its block, if it is a string that could be read. -/
def metaReads (m : String → Col) : List (String × Kind) → Bool → Heap → List (String × Option Nat) × Heap
  | [], _, h => ([], h)
  | e :: es, status, h =>
    if e.2 = .string ∨ e.2 = .atol then
      let r := stringByName (m e.1) status h
      let rest := metaReads m es r.1.2 r.2
      ((e.1, r.1.1) :: rest.1, rest.2)
    else metaReads m es (numberByName (m e.1) status) h

/-- `struct meds_meta`. -/
structure MetaMem where
  self : Nat
  strings : List (String × Option Nat)
  deriving DecidableEq

/-- `self->name`. -/
def MetaMem.str (m : MetaMem) (name : String) : Option Nat := (m.strings.lookup name).join

/-- `read_meta` (/repo/src/meds.c:746-816): the strings with the box sizes are freed (/repo/src/meds.c:812-813). -/
def readMetaMem (f : FileView) (h : Heap) : Res (Option MetaMem × Heap) :=
  match f.metadata with
  | none => .ok (none, h)
  | some m => do
    let s := malloc h
    let r := metaReads m metaEntries false s.2
    let h ← free r.2 ((r.1.lookup "min_boxsize").join)
    let h ← free h ((r.1.lookup "max_boxsize").join)
    .ok (some ⟨s.1, r.1⟩, h)

/-- `meds_meta_free` (/repo/src/meds.c:860-873). -/
def metaFree (h : Heap) (m : Option MetaMem) : Res Heap :=
  match m with
  | none => .ok h
  | some m => do
    let h ← foldRes (fun h n => free h (m.str n)) h ["cat_file", "coadd_file", "coaddcat_file", "coadd_srclist", "cutout_file", "medsconf"]
    free h (some m.self)

/-- `struct meds`. -/
structure MedsMem where
  self : Nat
  path : Nat
  cat : CatMem
  info : CatMem
  metadata : MetaMem
  deriving DecidableEq

/-- `meds_open` (/repo/src/meds.c:991-1043); `none` for `NULL`. -/
def openMem (f : FileView) (h : Heap) : Res (Option MedsMem × Heap) :=
  if f.opens = false then .ok (none, h)
  else do
    let c ← readObjectTable f h
    match c.1 with
    | none => .ok (none, c.2)
    | some cat => do
      let i ← readImageInfo f c.2
      match i.1 with
      | none => do
        let h ← catFree i.2 (some cat)
        .ok (none, h)
      | some info => do
        let m ← readMetaMem f i.2
        match m.1 with
        | none => do
          let h ← catFree m.2 (some cat)
          let h ← infoFree h (some info)
          .ok (none, h)
        | some mt =>
          let s := malloc m.2
          let p := malloc s.2
          .ok (some ⟨s.1, p.1, cat, info, mt⟩, p.2)

/-- `meds_free` (/repo/src/meds.c:1045-1056); for `NULL` nothing happens. -/
def freeMem (h : Heap) (m : Option MedsMem) : Res Heap :=
  match m with
  | none => .ok h
  | some m => do
    let h ← free h (some m.path)
    let h ← catFree h (some m.cat)
    let h ← infoFree h (some m.info)
    let h ← metaFree h (some m.metadata)
    free h (some m.self)

/-- What becomes of a request for pixels: a bad index (/repo/src/meds.c:1132-1150), an extension that is missing, a read that fails, or success. -/
inductive Read where
  | badIndex
  | noExtension
  | readFails
  | good
  deriving DecidableEq

/-- `meds_get_cutoutp` and its relatives (/repo/src/meds.c:1222-1387): the block with the pixels, `none` for `NULL`.  When the extension is missing the block is not freed. -/
def pixels (r : Read) (h : Heap) : Res (Option Nat × Heap) :=
  match r with
  | .badIndex => .ok (none, h)
  | .noExtension => .ok (none, (malloc h).2)
  | .readFails => do
    let h ← free (malloc h).2 (some (malloc h).1)
    .ok (none, h)
  | .good => .ok (some (malloc h).1, (malloc h).2)

/-- `struct meds_cutout` / `struct meds_icutout`: the structure, the array of rows, and the pixels, to which `rows[0]` points. -/
structure CutMem where
  self : Nat
  rows : Nat
  pix : Nat
  deriving DecidableEq

/-- `meds_get_cutout` and its relatives (/repo/src/meds.c:915-980, 1454-1537). -/
def cutoutMem (r : Read) (h : Heap) : Res (Option CutMem × Heap) := do
  let p ← pixels r h
  match p.1 with
  | none => .ok (none, p.2)
  | some pix =>
    let s := malloc p.2
    let rows := malloc s.2
    .ok (some ⟨s.1, rows.1, pix⟩, rows.2)

/-- `meds_cutout_free` / `meds_icutout_free` (/repo/src/meds.c:879-912); for `NULL` nothing happens. -/
def cutoutFree (h : Heap) (c : Option CutMem) : Res Heap :=
  match c with
  | none => .ok h
  | some c => do
    let h ← free h (some c.pix)
    let h ← free h (some c.rows)
    free h (some c.self)

/-- What a program does between opening and closing: get a cutout or mosaic, get pixels as a pointer, write a cutout to a file (/repo/src/meds.c:1544-1604, the name is
copied and freed), free the `k`-th thing it still has. -/
inductive Op where
  | cutout (r : Read)
  | pointer (r : Read)
  | write
  | free (k : Nat)

/-- What the program holds: cutouts, and pointers to pixels. -/
inductive Held where
  | cut (c : CutMem)
  | pix (p : Nat)
  deriving DecidableEq

/-- Free one of them. -/
def heldFree (h : Heap) (x : Held) : Res Heap :=
  match x with
  | .cut c => cutoutFree h (some c)
  | .pix p => free h (some p)

/-- One step of the program; a number that is too large does nothing. -/
def opStep (st : List Held × Heap) (o : Op) : Res (List Held × Heap) :=
  match o with
  | .cutout r => do
    let c ← cutoutMem r st.2
    match c.1 with
    | none => .ok (st.1, c.2)
    | some x => .ok (.cut x :: st.1, c.2)
  | .pointer r => do
    let c ← pixels r st.2
    match c.1 with
    | none => .ok (st.1, c.2)
    | some x => .ok (.pix x :: st.1, c.2)
  | .write => do
    let h ← free (malloc st.2).2 (some (malloc st.2).1)
    .ok (st.1, h)
  | .free k =>
    match st.1[k]? with
    | none => .ok st
    | some x => do
      let h ← heldFree st.2 x
      .ok (st.1.eraseIdx k, h)

/-- A program: open, use, free what is left, close. -/
def session (f : FileView) (ops : List Op) (h : Heap) : Res Heap := do
  let m ← openMem f h
  match m.1 with
  | none => .ok m.2
  | some x => do
    let st ← foldRes opStep ([], m.2) ops
    let h ← foldRes heldFree st.2 st.1
    freeMem h (some x)

end Meds.C
