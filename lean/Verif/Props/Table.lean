import Verif.Lemmas.TableInit
import Verif.Lemmas.Written
import Verif.Lemmas.File
import Verif.Examples.Maker

/-!
# The catalogue as one structured array (C64, C66)
-/

namespace Meds
namespace Table
open Columns Vec

theorem taken_getElem? {α : Type} {q : List Nat} {l : List α} (h : ∀ i ∈ q, i < l.length) (k : Nat) : (taken q l)[k]? = (q[k]?).bind (fun i => l[i]?) := by
  induction q generalizing k with
  | nil => simp [taken]
  | cons i q ih =>
    have hi := List.getElem?_eq_getElem (h i List.mem_cons_self)
    rw [taken_cons hi]
    cases k with
    | zero => simp [hi]
    | succ k =>
      rw [List.getElem?_cons_succ, List.getElem?_cons_succ]
      exact ih (fun j hj => h j (List.mem_cons_of_mem _ hj)) k

theorem mem_sel {α : Type} {p : α → Bool} {l : List α} {i : Nat} : i ∈ sel p l ↔ ∃ x, l[i]? = some x ∧ p x = true := by
  unfold sel
  rw [List.mem_map]
  constructor
  · rintro ⟨⟨x, j⟩, hx, rfl⟩
    obtain ⟨h1, h2⟩ := List.mem_filter.mp hx
    exact ⟨x, List.mem_zipIdx_iff_getElem?.mp h1, h2⟩
  · rintro ⟨x, hx, hp⟩
    exact ⟨(x, i), List.mem_filter.mpr ⟨List.mem_zipIdx_iff_getElem?.mpr hx, hp⟩, rfl⟩

theorem sel_increasing {α : Type} (p : α → Bool) (l : List α) : (sel p l).Pairwise (· < ·) := by
  unfold sel
  have h : (l.zipIdx.map Prod.snd).Pairwise (· < ·) := by
    rw [List.zipIdx_map_snd]
    exact List.pairwise_lt_range'
  exact List.Pairwise.sublist (List.Sublist.map _ List.filter_sublist) h

theorem keepRows_keeps (cfg : MakerCfg) (images : List SrcImage) (objs : List Maker.InputObj) (nmax : Nat) :
    Keeps cfg images objs (keepRows cfg images ((objs.map (Maker.fullRow nmax)).map Maker.forceEven)) := by
  have hget : ∀ i : Nat, ((objs.map (Maker.fullRow nmax)).map Maker.forceEven)[i]? = (objs[i]?).map (fun x => Maker.forceEven (Maker.fullRow nmax x)) := by
    intro i
    rw [List.getElem?_map, List.getElem?_map, Option.map_map]
    rfl
  have hsky : ∀ x : Maker.InputObj, (Maker.forceEven (Maker.fullRow nmax x)).sky = x.sky := by
    intro x
    unfold Maker.forceEven
    split <;> rfl
  unfold keepRows
  by_cases hc : (cfg.firstImageIsCoadd && cfg.trimToCoadd) = true
  · rw [if_pos hc]
    rw [Bool.and_eq_true] at hc
    cases images with
    | nil =>
      refine ⟨List.Pairwise.nil, fun i => ⟨fun h => absurd h List.not_mem_nil, ?_⟩⟩
      rintro ⟨x, _, hx⟩
      obtain ⟨im, rest, he, _⟩ := hx hc.1 hc.2
      cases he
    | cons im rest =>
      refine ⟨sel_increasing _ _, fun i => ?_⟩
      dsimp only
      rw [mem_sel]
      constructor
      · rintro ⟨o, ho, hp⟩
        rw [hget] at ho
        obtain ⟨x, hx, rfl⟩ := Option.map_eq_some_iff.mp ho
        refine ⟨x, hx, fun _ _ => ⟨im, rest, rfl, ?_⟩⟩
        have := (Maker.accepted_iff cfg 0 im _).mp hp
        rwa [hsky] at this
      · rintro ⟨x, hx, h⟩
        obtain ⟨im', rest', he, hcov⟩ := h hc.1 hc.2
        injection he with h1 h2
        subst h1
        refine ⟨Maker.forceEven (Maker.fullRow nmax x), by rw [hget, hx]; rfl, (Maker.accepted_iff cfg 0 im _).mpr ?_⟩
        rw [hsky]; exact hcov
  · rw [if_neg hc]
    refine ⟨List.pairwise_lt_range, fun i => ?_⟩
    rw [List.mem_range, List.length_map, List.length_map]
    constructor
    · intro hi
      refine ⟨objs[i], List.getElem?_eq_getElem hi, fun h1 h2 => absurd ?_ hc⟩
      rw [h1, h2]; rfl
    · rintro ⟨x, hx, _⟩
      exact (List.getElem?_eq_some_iff.mp hx).1

theorem initialNmax_ge (cfg : MakerCfg) (n : Nat) : 2 ≤ Maker.initialNmax cfg n := by
  unfold Maker.initialNmax
  dsimp only
  split <;> split <;> omega

theorem laid_keeps {cfg : MakerCfg} {images : List SrcImage} {w : Nat} {l l' : List ObjRow} (h : List.Forall₂ (Maker.LaidOut cfg images w) l l') :
    l'.map (fun o => (o.id, o.sky)) = l.map (fun o => (o.id, o.sky)) := by
  induction h with
  | nil => rfl
  | cons hab _ ih =>
    obtain ⟨S, _, _, rfl⟩ := hab
    rw [List.map_cons, List.map_cons, ih]

theorem init_total {cfg : MakerCfg} {hn : Bool} {objs : List Maker.InputObj} {images : List SrcImage} {psf : Option (List PsfModel)} {psfInfo : Option String}
    {md : String} {mk : Maker} (hi : Maker.init cfg hn objs images psf psfInfo md = .ok mk) : mk.totalPsfPixels = 0 := by
  unfold Maker.init at hi
  obtain ⟨_, _, hi⟩ := Res.bind_eq_ok.mp hi
  split at hi
  · cases hi
  · injection hi with hi
    rw [← hi]

/-- The layout of the structured array in terms of the layout row by row. -/
theorem layout_eq {cfg : MakerCfg} {hn : Bool} {objs : List Maker.InputObj} {images : List SrcImage} {psf : Option (List PsfModel)} {psfInfo : Option String}
    {md : String} {mk : Maker} {obj : Arr Val} {useJoblib : Bool} {nJobs : Nat} (hr : Represents obj objs)
    (hi : Maker.init cfg hn objs images psf psfInfo md = .ok mk) (hj : 0 < nJobs) :
    (initT cfg images.length psf.isSome obj >>= buildLayoutT useJoblib nJobs cfg images psf) =
      (mk.buildLayout >>= fun mk' =>
        .ok (table psf.isSome (widthOf mk'.objs) ((userCols obj).map (takeCol (keepRows cfg images mk.objs))) mk'.objs, mk'.totalPixels, mk'.totalPsfPixels)) ∧
    ∀ r, Maker.trim cfg images mk.objs = .ok r → r = taken (keepRows cfg images mk.objs) mk.objs := by
  obtain ⟨e1, e2, e3, _, _, _, _, e8, _⟩ := Maker.init_ok hi
  obtain ⟨hT, hS⟩ := initT_table (cfg := cfg) (psf := psf.isSome) hr images.length
  rw [← e8] at hT hS
  have hl : ∀ c ∈ userCols obj, c.vals.length = mk.objs.length := by
    intro c hc
    rw [hr.wf.rows c (mem_userCols.mp hc).1, hr.n, e8, List.length_map, List.length_map]
  have hsl : ∀ o ∈ mk.objs, o.slots.length = Maker.initialNmax cfg images.length := by
    intro o ho
    rw [e8] at ho
    obtain ⟨o1, ho1, rfl⟩ := List.mem_map.mp ho
    obtain ⟨x, _, rfl⟩ := List.mem_map.mp ho1
    unfold Maker.forceEven
    split <;> simp [Maker.fullRow]
  have hS' : SkyOk mk.psf.isSome (Maker.initialNmax cfg images.length) (userCols obj) mk.objs := by rw [e3]; exact hS
  have key := buildLayoutT_table (useJoblib := useJoblib) hj mk (fun _ => init_total hi) hr.userNames (initialNmax_ge cfg images.length) hS' hl hsl
  rw [Maker.buildLayoutV_eq hj, e1, e2, e3] at key
  have ht := (trimT_table (useJoblib := useJoblib) (cfg := cfg) hj images hS hl).2
  rw [Maker.trimV_eq hj] at ht
  rw [hT, Res.ok_bind]
  exact ⟨key, ht⟩

/-- **C64** The catalogue of the file, followed column by column through construction and layout.  When the maker writes its file, the structured array ends
with all its own columns holding what the layout row by row says, with the same totals, and then the user's: every column that the maker does not compute is
there under its name and with its type, in the same order, and its values are those of the objects kept, row by row.  Row `k` of the file is the input
object `keep[k]`. -/
theorem C64_catalogue_written {cfg : MakerCfg} {hn : Bool} {objs : List Maker.InputObj} {images : List SrcImage} {psf : Option (List PsfModel)}
    {psfInfo : Option String} {md : String} {mk mk' : Maker} {obj : Arr Val} {useJoblib : Bool} {nJobs : Nat} (hr : Represents obj objs)
    (hi : Maker.init cfg hn objs images psf psfInfo md = .ok mk) (hb : mk.buildLayout = .ok mk') (hj : 0 < nJobs) :
    ∃ (full t : Arr Val) (w : Nat) (keep : List Nat), initT cfg images.length psf.isSome obj = .ok full ∧
      buildLayoutT useJoblib nJobs cfg images psf full = .ok (t, mk'.totalPixels, mk'.totalPsfPixels) ∧
      Holds psf.isSome t mk'.objs w ∧ Keeps cfg images objs keep ∧
      t.names = scalarNames ++ epochNames ++ obj.names.filter (fun s => s ∉ inputNames) ++ (if psf.isSome then psfNames else []) ∧
      (∀ c ∈ obj.cols, c.field.name ∉ inputNames → t.col? c.field.name = some ⟨c.field, keep.filterMap (fun i => c.vals[i]?)⟩) ∧
      keep.length = mk'.objs.length ∧
      ∀ (k : Nat) (o : ObjRow), mk'.objs[k]? = some o → ∃ (i : Nat) (x : Maker.InputObj), keep[k]? = some i ∧ objs[i]? = some x ∧ o.id = x.id ∧ o.sky = x.sky := by
  obtain ⟨heq, ht⟩ := layout_eq (useJoblib := useJoblib) hr hi hj
  obtain ⟨e1, e2, e3, _, _, _, _, e8, _⟩ := Maker.init_ok hi
  obtain ⟨hT, -⟩ := initT_table (cfg := cfg) (psf := psf.isSome) hr images.length
  rw [← e8] at hT
  rw [hT, Res.ok_bind, hb, Res.ok_bind] at heq
  have hu' : UserNames ((userCols obj).map (takeCol (keepRows cfg images mk.objs))) := (takeCol_names _).mpr hr.userNames
  obtain ⟨objs0, w0, h0, _, _, hlaid, _⟩ := Maker.buildLayout_ok hb (nmax := Maker.initialNmax cfg images.length) (by
    intro o ho
    rw [e8] at ho
    obtain ⟨o1, ho1, rfl⟩ := List.mem_map.mp ho
    obtain ⟨x, _, rfl⟩ := List.mem_map.mp ho1
    unfold Maker.forceEven
    split <;> exact ⟨rfl, rfl⟩)
  rw [e1, e2] at h0
  have hobjs0 := ht objs0 h0
  refine ⟨_, _, widthOf mk'.objs, keepRows cfg images mk.objs, hT, heq, ⟨rfl, ?_, ?_, ?_⟩, ?_, ?_, ?_, ?_, ?_⟩
  · intro p hp
    exact col?_table hu' (mem_scalar hp) mk'.objs
  · intro p hp
    exact col?_table hu' (mem_epoch hp) mk'.objs
  · intro hpsf p hp
    rw [hpsf]
    exact col?_table hu' (mem_psf hp) mk'.objs
  · rw [e8]
    exact keepRows_keeps cfg images objs _
  · rw [table_names, colFns_names, List.map_map]
    congr 2
    unfold userCols Arr.names
    rw [List.filter_map]
    congr 1
    exact List.filter_congr fun c _ => by simp
  · intro c hc hin
    refine col?_table (p := (c.field, fun _ => taken (keepRows cfg images mk.objs) c.vals)) hu' ?_ mk'.objs
    refine List.mem_append_left _ (List.mem_append_right _ ?_)
    rw [List.map_map]
    exact List.mem_map_of_mem (f := fun c : Col Val => ((c.field, fun _ => taken (keepRows cfg images mk.objs) c.vals) : Field × (List ObjRow → List (List Val))))
      (mem_userCols.mpr ⟨hc, hin⟩)
  · rw [← hlaid.length_eq, hobjs0, taken_length keepRows_lt]
  · intro k o ho
    have hL : mk'.objs.map (fun o => (o.id, o.sky)) = objs0.map (fun o => (o.id, o.sky)) := laid_keeps hlaid
    have hk := congrArg (fun l => l[k]?) hL
    rw [List.getElem?_map, List.getElem?_map, ho, hobjs0, taken_getElem? keepRows_lt, Option.map_some] at hk
    cases hq : (keepRows cfg images mk.objs)[k]? with
    | none => rw [hq] at hk; cases hk
    | some i =>
      rw [hq, Option.bind_some, e8, List.getElem?_map, List.getElem?_map, Option.map_map] at hk
      cases hx : objs[i]? with
      | none => rw [hx] at hk; cases hk
      | some x =>
        rw [hx] at hk
        simp only [Option.map_some, Function.comp_apply, Option.some.injEq, Prod.mk.injEq] at hk
        refine ⟨i, x, rfl, hx, hk.1.trans ?_, hk.2.trans ?_⟩ <;> (unfold Maker.forceEven; split <;> rfl)

/-- **C64** (failures) When the layout row by row raises an exception, the structured array raises the same, and conversely. -/
theorem C64_same_exception {cfg : MakerCfg} {hn : Bool} {objs : List Maker.InputObj} {images : List SrcImage} {psf : Option (List PsfModel)}
    {psfInfo : Option String} {md : String} {mk : Maker} {obj : Arr Val} {useJoblib : Bool} {nJobs : Nat} (hr : Represents obj objs)
    (hi : Maker.init cfg hn objs images psf psfInfo md = .ok mk) (hj : 0 < nJobs) (e : Err) :
    mk.buildLayout = .error e ↔ (initT cfg images.length psf.isSome obj >>= buildLayoutT useJoblib nJobs cfg images psf) = .error e := by
  rw [(layout_eq (useJoblib := useJoblib) hr hi hj).1]
  cases mk.buildLayout with
  | error e' => exact ⟨fun h => h ▸ rfl, fun h => by injection h with h; rw [h]⟩
  | ok m => exact ⟨fun h => (nomatch h), fun h => (nomatch h)⟩

/-- What `validate_meds` sees of a file, given the column names of its tables. -/
def extsOf (f : Fits) (columns : String → List String) : List Validate.Ext := f.hdus.map (fun h => ⟨h.1, columns h.1⟩)

theorem ext?_extsOf {f : Fits} {columns : String → List String} {s : String} (h : s ∈ f.hdus.map Prod.fst) :
    Validate.ext? (extsOf f columns) s = some ⟨s, columns s⟩ := by
  unfold Validate.ext? extsOf
  obtain ⟨hs⟩ := f
  dsimp only at h ⊢
  induction hs with
  | nil => cases h
  | cons x xs ih =>
    rw [List.map_cons, List.find?_cons]
    by_cases hx : x.1 = s
    · simp [hx]
    · rw [show ((⟨x.1, columns x.1⟩ : Validate.Ext).name == s) = false by simpa using hx]
      rw [List.map_cons] at h
      exact ih ((List.mem_cons.mp h).resolve_left (fun hh => hx hh.symm))

theorem writeData_names {mk : Maker} {f : Fits} (h : mk.writeData = .ok f) :
    f.hdus.map Prod.fst = (mk.tableHdus ++ mk.reservedHdus ++ mk.psfInfoHdus).map Prod.fst := by
  unfold Maker.writeData at h
  dsimp only at h
  obtain ⟨h1, g1, h⟩ := Res.bind_eq_ok.mp h
  obtain ⟨h2, g2, h⟩ := Res.bind_eq_ok.mp h
  injection h with h
  have e1 : h1.map Prod.fst = (mk.tableHdus ++ mk.reservedHdus).map Prod.fst :=
    foldRes_inv (P := fun hs : List (String × Hdu) => hs.map Prod.fst = (mk.tableHdus ++ mk.reservedHdus).map Prod.fst) rfl
      (fun _ _ _ _ hP hx => (modifyImage_ok hx).2.2.trans hP) g1
  have e2 : h2.map Prod.fst = h1.map Prod.fst := by
    split at g2
    · exact (modifyImage_ok g2).2.2
    · injection g2 with g2
      rw [g2]
  rw [← h, List.map_append, List.map_append, e2, e1]

/-- **C66** (files of the maker) `validate_meds` finds nothing to complain about in a file that the maker wrote: the extensions are there, the table
`object_data` has the columns of the structured array, and `image_info` those of the array that the constructor accepted. -/
theorem C66_written_file_complete {cfg : MakerCfg} {hn : Bool} {objs : List Maker.InputObj} {images : List SrcImage} {psf : Option (List PsfModel)}
    {psfInfo : Option String} {md : String} {mk mk' : Maker} {f : Fits} {obj info full t : Arr Val} {useJoblib : Bool} {nJobs : Nat} {n m : Int}
    {columns : String → List String} (hr : Represents obj objs)
    (hinfo : checkImageInfo info = .ok ()) (hi : Maker.init cfg hn objs images psf psfInfo md = .ok mk) (hw : mk.write = .ok (mk', f)) (hj : 0 < nJobs)
    (hfull : initT cfg images.length psf.isSome obj = .ok full) (ht : buildLayoutT useJoblib nJobs cfg images psf full = .ok (t, n, m))
    (hod : columns "object_data" = t.names) (hii : columns "image_info" = info.names) :
    Validate.validate (extsOf f columns) = .ok [] := by
  obtain ⟨hb, hwd⟩ := Maker.write_ok hw
  obtain ⟨full', t', w, keep, hfull', ht', hH, _⟩ := C64_catalogue_written (useJoblib := useJoblib) hr hi hb hj
  rw [hfull] at hfull'
  injection hfull' with hfull'
  subst hfull'
  rw [ht] at ht'
  injection ht' with ht'
  injection ht' with ht' _
  subst ht'
  have hnames := writeData_names hwd
  have htypes : ∃ rest, mk'.types = "image" :: rest := by
    obtain ⟨e1, e2, e3, _, _, e6, _⟩ := Maker.init_ok hi
    have hmk : mk'.types = mk.types := by
      obtain ⟨_, _, _, _, _, _, _, _, he, _⟩ := Maker.buildLayout_ok hb (nmax := Maker.initialNmax cfg images.length) (by
        obtain ⟨_, _, _, _, _, _, _, e8, _⟩ := Maker.init_ok hi
        intro o ho
        rw [e8] at ho
        obtain ⟨o1, ho1, rfl⟩ := List.mem_map.mp ho
        obtain ⟨x, _, rfl⟩ := List.mem_map.mp ho1
        unfold Maker.forceEven
        split <;> exact ⟨rfl, rfl⟩)
      rw [he]
    unfold Maker.setCutoutTypes at e6
    dsimp only at e6
    generalize (if "image" ∈ cfg.cutoutTypes then cfg.cutoutTypes.erase "image" else cfg.cutoutTypes) = rest at e6
    split at e6
    · cases e6
    · injection e6 with e6
      exact ⟨_, hmk.trans e6.symm⟩
  obtain ⟨rest, htypes⟩ := htypes
  have hmem : ∀ s ∈ ["object_data", "image_info", "metadata", "image_cutouts"], s ∈ f.hdus.map Prod.fst := by
    intro s hs
    rw [hnames]
    unfold Maker.tableHdus Maker.reservedHdus
    rw [htypes]
    simp only [List.mem_cons, List.not_mem_nil, or_false] at hs
    rcases hs with rfl | rfl | rfl | rfl <;> simp
  obtain ⟨l, hl, h1, h2, h3⟩ := Validate.C66_reports_partial (f := extsOf f columns) (ext?_extsOf (hmem "object_data" (by simp)))
    (ext?_extsOf (hmem "image_info" (by simp))) (ext?_extsOf (hmem "metadata" (by simp)))
  rw [hl]
  congr 1
  refine List.eq_nil_iff_forall_not_mem.mpr fun x hx => ?_
  cases x with
  | ext e =>
    have := ((h1 e).mp hx).2
    rw [ext?_extsOf (hmem "image_cutouts" (by simp))] at this
    cases this
  | objectColumn s =>
    obtain ⟨hs, hno⟩ := (h2 s).mp hx
    dsimp only at hno
    rw [hod] at hno
    have : s ∈ t.names := by
      have hc : s ∈ scalarCols.map Prod.fst ∨ s ∈ epochCols.map Prod.fst := by
        have : ∀ s ∈ Validate.catalogueColumns, s ∈ scalarCols.map Prod.fst ∨ s ∈ epochCols.map Prod.fst := by decide
        exact this s hs
      rcases hc with hc | hc
      · obtain ⟨p, hp, rfl⟩ := List.mem_map.mp hc
        obtain ⟨h1, h2⟩ := Arr.mem_of_col? (hH.scalar p hp)
        exact List.mem_map_of_mem (f := fun c : Col Val => c.field.name) h1
      · obtain ⟨p, hp, rfl⟩ := List.mem_map.mp hc
        obtain ⟨h1, h2⟩ := Arr.mem_of_col? (hH.epoch p hp)
        exact List.mem_map_of_mem (f := fun c : Col Val => c.field.name) h1
    exact hno s this (Validate.catalogueColumns_lower s hs)
  | infoColumn s =>
    obtain ⟨hs, hno⟩ := (h3 s).mp hx
    dsimp only at hno
    rw [hii] at hno
    have hlow : s.toLower = s := by
      have : ∀ s ∈ ["image_path", "image_ext", "image_id", "image_flags", "magzp", "scale"], s.toLower = s := by decide +kernel
      exact this s hs
    have hall : s ∈ info.names := by
      obtain ⟨h1, h2, h3, h4, h5, _⟩ := C67_image_info.mp hinfo
      simp only [List.mem_cons, List.not_mem_nil, or_false] at hs
      rcases hs with rfl | rfl | rfl | rfl | rfl | rfl
      · exact (h1 "image" (by decide)).1
      · exact (h1 "image" (by decide)).2
      all_goals assumption
    exact hno s hall hlow

/-! ## A concrete catalogue -/

namespace Ex
open Meds.Ex

/-- A structured array with the three input columns, the sky position and two columns of the user, one of them with two entries in each row. -/
def arr (l : List Maker.InputObj) : Arr Val :=
  ⟨l.length,
   [⟨⟨"flux", some 2⟩, l.map (fun o => [.num (o.id * 2), .num (o.id * 3)])⟩, ⟨⟨"id", none⟩, l.map (fun o => [.num o.id])⟩,
    ⟨⟨"box_size", none⟩, l.map (fun o => [.num o.boxSize])⟩, ⟨⟨"ra", none⟩, l.map (fun o => [.num o.sky.ra])⟩,
    ⟨⟨"dec", none⟩, l.map (fun o => [.num o.sky.dec])⟩, ⟨⟨"name", none⟩, l.map (fun o => [.str o.extra])⟩]⟩

/-- Three objects of which the middle one is outside of the first image. -/
def three : List Maker.InputObj := [obj 10 3 (5/2) (7/3), obj 12 4 90 90, obj 11 2 (9/2) 2]

theorem arr_represents : Represents (arr three) three :=
  ⟨⟨by decide +kernel, by decide +kernel, by decide +kernel⟩, by decide +kernel, by decide +kernel, by decide +kernel, by decide +kernel, by decide +kernel,
    ⟨.inr (.inr ⟨by decide +kernel, by decide +kernel, by decide +kernel⟩), .inr ⟨by decide +kernel, by decide +kernel⟩⟩, by decide +kernel⟩

/-- Two objects with colours of their own for positions and for PSFs, and a column `wcs_color` that is not used. -/
def coloured : List Maker.InputObj :=
  [{ obj 10 3 (5/2) (7/3) with sky := ⟨5/2, 7/3, some 1, some (1/2)⟩ }, { obj 11 2 (9/2) 2 with sky := ⟨9/2, 2, some 3, some (1/4)⟩ }]

def colouredArr : Arr Val :=
  { arr coloured with cols := (arr coloured).cols ++
    [⟨⟨"psf_color", none⟩, [[.num (1/2)], [.num (1/4)]]⟩, ⟨⟨"wcs_color", none⟩, [[.num 7], [.num 8]]⟩, ⟨⟨"color", none⟩, [[.num 1], [.num 3]]⟩] }

theorem coloured_represents : Represents colouredArr coloured :=
  ⟨⟨by decide +kernel, by decide +kernel, by decide +kernel⟩, by decide +kernel, by decide +kernel, by decide +kernel, by decide +kernel, by decide +kernel,
    ⟨.inl ⟨[1, 3], by unfold HasNumbers; decide +kernel, by decide +kernel⟩, .inl ⟨[1/2, 1/4], by unfold HasNumbers; decide +kernel, by decide +kernel⟩⟩,
    by decide +kernel⟩

-- assigning to a column that is not there
example : (assign (arr three) "ncutout" (fun c => .ok c)).map (·.n) = .error .valueError ∧ (assign (arr three) "ra" (fun c => .ok c)).map (·.n) = .ok 3 := by
  decide +kernel

/-- The catalogue of the concrete run with trimming, laid out by two processes. -/
def result : Res (Arr Val × Int × Int) :=
  initT { cfg with trimToCoadd := true } 3 true (arr three) >>= buildLayoutT true 2 { cfg with trimToCoadd := true } images (some psfs)

-- the hypotheses are met, the middle object is gone, and the columns of the user have lost its row
example : ∃ mk mk' f, Maker.init { cfg with trimToCoadd := true } true three images (some psfs) none "meta" = .ok mk ∧ mk.write = .ok (mk', f) ∧
    mk'.objs.map (·.id) = [10, 11] := by
  have h : (match (do let mk ← Maker.init { cfg with trimToCoadd := true } true three images (some psfs) none "meta"; mk.write : Res (Maker × Fits)) with
    | .ok r => decide (r.1.objs.map (·.id) = [10, 11]) | .error _ => false) = true := by decide +kernel
  cases hm : Maker.init { cfg with trimToCoadd := true } true three images (some psfs) none "meta" with
  | error e => rw [hm] at h; cases h
  | ok mk =>
    rw [hm] at h
    cases hw : mk.write with
    | error e => simp only [bind, Except.bind, hw] at h; cases h
    | ok r => simp only [bind, Except.bind, hw] at h; exact ⟨mk, r.1, r.2, rfl, hw, of_decide_eq_true h⟩

example : (match result with
    | .ok (t, n, _) => decide (n = 44 ∧ t.col? "flux" = some ⟨⟨"flux", some 2⟩, [[.num 20, .num 30], [.num 22, .num 33]]⟩ ∧
        t.col? "file_id" = some ⟨⟨"file_id", some 3⟩, [[.num 0, .num 1, .num (-9999)], [.num 0, .num 1, .num 2]]⟩ ∧
        t.col? "ncutout" = some ⟨⟨"ncutout", none⟩, [[.num 2], [.num 3]]⟩)
    | .error _ => false) = true := by decide +kernel

-- without trimming the middle object is an error, in both
example : (match Maker.init cfg true three images (some psfs) none "meta" with
    | .ok mk => (match mk.buildLayout with | .ok _ => none | .error e => some e) | .error _ => none) = some Err.creationError := by decide +kernel

example : (match initT cfg 3 true (arr three) >>= buildLayoutT false 1 cfg images (some psfs) with | .ok _ => none | .error e => some e) =
    some Err.creationError := by decide +kernel

end Ex

end Table
end Meds
