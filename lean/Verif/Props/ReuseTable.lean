import Verif.Props.Table
import Verif.Props.Reuse

/-!
# A catalogue with the maker's own columns, as a structured array (C63)
-/

namespace Meds
namespace Table
open Columns Vec

/-- A structured array is a catalogue as the maker writes it, with PSF columns or without: the columns of the maker hold the rows, per-epoch columns have
width `w`, the columns of colours hold those of the rows; other columns are the user's. -/
structure OldCatalogue (hadPsf : Bool) (obj : Arr Val) (rows : List ObjRow) (w : Nat) : Prop where
  wf : obj.WF
  holds : Holds hadPsf obj rows w
  nopsf : hadPsf = false → ∀ s ∈ psfNames, s ∉ obj.names
  colours : ColoursOf obj (rows.map (·.sky))
  slots : ∀ o ∈ rows, o.slots.length = w

theorem OldCatalogue.sky {hadPsf : Bool} {obj : Arr Val} {rows : List ObjRow} {w : Nat} (h : OldCatalogue hadPsf obj rows w) :
    skies obj = .ok (rows.map (·.sky)) :=
  h.colours.skies (by rw [h.holds.n, List.length_map])
    (by have := h.holds.scalar ("ra", fun o => .num o.sky.ra) (by simp [scalarCols]); unfold HasNumbers; rw [this]; simp)
    (by have := h.holds.scalar ("dec", fun o => .num o.sky.dec) (by simp [scalarCols]); unfold HasNumbers; rw [this]; simp)

/-- What the constructor copies of a row. -/
def copied (keep : Bool) (o : ObjRow) : ObjRow :=
  if keep then o
  else { o with
    psfRowSize1 := DEFVAL, psfColSize1 := DEFVAL,
    slots := o.slots.map (fun s => { s with psfRowSize := DEFVAL, psfColSize := DEFVAL, psfCutoutRow := DEFVAL, psfCutoutCol := DEFVAL, psfStartRow := DEFVAL }) }

/-- The columns that are not the maker's. -/
def ownCols (obj : Arr Val) : List (Col Val) := obj.cols.filter (fun c => !(inputNames.contains c.field.name) && !(computedNames.contains c.field.name))

theorem mem_ownCols {obj : Arr Val} {c : Col Val} : c ∈ ownCols obj ↔ c ∈ obj.cols ∧ c.field.name ∉ inputNames ∧ c.field.name ∉ computedNames := by
  unfold ownCols
  rw [List.mem_filter, Bool.and_eq_true, Bool.not_eq_true', Bool.not_eq_true', List.contains_eq_mem, List.contains_eq_mem, decide_eq_false_iff_not,
    decide_eq_false_iff_not]

variable {hadPsf psf : Bool} {obj : Arr Val} {rows : List ObjRow} {w : Nat} {cfg : MakerCfg}

theorem OldCatalogue.userNames (h : OldCatalogue hadPsf obj rows w) : UserNames (ownCols obj) := by
  refine ⟨(List.Sublist.map _ List.filter_sublist).nodup h.wf.nodup, fun c hc => ?_⟩
  exact (mem_ownCols.mp hc).2

theorem own_userFields : userFields obj = (ownCols obj).map (·.field) := by
  unfold Columns.userFields ownCols Arr.descr
  rw [List.filter_map]
  congr 1
  refine List.filter_congr fun c _ => ?_
  rw [Function.comp_apply]
  have h2 : ∀ s, (!((scalarNames ++ epochNames).contains s) &&
      !(["psf_row_size", "psf_col_size", "psf_cutout_row", "psf_cutout_col", "psf_start_row"].contains s)) = (!(inputNames.contains s) && !(computedNames.contains s)) := by
    intro s
    simp only [List.contains_eq_mem, ← decide_not, ← Bool.decide_and]
    refine decide_eq_decide.mpr ?_
    simp only [inputNames, computedNames, scalarNames, epochNames, List.mem_append, List.mem_cons, List.not_mem_nil, or_false]
    tauto
  exact h2 _

theorem own_dtype (nmax : Nat) : outputDtype nmax (extraFields psf obj nmax) = (colFns psf nmax (ownCols obj)).map (·.1) := by
  rw [extraFields_eq, own_userFields, colFns_fields]

theorem mem_names {s : String} {c : Col Val} (hc : obj.col? s = some c) : s ∈ obj.names := by
  obtain ⟨h1, h2⟩ := Arr.mem_of_col? hc
  rw [← h2]
  exact List.mem_map_of_mem (f := fun c : Col Val => c.field.name) h1

theorem OldCatalogue.required (h : OldCatalogue hadPsf obj rows w) : checkRequired obj = .ok () := by
  unfold checkRequired
  have hreq : inputNames.filter (fun s => !(obj.names.contains s)) = [] := by
    rw [List.filter_eq_nil_iff]
    intro s hs hh
    rw [Bool.not_eq_true', List.contains_eq_mem, decide_eq_false_iff_not] at hh
    have : ∀ s ∈ inputNames, ∃ p ∈ scalarCols, p.1 = s := by decide
    obtain ⟨p, hp, rfl⟩ := this s hs
    exact hh (mem_names (h.holds.scalar p hp))
  rw [hreq, if_neg (by simp)]

/-- The columns of a table, with the PSF columns only when there are PSF data. -/
theorem mem_colFns_psf {user : List (Col Val)} {p : Field × (List ObjRow → List (List Val))} (hp : p ∈ colFns psf w user) :
    (∃ x ∈ scalarCols, p = (⟨x.1, none⟩, fun rows => rows.map (fun o => [x.2 o]))) ∨
    (∃ x ∈ epochCols, p = (⟨x.1, some w⟩, fun rows => rows.map (fun o => o.slots.map x.2))) ∨
    (∃ c ∈ user, p = (c.field, fun _ => c.vals)) ∨
    (psf = true ∧ ∃ x ∈ psfCols, p = (⟨x.1, some w⟩, fun rows => rows.map (fun o => o.slots.map x.2))) := by
  unfold colFns at hp
  rcases List.mem_append.mp hp with hp | hp
  · rcases List.mem_append.mp hp with hp | hp
    · rcases List.mem_append.mp hp with hp | hp
      · obtain ⟨x, hx, rfl⟩ := List.mem_map.mp hp
        exact Or.inl ⟨x, hx, rfl⟩
      · obtain ⟨x, hx, rfl⟩ := List.mem_map.mp hp
        exact Or.inr (Or.inl ⟨x, hx, rfl⟩)
    · obtain ⟨x, hx, rfl⟩ := List.mem_map.mp hp
      exact Or.inr (Or.inr (Or.inl ⟨x, hx, rfl⟩))
  · cases psf
    · cases hp
    · obtain ⟨x, hx, rfl⟩ := List.mem_map.mp hp
      exact Or.inr (Or.inr (Or.inr ⟨rfl, x, hx, rfl⟩))

theorem copied_scalar {x : String × (ObjRow → Val)} (hx : x ∈ scalarCols) (k : Bool) (o : ObjRow) : x.2 (copied k o) = x.2 o := by
  unfold copied
  split
  · rfl
  · simp only [scalarCols, List.mem_cons, List.not_mem_nil, or_false] at hx
    rcases hx with rfl | rfl | rfl | rfl | rfl <;> rfl

theorem copied_epoch {x : String × (Slot → Val)} (hx : x ∈ epochCols) (k : Bool) (o : ObjRow) : (copied k o).slots.map x.2 = o.slots.map x.2 := by
  unfold copied
  split
  · rfl
  · dsimp only
    rw [List.map_map]
    refine List.map_congr_left fun s _ => ?_
    simp only [epochCols, List.mem_cons, List.not_mem_nil, or_false] at hx
    rcases hx with rfl | rfl | rfl | rfl | rfl | rfl | rfl | rfl | rfl | rfl | rfl | rfl <;> rfl

theorem setObjData_old (h : OldCatalogue hadPsf obj rows w) :
    setObjData (.num 0) (.num DEFVAL) psf w obj = .ok (table psf w (ownCols obj) (rows.map (copied (psf && hadPsf)))) := by
  unfold setObjData
  rw [h.required]
  rw [show (Except.ok () >>= fun _ => fullObjData (.num 0) (.num DEFVAL) psf w obj : Res (Arr Val)) = fullObjData (.num 0) (.num DEFVAL) psf w obj from rfl]
  unfold fullObjData outputStruct
  have hu := h.userNames
  rw [own_dtype, filled_nodup (by rw [List.map_map]; exact colFns_nodup hu), Res.ok_bind]
  have hfield : ∀ c ∈ obj.cols, ∀ f ∈ (colFns psf w (ownCols obj)).map (·.1), c.field.name = f.name → c.field = f := by
    intro c hc f hf hn
    obtain ⟨p, hp, rfl⟩ := List.mem_map.mp hf
    have e := Arr.col?_of_mem h.wf.nodup hc
    rcases mem_colFns_psf hp with ⟨x, hx, rfl⟩ | ⟨x, hx, rfl⟩ | ⟨d, hd, rfl⟩ | ⟨hps, x, hx, rfl⟩
    · dsimp only at hn ⊢
      rw [hn, h.holds.scalar x hx] at e
      injection e with e
      rw [← e]
    · dsimp only at hn ⊢
      rw [hn, h.holds.epoch x hx] at e
      injection e with e
      rw [← e]
    · have e2 := Arr.col?_of_mem h.wf.nodup (mem_ownCols.mp hd).1
      dsimp only at hn
      rw [hn, e2] at e
      injection e with e
      rw [e]
    · dsimp only at hn ⊢
      cases hh : hadPsf with
      | true =>
        rw [hn, h.holds.psfs hh x hx] at e
        injection e with e
        rw [← e]
      | false =>
        have : ∀ y ∈ psfCols, y.1 ∈ psfNames := by decide
        exact absurd (List.mem_map_of_mem (f := fun c : Col Val => c.field.name) hc) (hn ▸ h.nopsf hh _ (this x hx))
  rw [copyFields_filled rfl hfield]
  unfold table
  rw [List.map_map, List.map_map]
  congr 2
  · rw [List.length_map]; exact h.holds.n
  refine List.map_congr_left fun p hp => ?_
  rw [Function.comp_apply, Function.comp_apply]
  dsimp only
  rcases mem_colFns_psf hp with ⟨x, hx, rfl⟩ | ⟨x, hx, rfl⟩ | ⟨c, hc, rfl⟩ | ⟨hps, x, hx, rfl⟩
  · dsimp only
    rw [h.holds.scalar x hx, Option.getD_some, List.map_map]
    congr 1
    refine List.map_congr_left fun o _ => ?_
    rw [Function.comp_apply, copied_scalar hx]
  · dsimp only
    rw [h.holds.epoch x hx, Option.getD_some, List.map_map]
    congr 1
    refine List.map_congr_left fun o _ => ?_
    rw [Function.comp_apply, copied_epoch hx]
  · dsimp only
    rw [Arr.col?_of_mem h.wf.nodup (mem_ownCols.mp hc).1, Option.getD_some]
  · dsimp only
    cases hh : hadPsf with
    | true =>
      rw [h.holds.psfs hh x hx, Option.getD_some, List.map_map, hps]
      rfl
    | false =>
      have hin : ∀ y ∈ psfCols, y.1 ∈ psfNames ∧ y.1 ≠ "ncutout" := by decide
      rw [Arr.col?_none (h.nopsf hh _ (hin x hx).1), Option.getD_none, if_neg (hin x hx).2, h.holds.n, List.map_map]
      congr 1
      rw [← List.map_const']
      refine List.map_congr_left fun o ho => ?_
      rw [Function.comp_apply, Bool.and_false, copied, if_neg (by simp), List.map_map, ← h.slots o ho, Option.getD_some, ← List.map_const']
      refine List.map_congr_left fun s _ => ?_
      simp only [psfCols, List.mem_cons, List.not_mem_nil, or_false] at hx
      rcases hx with rfl | rfl | rfl | rfl | rfl <;> rfl

theorem contains_col? (a : Arr Val) (s : String) : a.names.contains s = (a.col? s).isSome := by
  cases ha : a.col? s with
  | none =>
    rw [List.contains_eq_mem, Option.isSome_none, decide_eq_false_iff_not]
    intro hm
    obtain ⟨c, hc, he⟩ := List.mem_map.mp hm
    exact List.find?_eq_none.mp ha c hc (by simpa using he)
  | some c =>
    rw [List.contains_eq_mem, Option.isSome_some, decide_eq_true_iff]
    exact mem_names ha

theorem copied_sky (k : Bool) (o : ObjRow) : (copied k o).sky = o.sky := by
  unfold copied; split <;> rfl

theorem skyOk_old (h : OldCatalogue hadPsf obj rows w) (k : Bool) : SkyOk psf w (ownCols obj) (rows.map (copied k)) := by
  have hu := h.userNames
  have hcol : ∀ s, s ∉ computedNames → (table psf w (ownCols obj) (rows.map (copied k))).col? s = obj.col? s := by
    intro s hs
    by_cases hi : s ∈ inputNames
    · have : ∀ s ∈ inputNames, ∃ p ∈ scalarCols, p.1 = s := by decide
      obtain ⟨p, hp, rfl⟩ := this s hi
      rw [h.holds.scalar p hp]
      refine (col?_table hu (mem_scalar hp) _).trans ?_
      dsimp only
      rw [List.map_map]
      congr 2
      refine List.map_congr_left fun o _ => ?_
      rw [Function.comp_apply, copied_scalar hp]
    · cases ho : obj.col? s with
      | none =>
        refine Arr.col?_none fun hm => ?_
        rw [table_names] at hm
        obtain ⟨p, hp, rfl⟩ := List.mem_map.mp hm
        rcases mem_colFns hp with ⟨x, hx, rfl⟩ | ⟨x, hx, rfl⟩ | ⟨c, hc, rfl⟩
        · have : ∀ x ∈ scalarCols, x.1 ∈ computedNames ∨ x.1 ∈ inputNames := by decide
          exact (this x hx).elim hs hi
        · have : ∀ y ∈ epochCols ++ psfCols, y.1 ∈ computedNames := by decide
          exact hs (this x hx)
        · have := Arr.col?_of_mem h.wf.nodup (mem_ownCols.mp hc).1
          dsimp only at ho
          rw [ho] at this
          cases this
      | some c =>
        obtain ⟨hc, rfl⟩ := Arr.mem_of_col? ho
        exact col?_table (p := (c.field, fun _ => c.vals)) hu (List.mem_append_left _ (List.mem_append_right _
          (List.mem_map_of_mem (f := fun c : Col Val => ((c.field, fun _ => c.vals) : Field × (List ObjRow → List (List Val))))
            (mem_ownCols.mpr ⟨hc, hi, hs⟩)))) _
  have hnum : ∀ s, s ∉ computedNames → numbers (table psf w (ownCols obj) (rows.map (copied k))) s = numbers obj s := by
    intro s hs
    unfold numbers column
    rw [hcol s hs]
  have hcont : ∀ s, s ∉ computedNames → (table psf w (ownCols obj) (rows.map (copied k))).names.contains s = obj.names.contains s := by
    intro s hs
    rw [contains_col?, contains_col?, hcol s hs]
  have hn : (table psf w (ownCols obj) (rows.map (copied k))).n = obj.n := by
    rw [h.holds.n]; simp [table]
  unfold SkyOk
  have : skies (table psf w (ownCols obj) (rows.map (copied k))) = skies obj := by
    unfold skies wcsColors psfColors
    rw [hnum "ra" (by decide), hnum "dec" (by decide), hcont "color" (by decide), hcont "wcs_color" (by decide), hcont "psf_color" (by decide),
      hnum "color" (by decide), hnum "wcs_color" (by decide), hnum "psf_color" (by decide), hn]
  rw [this, h.sky, List.map_map]
  congr 1
  refine List.map_congr_left fun o _ => ?_
  rw [Function.comp_apply, copied_sky]

theorem forall₂_eq_map {α β : Type} {R : α → β → Prop} {f : α → β} {l : List α} {l' : List β} (h : List.Forall₂ R l l') (hf : ∀ a b, R a b → b = f a) :
    l' = l.map f := by
  induction h with
  | nil => rfl
  | cons hab _ ih => rw [List.map_cons, ← ih, hf _ _ hab]

/-- The dtype of a catalogue row by row, as the structured array has it. -/
def kindOf (hadPsf : Bool) : ColKind := if hadPsf then .perEpoch else .absent

theorem initFrom_rows {t : ObjTable} {images : List SrcImage} {psf : Option (List PsfModel)} {psfInfo : Option String} {md : String} {mk : Maker}
    (hd : t.dtype.psfRowCol = kindOf hadPsf) (hi : Maker.initFrom cfg t images psf psfInfo md = .ok mk) :
    mk.cfg = cfg ∧ mk.images = images ∧ mk.psf = psf ∧ mk.totalPsfPixels = 0 ∧ mk.objs = (t.rows.map (copied (psf.isSome && hadPsf))).map Maker.forceEven ∧
    ∀ o ∈ t.rows, o.slots.length = Maker.initialNmax cfg images.length := by
  unfold Maker.initFrom at hi
  obtain ⟨_, _, hi⟩ := Res.bind_eq_ok.mp hi
  split at hi
  · cases hi
  obtain ⟨rs, hr, hi⟩ := Res.bind_eq_ok.mp hi
  injection hi with hi
  subst hi
  have hrow : ∀ o o', Maker.fullRowFrom t.dtype psf (Maker.initialNmax cfg images.length) o = .ok o' →
      o' = copied (psf.isSome && hadPsf) o ∧ o.slots.length = Maker.initialNmax cfg images.length := by
    intro o o' ho
    have hlen := (fullRowFrom_keeps ho).2.2.1
    refine ⟨?_, hlen⟩
    unfold Maker.fullRowFrom at ho
    rw [if_neg (not_not_intro hlen), hd] at ho
    cases psf <;> cases hadPsf <;> (injection ho with ho; rw [← ho]; rfl)
  have hf := forall₂_mapRes hr
  refine ⟨rfl, rfl, rfl, rfl, ?_, ?_⟩
  · dsimp only
    congr 1
    exact forall₂_eq_map hf (fun a b hab => (hrow a b hab).1)
  · intro o ho
    obtain ⟨i, hi⟩ := List.mem_iff_getElem?.mp ho
    obtain ⟨y, _, hy⟩ := mapRes_getElem? hr hi
    exact (hrow _ _ hy).2

/-- **C63** (structured array) What is said about the reuse of a catalogue holds for the array itself: when the catalogue of an existing file is given back,
the columns of the new catalogue hold the rows of the layout row by row, with the same totals. -/
theorem C63_structured_array {t : ObjTable} {images : List SrcImage} {psf : Option (List PsfModel)} {psfInfo : Option String} {md : String} {mk mk' : Maker}
    {useJoblib : Bool} {nJobs : Nat} (hr : OldCatalogue hadPsf obj t.rows w) (hne : t.rows ≠ []) (hd : t.dtype.psfRowCol = kindOf hadPsf)
    (hi : Maker.initFrom cfg t images psf psfInfo md = .ok mk) (hb : mk.buildLayout = .ok mk') (hj : 0 < nJobs) :
    ∃ (full out : Arr Val) (w' : Nat), initT cfg images.length psf.isSome obj = .ok full ∧
      buildLayoutT useJoblib nJobs cfg images psf full = .ok (out, mk'.totalPixels, mk'.totalPsfPixels) ∧ Holds psf.isSome out mk'.objs w' := by
  obtain ⟨e1, e2, e3, e4, e5, e6⟩ := initFrom_rows hd hi
  have hw : w = Maker.initialNmax cfg images.length := by
    obtain ⟨o, ho⟩ := List.exists_mem_of_ne_nil _ hne
    rw [← e6 o ho, hr.slots o ho]
  have hT : initT cfg images.length psf.isSome obj = .ok (table psf.isSome w (ownCols obj) mk.objs) := by
    unfold initT
    rw [← hw, setObjData_old hr, Res.ok_bind, forceEvenT_table hr.userNames, e5]
  have hS : SkyOk mk.psf.isSome w (ownCols obj) mk.objs := by
    rw [e3, e5]
    refine (skyOk_old hr (psf.isSome && hadPsf)).congr hr.userNames ?_
    rw [List.map_map]
    refine List.map_congr_left fun o _ => ?_
    rw [Function.comp_apply]
    exact (forceEven_keeps o).2.1
  have hl : ∀ c ∈ ownCols obj, c.vals.length = mk.objs.length := by
    intro c hc
    rw [hr.wf.rows c (mem_ownCols.mp hc).1, hr.holds.n, e5, List.length_map, List.length_map]
  have hsl : ∀ o ∈ mk.objs, o.slots.length = w := by
    intro o ho
    rw [e5] at ho
    obtain ⟨o1, ho1, rfl⟩ := List.mem_map.mp ho
    obtain ⟨x, hx, rfl⟩ := List.mem_map.mp ho1
    rw [(forceEven_keeps _).2.2]
    unfold copied
    split
    · exact hr.slots x hx
    · dsimp only
      rw [List.length_map]; exact hr.slots x hx
  have key := buildLayoutT_table (useJoblib := useJoblib) hj mk (fun _ => e4) hr.userNames (by rw [hw]; exact initialNmax_ge cfg images.length) hS hl hsl
  rw [Maker.buildLayoutV_eq hj, hb, Res.ok_bind, e1, e2, e3] at key
  have hu' : UserNames ((ownCols obj).map (takeCol (keepRows cfg images mk.objs))) := (takeCol_names _).mpr hr.userNames
  refine ⟨_, _, widthOf mk'.objs, hT, key, rfl, ?_, ?_, ?_⟩
  · intro p hp
    exact col?_table hu' (mem_scalar hp) mk'.objs
  · intro p hp
    exact col?_table hu' (mem_epoch hp) mk'.objs
  · intro hpsf p hp
    rw [hpsf]
    exact col?_table hu' (mem_psf hp) mk'.objs

/-- **C63** (structured array, refused) Per-epoch columns of any other width but one are a ValueError in the constructor. -/
theorem C63_structured_array_refused (hr : OldCatalogue hadPsf obj rows w) (nimage : Nat) (hw : w ≠ Maker.initialNmax cfg nimage) (h1 : w ≠ 1) :
    initT cfg nimage psf obj = .error .valueError := by
  unfold initT setObjData
  rw [hr.required]
  rw [show (Except.ok () >>= fun _ => fullObjData (.num 0) (.num DEFVAL) psf (Maker.initialNmax cfg nimage) obj : Res (Arr Val)) =
    fullObjData (.num 0) (.num DEFVAL) psf (Maker.initialNmax cfg nimage) obj from rfl]
  generalize Maker.initialNmax cfg nimage = nmax at hw ⊢
  unfold fullObjData outputStruct
  rw [own_dtype, filled_nodup (by rw [List.map_map]; exact colFns_nodup hr.userNames), Res.ok_bind]
  unfold copyFields
  rw [if_neg (by simp)]
  have herr : ∀ (n : Nat) (d s : Option Nat) (v : List (List Val)) (e : Err), broadcast n d s v = .error e → e = .valueError := by
    intro n d s v e he
    unfold broadcast at he
    cases d <;> cases s <;> dsimp only at he
    · cases he
    · split at he <;> cases he; rfl
    · split at he
      · cases he
      · split at he <;> cases he; rfl
    · split at he
      · cases he
      · split at he <;> cases he; rfl
  have : mapRes (copyInto obj) (((colFns psf nmax (ownCols obj)).map (·.1)).map (fun f => ({ field := f, vals := List.replicate obj.n (List.replicate (f.width.getD 1)
      (if f.name = "ncutout" then (.num 0 : Val) else .num DEFVAL)) } : Col Val))) = .error .valueError := by
    refine Maker.mapRes_error ?_ ?_
    · intro c _ e he
      unfold copyInto at he
      split at he
      · cases he
      · rename_i s _
        cases hb : broadcast obj.n c.field.width s.field.width s.vals with
        | ok v => rw [hb] at he; cases he
        | error e' =>
          rw [hb] at he
          injection he with he
          rw [← he]
          exact herr _ _ _ _ _ hb
    · refine ⟨_, List.mem_map_of_mem (List.mem_map_of_mem (mem_epoch (p := ("file_id", fun s => .num s.fileId)) (by simp [epochCols]))), .valueError, ?_⟩
      unfold copyInto
      dsimp only
      rw [hr.holds.epoch ("file_id", fun s => .num s.fileId) (by simp [epochCols])]
      dsimp only
      unfold broadcast
      dsimp only
      rw [if_neg hw, if_neg h1]
      rfl
  dsimp only
  rw [this]
  rfl

/-! ## A concrete catalogue -/

namespace Ex
open Meds.Ex

/-- The catalogue of the concrete file as an array, with a column of the user. -/
def old : Arr Val := table true 3 [⟨⟨"flux", some 2⟩, med.cat.rows.map (fun o => [.num (o.id * 2), .num (o.id * 3)])⟩] med.cat.rows

theorem old_catalogue : OldCatalogue true old med.cat.rows 3 :=
  ⟨⟨by decide +kernel, by decide +kernel, by decide +kernel⟩, ⟨by decide +kernel, by decide +kernel, by decide +kernel, fun _ => by decide +kernel⟩,
    fun h => (nomatch h),
    ⟨.inr (.inr ⟨by decide +kernel, by decide +kernel, by decide +kernel⟩), .inr ⟨by decide +kernel, by decide +kernel⟩⟩, by decide +kernel⟩

-- given back with room for three epochs, as in the file, the array is taken; with room for four it is refused
example : (match initT Meds.Ex.cfg 3 true old with | .ok _ => true | .error _ => false) = true := by decide +kernel

example : (match initT Meds.Ex.cfg 4 true old with | .ok _ => none | .error e => some e) = some Err.valueError := by decide +kernel

-- with the counts of the first object only, one image more is laid out behind the old epochs
example : okAnd (Maker.initFrom { Meds.Ex.cfg with ncutoutMax := some 3, checkInCoadd := false } { med.cat with rows := med.cat.rows.take 1 } [src 5 0 100 1] none none "meta")
    (fun k => okAnd k.buildLayout (fun r => decide (r.objs.map (·.ncutout) = [3]) && decide ((r.objs.map (fun o => o.slots.map (·.fileId))) = [[0, 1, 0]]))) = true := by
  decide +kernel

end Ex

end Table
end Meds
