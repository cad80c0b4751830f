import Verif.Lemmas.TableLoop

/-! The catalogue made by the constructor, and the whole layout, in the structured array: helper lemmas.  No property theorems here. -/

namespace Meds
namespace Table
open Columns Vec

variable {psf : Bool} {w : Nat} {user : List (Col Val)} {useJoblib : Bool} {nJobs : Nat} {cfg : MakerCfg}

/-! ### Even boxes -/

theorem forceEvenT_table (h : UserNames user) (rows : List ObjRow) : forceEvenT (table psf w user rows) = .ok (table psf w user (rows.map Maker.forceEven)) := by
  unfold forceEvenT
  rw [integers_box h, Res.ok_bind, List.map_map]
  have hw : whereTrue (rows.map ((fun x : Int => decide (x % 2 ≠ 0)) ∘ (·.boxSize))) = sel (fun o : ObjRow => decide (o.boxSize % 2 ≠ 0)) rows := Maker.sel_eq _ _
  rw [hw]
  dsimp only
  by_cases hl : (sel (fun o : ObjRow => decide (o.boxSize % 2 ≠ 0)) rows).length > 0
  · rw [if_pos hl, Maker.take_sel, Res.ok_bind]
    have e := putRows_table (psf := psf) (w := w) h (name := "box_size") (π := fun o => .num o.boxSize) (f := fun (o : ObjRow) (x : Int) => { o with boxSize := x })
      (enc := fun x : Int => .num (x : ℚ)) (by simp [scalarCols]) (fun _ _ => rfl) (by simp [scalarCols]) (fun _ _ => rfl) rows
      (sel (fun o : ObjRow => decide (o.boxSize % 2 ≠ 0)) rows) ((rows.filter (fun o : ObjRow => decide (o.boxSize % 2 ≠ 0))).map (fun o => o.boxSize + 1))
    have f := putField_sel (fun (o : ObjRow) (x : Int) => { o with boxSize := x }) (fun o : ObjRow => decide (o.boxSize % 2 ≠ 0)) (fun o => o) (fun o => o.boxSize + 1) rows
    rw [List.map_id'] at f
    rw [f, Res.ok_bind, List.map_map] at e
    rw [List.map_map]
    refine Eq.trans e ?_
    congr 2
    refine List.map_congr_left fun o _ => ?_
    unfold Maker.forceEven
    by_cases ho : o.boxSize % 2 ≠ 0 <;> simp [ho]
  · rw [if_neg hl]
    rw [Maker.sel_length] at hl
    congr 2
    have hnil : rows.filter (fun o : ObjRow => decide (o.boxSize % 2 ≠ 0)) = [] := List.length_eq_zero_iff.mp (by omega)
    rw [List.filter_eq_nil_iff] at hnil
    conv_lhs => rw [← List.map_id rows]
    refine List.map_congr_left fun o ho => ?_
    have := hnil o ho
    unfold Maker.forceEven
    rw [if_neg (by simpa using this)]
    rfl

/-! ### The input catalogue -/

/-- The user's own columns, in order. -/
def userCols (obj : Arr Val) : List (Col Val) := obj.cols.filter (fun c => !(inputNames.contains c.field.name))

theorem mem_userCols {obj : Arr Val} {c : Col Val} : c ∈ userCols obj ↔ c ∈ obj.cols ∧ c.field.name ∉ inputNames := by
  unfold userCols
  rw [List.mem_filter, Bool.not_eq_true', List.contains_eq_mem, decide_eq_false_iff_not]

variable {obj : Arr Val} {objs : List Maker.InputObj}

theorem HasNumbers.read {a : Arr Val} {name : String} {v : List ℚ} (h : HasNumbers a name v) : numbers a name = .ok v ∧ a.names.contains name = true := by
  constructor
  · have := numbers_of (a := a) (name := name) (l := v) (g := fun q => q) (by unfold column; rw [h])
    simpa using this
  · obtain ⟨hm, hn⟩ := Arr.mem_of_col? h
    rw [List.contains_iff_mem]
    exact List.mem_map.mpr ⟨_, hm, hn⟩

theorem ColoursOf.skies {a : Arr Val} {l : List SkyPos} (h : ColoursOf a l) (hn : a.n = l.length) (hr : HasNumbers a "ra" (l.map (·.ra)))
    (hd : HasNumbers a "dec" (l.map (·.dec))) : skies a = .ok l := by
  have hno : ∀ {s : String}, s ∉ a.names → a.names.contains s = false := fun h => by
    rw [Bool.eq_false_iff, ne_eq, List.contains_iff_mem]; exact h
  have hnone : ∀ (g : SkyPos → Option ℚ), (∀ s ∈ l, g s = none) → List.replicate a.n none = l.map g := by
    intro g hg
    rw [hn, eq_comm, List.eq_replicate_iff]
    exact ⟨by simp, fun b hb => by obtain ⟨s, hs, rfl⟩ := List.mem_map.mp hb; exact hg s hs⟩
  have h1 : wcsColors a = .ok (l.map (·.color)) := by
    unfold wcsColors
    rcases h.wcs with ⟨v, hv, e⟩ | ⟨h0, v, hv, e⟩ | ⟨h0, h1, e⟩
    · rw [if_pos hv.read.2, hv.read.1, e]; rfl
    · rw [if_neg (by rw [hno h0]; decide), if_pos hv.read.2, hv.read.1, e]; rfl
    · rw [if_neg (by rw [hno h0]; decide), if_neg (by rw [hno h1]; decide), hnone _ e]
  have h2 : psfColors a = .ok (l.map (·.psfColor)) := by
    unfold psfColors
    rcases h.psf with ⟨v, hv, e⟩ | ⟨h0, e⟩
    · rw [if_pos hv.read.2, hv.read.1, e]; rfl
    · rw [if_neg (by rw [hno h0]; decide), hnone _ e]
  unfold Table.skies
  rw [hr.read.1, hd.read.1, h1, h2]
  simp only [Res.ok_bind]
  congr 1
  clear h hn hr hd hnone h1 h2
  induction l with
  | nil => rfl
  | cons s l ih => simp only [List.map_cons, List.zip_cons_cons, List.zipWith_cons_cons, ih]

theorem Represents.sky (h : Represents obj objs) : skies obj = .ok (objs.map (·.sky)) :=
  h.colours.skies (by rw [h.n, List.length_map]) (by unfold HasNumbers; rw [h.ra]; simp) (by unfold HasNumbers; rw [h.dec]; simp)

theorem Represents.userNames (h : Represents obj objs) : UserNames (userCols obj) := by
  refine ⟨(List.Sublist.map _ List.filter_sublist).nodup h.wf.nodup, fun c hc => ?_⟩
  obtain ⟨h1, h2⟩ := mem_userCols.mp hc
  exact ⟨h2, h.fresh _ (List.mem_map_of_mem (f := fun c : Col Val => c.field.name) h1)⟩

theorem Represents.userFields (h : Represents obj objs) : userFields obj = (userCols obj).map (·.field) := by
  unfold Columns.userFields userCols Arr.descr
  rw [List.filter_map]
  congr 1
  refine List.filter_congr fun c hc => ?_
  have hf := h.fresh _ (List.mem_map_of_mem (f := fun c : Col Val => c.field.name) hc)
  rw [Function.comp_apply]
  have h2 : ∀ s, s ∉ computedNames → (!((scalarNames ++ epochNames).contains s) &&
      !(["psf_row_size", "psf_col_size", "psf_cutout_row", "psf_cutout_col", "psf_start_row"].contains s)) = !(inputNames.contains s) := by
    intro s hs
    simp only [computedNames, List.mem_cons, List.not_mem_nil, or_false, not_or] at hs
    simp only [List.contains_eq_mem, ← decide_not, ← Bool.decide_and]
    refine decide_eq_decide.mpr ?_
    simp only [inputNames, scalarNames, epochNames, List.mem_append, List.mem_cons, List.not_mem_nil, or_false]
    tauto
  exact h2 _ hf

theorem Represents.dtype (h : Represents obj objs) (nmax : Nat) :
    outputDtype nmax (extraFields psf obj nmax) = (colFns psf nmax (userCols obj)).map (·.1) := by
  rw [extraFields_eq, h.userFields, colFns_fields]

theorem Represents.names (h : Represents obj objs) : ∀ s ∈ inputNames, s ∈ obj.names := by
  intro s hs
  simp only [inputNames, List.mem_cons, List.not_mem_nil, or_false] at hs
  have : ∀ {s : String} {c : Col Val}, obj.col? s = some c → s ∈ obj.names := by
    intro s c hc
    obtain ⟨h1, h2⟩ := Arr.mem_of_col? hc
    rw [← h2]
    exact List.mem_map_of_mem (f := fun c : Col Val => c.field.name) h1
  rcases hs with rfl | rfl | rfl | rfl
  · exact this h.id
  · exact this h.box
  · exact this h.ra
  · exact this h.dec

theorem Represents.scalar (h : Represents obj objs) {c : Col Val} (hc : c ∈ obj.cols) (hn : c.field.name ∈ inputNames) : c.field.width = none := by
  have e := Arr.col?_of_mem h.wf.nodup hc
  simp only [inputNames, List.mem_cons, List.not_mem_nil, or_false] at hn
  rcases hn with hn | hn | hn | hn <;> rw [hn] at e
  · rw [h.id] at e; injection e with e; rw [← e]
  · rw [h.box] at e; injection e with e; rw [← e]
  · rw [h.ra] at e; injection e with e; rw [← e]
  · rw [h.dec] at e; injection e with e; rw [← e]

theorem setObjData_table (h : Represents obj objs) (nmax : Nat) :
    setObjData (.num 0) (.num DEFVAL) psf nmax obj = .ok (table psf nmax (userCols obj) (objs.map (Maker.fullRow nmax))) := by
  unfold setObjData checkRequired
  have hreq : inputNames.filter (fun s => !(obj.names.contains s)) = [] := by
    rw [List.filter_eq_nil_iff]
    intro s hs hh
    rw [Bool.not_eq_true', List.contains_eq_mem, decide_eq_false_iff_not] at hh
    exact hh (h.names s hs)
  rw [hreq, if_neg (by simp)]
  rw [show (Except.ok () >>= fun _ => fullObjData (.num 0) (.num DEFVAL) psf nmax obj : Res (Arr Val)) = fullObjData (.num 0) (.num DEFVAL) psf nmax obj from rfl]
  unfold fullObjData outputStruct
  have hu := h.userNames
  rw [h.dtype, filled_nodup (by rw [List.map_map]; exact colFns_nodup hu), Res.ok_bind]
  have hfield : ∀ c ∈ obj.cols, ∀ f ∈ (colFns psf nmax (userCols obj)).map (·.1), c.field.name = f.name → c.field = f := by
    intro c hc f hf hn
    obtain ⟨p, hp, rfl⟩ := List.mem_map.mp hf
    have hcn := h.fresh _ (List.mem_map_of_mem (f := fun c : Col Val => c.field.name) hc)
    rcases mem_colFns hp with ⟨x, hx, rfl⟩ | ⟨x, hx, rfl⟩ | ⟨d, hd, rfl⟩
    · dsimp only at hn ⊢
      have hin : c.field.name ∈ inputNames := by
        have : ∀ x ∈ scalarCols, x.1 ∈ computedNames ∨ x.1 ∈ inputNames := by decide
        rcases this x hx with h' | h'
        · exact absurd (hn ▸ h') hcn
        · exact hn ▸ h'
      have := h.scalar hc hin
      cases hcf : c.field with
      | mk nm wd =>
        rw [hcf] at hn this
        dsimp only at hn this
        rw [hn, this]
    · have : ∀ y ∈ epochCols ++ psfCols, y.1 ∈ computedNames := by decide
      exact absurd (hn ▸ this x hx) hcn
    · have e1 := Arr.col?_of_mem h.wf.nodup hc
      have e2 := Arr.col?_of_mem h.wf.nodup (mem_userCols.mp hd).1
      dsimp only at hn
      rw [hn, e2] at e1
      injection e1 with e1
      rw [e1]
  rw [copyFields_filled rfl hfield]
  unfold table
  rw [List.map_map, List.map_map]
  congr 2
  · rw [List.length_map]; exact h.n
  refine List.map_congr_left fun p hp => ?_
  rw [Function.comp_apply, Function.comp_apply]
  dsimp only
  have hnone : ∀ s, s ∈ computedNames → obj.col? s = none := fun s hs => Arr.col?_none (fun hm => h.fresh s hm hs)
  rcases mem_colFns hp with ⟨x, hx, rfl⟩ | ⟨x, hx, rfl⟩ | ⟨c, hc, rfl⟩
  · simp only [scalarCols, List.mem_cons, List.not_mem_nil, or_false] at hx
    rcases hx with rfl | rfl | rfl | rfl | rfl
    · dsimp only
      rw [h.id, Option.getD_some, List.map_map]; rfl
    · dsimp only
      rw [h.box, Option.getD_some, List.map_map]; rfl
    · dsimp only
      rw [h.ra, Option.getD_some, List.map_map]; rfl
    · dsimp only
      rw [h.dec, Option.getD_some, List.map_map]; rfl
    · dsimp only
      rw [hnone _ (by decide), Option.getD_none, if_pos rfl, h.n, List.map_map]
      congr 1
      rw [← List.map_const']
      rfl
  · have hcomp : ∀ y ∈ epochCols ++ psfCols, y.1 ∈ computedNames ∧ y.1 ≠ "ncutout" := by decide
    have hd : ∀ y ∈ epochCols ++ psfCols, y.2 Slot.dflt = .num DEFVAL := by decide
    dsimp only
    rw [hnone _ (hcomp x hx).1, Option.getD_none, if_neg (hcomp x hx).2, h.n, List.map_map]
    congr 1
    rw [← List.map_const']
    refine List.map_congr_left fun o _ => ?_
    simp [Maker.fullRow, hd x hx]
  · dsimp only
    rw [Arr.col?_of_mem h.wf.nodup (mem_userCols.mp hc).1, Option.getD_some]

/-- The sky positions and colours read from the full catalogue are those of the objects. -/
theorem skyOk_init (h : Represents obj objs) (nmax : Nat) : SkyOk psf nmax (userCols obj) (objs.map (Maker.fullRow nmax)) := by
  have hu := h.userNames
  have hcol : ∀ s, s ∉ computedNames → (table psf nmax (userCols obj) (objs.map (Maker.fullRow nmax))).col? s = obj.col? s := by
    intro s hs
    cases ho : obj.col? s with
    | none =>
      refine Arr.col?_none fun hm => ?_
      rw [table_names] at hm
      obtain ⟨p, hp, rfl⟩ := List.mem_map.mp hm
      rcases mem_colFns hp with ⟨x, hx, rfl⟩ | ⟨x, hx, rfl⟩ | ⟨c, hc, rfl⟩
      · have : ∀ x ∈ scalarCols, x.1 ∈ computedNames ∨ x.1 ∈ inputNames := by decide
        rcases this x hx with h' | h'
        · exact hs h'
        · have hn := h.names _ h'
          obtain ⟨c, hc, he⟩ := List.mem_map.mp hn
          have := Arr.col?_of_mem h.wf.nodup hc
          rw [he, ho] at this
          cases this
      · have : ∀ y ∈ epochCols ++ psfCols, y.1 ∈ computedNames := by decide
        exact hs (this x hx)
      · have := Arr.col?_of_mem h.wf.nodup (mem_userCols.mp hc).1
        dsimp only at ho
        rw [ho] at this
        cases this
    | some c =>
      obtain ⟨hc, rfl⟩ := Arr.mem_of_col? ho
      by_cases hi : c.field.name ∈ inputNames
      · have ho' := ho
        have hmem : c.field.name ∈ inputNames := hi
        simp only [inputNames, List.mem_cons, List.not_mem_nil, or_false] at hi
        rcases hi with hi | hi | hi | hi <;> rw [hi] at ho ⊢
        · rw [h.id] at ho
          rw [← ho]
          refine (col?_table hu (mem_scalar (p := ("id", fun o => .num o.id)) (by simp [scalarCols])) _).trans ?_
          dsimp only
          rw [List.map_map]; rfl
        · rw [h.box] at ho
          rw [← ho]
          refine (col?_table hu (mem_scalar (p := ("box_size", fun o => .num o.boxSize)) (by simp [scalarCols])) _).trans ?_
          dsimp only
          rw [List.map_map]; rfl
        · rw [h.ra] at ho
          rw [← ho]
          refine (col?_table hu (mem_scalar (p := ("ra", fun o => .num o.sky.ra)) (by simp [scalarCols])) _).trans ?_
          dsimp only
          rw [List.map_map]; rfl
        · rw [h.dec] at ho
          rw [← ho]
          refine (col?_table hu (mem_scalar (p := ("dec", fun o => .num o.sky.dec)) (by simp [scalarCols])) _).trans ?_
          dsimp only
          rw [List.map_map]; rfl
      · exact col?_table (p := (c.field, fun _ => c.vals)) hu (List.mem_append_left _ (List.mem_append_right _
          (List.mem_map_of_mem (f := fun c : Col Val => ((c.field, fun _ => c.vals) : Field × (List ObjRow → List (List Val)))) (mem_userCols.mpr ⟨hc, hi⟩)))) _
  have hcon : ∀ a : Arr Val, ∀ s, a.names.contains s = (a.col? s).isSome := by
    intro a s
    cases ha : a.col? s with
    | none =>
      rw [List.contains_eq_mem, Option.isSome_none, decide_eq_false_iff_not]
      intro hm
      obtain ⟨c, hc, he⟩ := List.mem_map.mp hm
      have := List.find?_eq_none.mp ha c hc
      exact this (by simpa using he)
    | some c =>
      obtain ⟨h1, h2⟩ := Arr.mem_of_col? ha
      rw [List.contains_eq_mem, Option.isSome_some, decide_eq_true_iff, ← h2]
      exact List.mem_map_of_mem (f := fun c : Col Val => c.field.name) h1
  have hnum : ∀ s, s ∉ computedNames → numbers (table psf nmax (userCols obj) (objs.map (Maker.fullRow nmax))) s = numbers obj s := by
    intro s hs
    unfold numbers column
    rw [hcol s hs]
  have hcont : ∀ s, s ∉ computedNames → (table psf nmax (userCols obj) (objs.map (Maker.fullRow nmax))).names.contains s = obj.names.contains s := by
    intro s hs
    rw [hcon, hcon, hcol s hs]
  have hn : (table psf nmax (userCols obj) (objs.map (Maker.fullRow nmax))).n = obj.n := by
    rw [h.n]; simp [table]
  unfold SkyOk
  have : skies (table psf nmax (userCols obj) (objs.map (Maker.fullRow nmax))) = skies obj := by
    unfold skies wcsColors psfColors
    rw [hnum "ra" (by decide), hnum "dec" (by decide), hcont "color" (by decide), hcont "wcs_color" (by decide), hcont "psf_color" (by decide),
      hnum "color" (by decide), hnum "wcs_color" (by decide), hnum "psf_color" (by decide), hn]
  rw [this, h.sky, List.map_map]
  rfl

theorem initT_table (h : Represents obj objs) (nimage : Nat) :
    initT cfg nimage psf obj = .ok (table psf (Maker.initialNmax cfg nimage) (userCols obj) ((objs.map (Maker.fullRow (Maker.initialNmax cfg nimage))).map Maker.forceEven)) ∧
    SkyOk psf (Maker.initialNmax cfg nimage) (userCols obj) ((objs.map (Maker.fullRow (Maker.initialNmax cfg nimage))).map Maker.forceEven) := by
  constructor
  · unfold initT
    rw [setObjData_table h, Res.ok_bind, forceEvenT_table h.userNames]
  · refine (skyOk_init h _).congr h.userNames ?_
    rw [List.map_map]
    refine List.map_congr_left fun o _ => ?_
    rw [Function.comp_apply]
    unfold Maker.forceEven
    split <;> rfl

/-! ### The whole layout -/

theorem column_width (hu : UserNames user) (v : Nat) (rows : List ObjRow) {nm : String} (hn : ∀ y ∈ epochCols ++ psfCols, y.1 ≠ nm) :
    (table psf v user rows).col? nm = (table psf w user rows).col? nm := by
  by_cases hin : ∃ p ∈ colFns psf v user, p.1.name = nm
  · obtain ⟨p, hp, rfl⟩ := hin
    rw [col?_table hu hp]
    rcases mem_colFns_width (w := w) v hp with ⟨x, hx, rfl⟩ | ⟨x, hx, rfl, hm⟩ | ⟨c, hc, rfl, hm⟩
    · exact (col?_table hu (mem_scalar hx) rows).symm
    · exact absurd rfl (hn x hx)
    · exact (col?_table hu hm rows).symm
  · have e1 : (table psf v user rows).col? nm = none := by
      refine Arr.col?_none ?_
      rw [table_names]
      intro hm
      obtain ⟨p, hp, he⟩ := List.mem_map.mp hm
      exact hin ⟨p, hp, he⟩
    have e2 : (table psf w user rows).col? nm = none := by
      refine Arr.col?_none ?_
      rw [table_names]
      intro hm
      obtain ⟨p, hp, he⟩ := List.mem_map.mp hm
      rcases mem_colFns_width (w := v) w hp with ⟨x, hx, rfl⟩ | ⟨x, hx, rfl, hm⟩ | ⟨c, hc, rfl, hm⟩
      · exact hin ⟨_, mem_scalar hx, he⟩
      · exact hn x hx he
      · exact hin ⟨_, hm, he⟩
    rw [e1, e2]

theorem SkyOk.width (hu : UserNames user) {rows : List ObjRow} (h : SkyOk psf w user rows) (v : Nat) : SkyOk psf v user rows := by
  unfold SkyOk at *
  rw [← h]
  have hnum : ∀ nm, (∀ y ∈ epochCols ++ psfCols, y.1 ≠ nm) → numbers (table psf v user rows) nm = numbers (table psf w user rows) nm := by
    intro nm hn
    unfold numbers column
    rw [column_width hu v rows hn]
  have hnames : (table psf v user rows).names = (table psf w user rows).names := by
    rw [table_names, table_names, colFns_names, colFns_names]
  have hnn : (table psf v user rows).n = (table psf w user rows).n := rfl
  unfold skies wcsColors psfColors
  rw [hnum "ra" (by decide), hnum "dec" (by decide), hnum "color" (by decide), hnum "wcs_color" (by decide), hnum "psf_color" (by decide), hnames, hnn]

theorem put2_slots {β : Type} {f : Slot → β → Slot} {rows : List ObjRow} {q : List Nat} {icut : List Int} {v : List β} {r : List ObjRow}
    (h : put2 f rows q icut v = .ok r) : r.map (fun o => o.slots.length) = rows.map (fun o => o.slots.length) :=
  put2_keeps f (fun o => o.slots.length) (fun o j s x _ => by simp) rows q icut v r h

theorem fillV_slots {fileId : Nat} {im : SrcImage} {half : List Int} {rows r : List ObjRow} {q : List Nat} {z : List Pos}
    (h : Maker.fillV fileId im half rows q z = .ok r) : r.map (fun o => o.slots.length) = rows.map (fun o => o.slots.length) := by
  unfold Maker.fillV at h
  dsimp only at h
  obtain ⟨_, _, h⟩ := Res.bind_eq_ok.mp h
  obtain ⟨o1, h1, h⟩ := Res.bind_eq_ok.mp h
  obtain ⟨o2, h2, h⟩ := Res.bind_eq_ok.mp h
  obtain ⟨o3, h3, h⟩ := Res.bind_eq_ok.mp h
  obtain ⟨_, _, h⟩ := Res.bind_eq_ok.mp h
  obtain ⟨o4, h4, h⟩ := Res.bind_eq_ok.mp h
  obtain ⟨o5, h5, h⟩ := Res.bind_eq_ok.mp h
  obtain ⟨o6, h6, h⟩ := Res.bind_eq_ok.mp h
  obtain ⟨o7, h7, h⟩ := Res.bind_eq_ok.mp h
  obtain ⟨_, _, h⟩ := Res.bind_eq_ok.mp h
  obtain ⟨o8, h8, h⟩ := Res.bind_eq_ok.mp h
  obtain ⟨o9, h9, h⟩ := Res.bind_eq_ok.mp h
  obtain ⟨o10, h10, h⟩ := Res.bind_eq_ok.mp h
  obtain ⟨o11, h11, h⟩ := Res.bind_eq_ok.mp h
  obtain ⟨_, _, h⟩ := Res.bind_eq_ok.mp h
  have h12 := putField_keeps (fun (o : ObjRow) (x : Int) => { o with ncutout := x }) (fun o : ObjRow => o.slots.length) (fun _ _ => rfl) _ _ _ _ h
  rw [h12, put2_slots h11, put2_slots h10, put2_slots h9, put2_slots h8, put2_slots h7, put2_slots h6, put2_slots h5,
    put2_slots h4, put2_slots h3, put2_slots h2, put2_slots h1]

theorem layoutFileV_slots {half : List Int} {rows r : List ObjRow} {fi : Nat × SrcImage} (h : Maker.layoutFileV useJoblib nJobs cfg half rows fi = .ok r) :
    r.map (fun o => o.slots.length) = rows.map (fun o => o.slots.length) := by
  unfold Maker.layoutFileV at h
  dsimp only at h
  obtain ⟨_, _, h⟩ := Res.bind_eq_ok.mp h
  obtain ⟨_, _, h⟩ := Res.bind_eq_ok.mp h
  split at h
  · cases h
  · obtain ⟨_, _, h⟩ := Res.bind_eq_ok.mp h
    obtain ⟨_, _, h⟩ := Res.bind_eq_ok.mp h
    exact fillV_slots h

theorem fold_layoutFileV_slots {half : List Int} {rows r : List ObjRow} {l : List (Nat × SrcImage)}
    (h : foldRes (Maker.layoutFileV useJoblib nJobs cfg half) rows l = .ok r) : r.map (fun o => o.slots.length) = rows.map (fun o => o.slots.length) :=
  foldRes_inv (P := fun t => t.map (fun o : ObjRow => o.slots.length) = rows.map (fun o => o.slots.length)) rfl
    (fun _ _ _ _ hP hx => (layoutFileV_slots hx).trans hP) h

theorem loop_length {g : Slot → Int → Res (Slot × Int)} : ∀ (n : Nat) (cur : Int) (ss : List Slot) (r : List Slot × Int), loop g n cur ss = .ok r → r.1.length = ss.length := by
  intro n
  induction n with
  | zero => intro cur ss r h; injection h with h; rw [← h]
  | succ n ih =>
    intro cur ss r h
    cases ss with
    | nil => cases h
    | cons s ss =>
      rw [loop] at h
      obtain ⟨x, hx, h⟩ := Res.bind_eq_ok.mp h
      obtain ⟨y, hy, h⟩ := Res.bind_eq_ok.mp h
      injection h with h
      rw [← h, List.length_cons, List.length_cons, ih _ _ _ hy]

theorem rloop_keeps {γ : Type} {L : ObjRow → Int → Res (List Slot × Int)} (k : ObjRow → γ) (hk : ∀ o cur r, L o cur = .ok r → k { o with slots := r.1 } = k o) :
    ∀ (rows : List ObjRow) (cur : Int) (r : List ObjRow × Int), rloop L cur rows = .ok r → r.1.map k = rows.map k := by
  intro rows
  induction rows with
  | nil => intro cur r h; injection h with h; rw [← h]
  | cons o os ih =>
    intro cur r h
    rw [rloop] at h
    obtain ⟨x, hx, h⟩ := Res.bind_eq_ok.mp h
    obtain ⟨y, hy, h⟩ := Res.bind_eq_ok.mp h
    injection h with h
    rw [← h, List.map_cons, List.map_cons, ih _ _ hy, hk o cur x hx]

/-- The width of the per-epoch columns of a list of rows. -/
def widthOf : List ObjRow → Nat
  | [] => 0
  | o :: _ => o.slots.length

theorem widthOf_congr {r rows : List ObjRow} (h : r.map (fun o => o.slots.length) = rows.map (fun o => o.slots.length)) : widthOf r = widthOf rows := by
  cases rows with
  | nil => rw [List.map_nil, List.map_eq_nil_iff] at h; rw [h]
  | cons o os =>
    cases r with
    | nil => cases h
    | cons p ps =>
      rw [List.map_cons, List.map_cons] at h
      injection h

theorem resize_width {rows r : List ObjRow} (h : Maker.resize rows = .ok r) :
    widthOf r = nmaxOf rows := by
  unfold Maker.resize at h
  obtain ⟨m, hm, h⟩ := Res.bind_eq_ok.mp h
  unfold nmaxOf
  rw [hm]
  dsimp only at h ⊢
  generalize (if m < 2 then 2 else m.toNat) = nmax at h ⊢
  cases rows with
  | nil => cases hm
  | cons o os =>
    rw [mapRes] at h
    split at h
    · cases h
    · rename_i y hy
      split at h
      · cases h
      · injection h with h
        rw [← h]
        split at hy
        · cases hy
        · rename_i hl
          injection hy with hy
          rw [← hy]
          simp only [widthOf, List.length_take]
          omega

theorem resize_sky {rows r : List ObjRow} (h : Maker.resize rows = .ok r) : r.map (·.sky) = rows.map (·.sky) := by
  unfold Maker.resize at h
  obtain ⟨m, hm, h⟩ := Res.bind_eq_ok.mp h
  dsimp only at h
  generalize (if m < 2 then 2 else m.toNat) = nmax at h
  apply List.ext_getElem?
  intro n
  rw [List.getElem?_map, List.getElem?_map]
  cases hr : rows[n]? with
  | none =>
    have := mapRes_length h
    rw [List.getElem?_eq_none (by rw [this]; exact List.getElem?_eq_none_iff.mp hr)]
  | some o =>
    obtain ⟨y, hy, hf⟩ := mapRes_getElem? h hr
    rw [hy]
    split at hf
    · cases hf
    · injection hf with hf
      rw [← hf]; rfl

theorem buildLayoutT_table (hj : 0 < nJobs) (mk : Maker) (h0 : mk.psf = none → mk.totalPsfPixels = 0) (hu : UserNames user) (hw : 2 ≤ w)
    (hs : SkyOk mk.psf.isSome w user mk.objs) (hl : ∀ c ∈ user, c.vals.length = mk.objs.length) (hsl : ∀ o ∈ mk.objs, o.slots.length = w) :
    buildLayoutT useJoblib nJobs mk.cfg mk.images mk.psf (table mk.psf.isSome w user mk.objs) =
      (mk.buildLayoutV useJoblib nJobs >>= fun mk' =>
        .ok (table mk.psf.isSome (widthOf mk'.objs) (user.map (takeCol (keepRows mk.cfg mk.images mk.objs))) mk'.objs, mk'.totalPixels, mk'.totalPsfPixels)) := by
  unfold buildLayoutT Maker.buildLayoutV
  obtain ⟨ht, htk⟩ := trimT_table (useJoblib := useJoblib) (cfg := mk.cfg) hj mk.images hs hl
  refine bind_step ht fun objs0 ho0 => ?_
  have hk := htk objs0 ho0
  have hu' : UserNames (user.map (takeCol (keepRows mk.cfg mk.images mk.objs))) := by
    exact (takeCol_names _).mpr hu
  have hs0 : SkyOk mk.psf.isSome w (user.map (takeCol (keepRows mk.cfg mk.images mk.objs))) objs0 := by
    rw [hk]
    exact hs.taken keepRows_lt hl
  have hsl0 : ∀ o ∈ objs0, o.slots.length = w := by
    intro o ho
    rw [hk] at ho
    unfold taken at ho
    obtain ⟨i, _, hi⟩ := List.mem_filterMap.mp ho
    exact hsl o (List.mem_of_getElem? hi)
  rw [integers_box hu', Res.ok_bind, List.map_map]
  dsimp only
  refine bind_step (fold_layoutFileT hu' _ _ hs0) fun objs1 ho1 => ?_
  have hs1 : SkyOk mk.psf.isSome w (user.map (takeCol (keepRows mk.cfg mk.images mk.objs))) objs1 := hs0.congr hu' (fold_layoutFileV_sky ho1)
  have hsl1 : ∀ o ∈ objs1, o.slots.length = w := by
    intro o ho
    have hm := List.mem_map_of_mem (f := fun o : ObjRow => o.slots.length) ho
    rw [fold_layoutFileV_slots ho1] at hm
    obtain ⟨o', ho', he⟩ := List.mem_map.mp hm
    exact he.symm.trans (hsl0 o' ho')
  refine bind_step (resizeT_table hu' hw hsl1) fun objs2 ho2 => ?_
  rw [← resize_width ho2]
  have hs2 : SkyOk mk.psf.isSome (widthOf objs2) (user.map (takeCol (keepRows mk.cfg mk.images mk.objs))) objs2 := (hs1.congr hu' (resize_sky ho2)).width hu' _
  rw [setStartRowsT_table hu']
  cases hr : Maker.setStartRows 0 objs2 with
  | error e => rfl
  | ok r =>
    rw [Res.ok_bind, Res.ok_bind]
    have hsr := hr
    rw [setStartRows_rloop] at hsr
    have hwr : widthOf r.1 = widthOf objs2 := widthOf_congr (rloop_keeps (fun o => o.slots.length) (fun o cur x hx => by
      rw [setStarts_loop] at hx; exact loop_length _ _ _ _ hx) _ _ _ hsr)
    have hskr : r.1.map (·.sky) = objs2.map (·.sky) := rloop_keeps (fun o => o.sky) (fun _ _ _ _ => rfl) _ _ _ hsr
    by_cases hp : Maker.pixelSum objs2 ≠ r.2
    · rw [if_pos hp, if_pos hp]
      rfl
    · rw [if_neg hp, if_neg hp, Res.ok_bind]
      cases hpsf : mk.psf with
      | none =>
        rw [Res.ok_bind, hwr, h0 hpsf]
      | some ps =>
        rw [hpsf] at hs2
        have hs3 := hs2.congr hu' hskr
        dsimp only [Option.isSome_some] at hs3 ⊢
        rw [setPsfLayoutT_table hu' ps hs3]
        cases hq : Maker.setPsfLayout ps 0 r.1 with
        | error e => rfl
        | ok q =>
          rw [Res.ok_bind, Res.ok_bind, Res.ok_bind, Res.ok_bind]
          have hqr := hq
          rw [setPsfLayout_rloop] at hqr
          have hwq : widthOf q.1 = widthOf r.1 := widthOf_congr (rloop_keeps (fun o => o.slots.length) (fun o cur x hx => by
            rw [setPsfSlots_loop] at hx; exact loop_length _ _ _ _ hx) _ _ _ hqr)
          rw [hwq, hwr]

end Table
end Meds
