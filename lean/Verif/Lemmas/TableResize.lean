import Verif.Lemmas.TableSim

/-! Narrowing the per-epoch columns, and the two loops that assign start rows, in the structured array: helper lemmas.  No property theorems here. -/

namespace Meds
namespace Table
open Columns Vec

variable {psf : Bool} {w : Nat} {user : List (Col Val)}

/-! ### `_make_resized_data` -/

theorem user_not {c : Col Val} (h : UserNames user) (hc : c ∈ user) :
    c.field.name ∉ scalarNames ++ epochNames ∧
    c.field.name ∉ ["psf_row_size", "psf_col_size", "psf_cutout_row", "psf_cutout_col", "psf_start_row"] := by
  have h1 : ∀ s ∈ scalarNames ++ epochNames, s ∈ inputNames ∨ s ∈ computedNames := by decide
  have h2 : ∀ s ∈ ["psf_row_size", "psf_col_size", "psf_cutout_row", "psf_cutout_col", "psf_start_row"], s ∈ computedNames := by decide
  obtain ⟨a, b⟩ := h.2 c hc
  exact ⟨fun hm => (h1 _ hm).elim a b, fun hm => b (h2 _ hm)⟩

theorem userFields_of_descr {a : Arr Val} (h : UserNames user) {A B : List Field} (hd : a.descr = A ++ user.map (·.field) ++ B)
    (hA : ∀ f ∈ A, f.name ∈ scalarNames ++ epochNames) (hB : ∀ f ∈ B, f.name ∈ ["psf_row_size", "psf_col_size", "psf_cutout_row", "psf_cutout_col", "psf_start_row"]) :
    userFields a = user.map (·.field) := by
  unfold userFields
  rw [hd, List.filter_append, List.filter_append]
  have e1 : A.filter (fun f => !((scalarNames ++ epochNames).contains f.name) &&
      !(["psf_row_size", "psf_col_size", "psf_cutout_row", "psf_cutout_col", "psf_start_row"].contains f.name)) = [] := by
    rw [List.filter_eq_nil_iff]
    intro f hf hp
    rw [Bool.and_eq_true, Bool.not_eq_true', List.contains_eq_mem, decide_eq_false_iff_not] at hp
    exact hp.1 (hA f hf)
  have e2 : B.filter (fun f => !((scalarNames ++ epochNames).contains f.name) &&
      !(["psf_row_size", "psf_col_size", "psf_cutout_row", "psf_cutout_col", "psf_start_row"].contains f.name)) = [] := by
    rw [List.filter_eq_nil_iff]
    intro f hf hp
    rw [Bool.and_eq_true, Bool.not_eq_true', Bool.not_eq_true', List.contains_eq_mem, List.contains_eq_mem, decide_eq_false_iff_not, decide_eq_false_iff_not] at hp
    exact hp.2 (hB f hf)
  rw [e1, e2, List.nil_append, List.append_nil, List.filter_eq_self]
  intro f hf
  obtain ⟨c, hc, rfl⟩ := List.mem_map.mp hf
  rw [Bool.and_eq_true, Bool.not_eq_true', Bool.not_eq_true', List.contains_eq_mem, List.contains_eq_mem, decide_eq_false_iff_not, decide_eq_false_iff_not]
  exact user_not h hc

theorem colFns_fields : (colFns psf w user).map (·.1) = outputDtype w (user.map (·.field) ++ (if psf then psfDtype w else [])) := by
  cases psf <;> simp [colFns, outputDtype, psfDtype, scalarCols, epochCols, psfCols, scalarNames, epochNames, Function.comp_def]

theorem userFields_table (h : UserNames user) (rows : List ObjRow) : userFields (table psf w user rows) = user.map (·.field) := by
  have hd : (table psf w user rows).descr = (scalarNames.map (fun s => (⟨s, none⟩ : Field)) ++ epochNames.map (fun s => (⟨s, some w⟩ : Field))) ++ user.map (·.field) ++
      (if psf then psfDtype w else []) := by
    have : (table psf w user rows).descr = (colFns psf w user).map (·.1) := by simp [Arr.descr, table, Function.comp_def]
    rw [this, colFns_fields]
    simp [outputDtype]
  refine userFields_of_descr h hd ?_ ?_
  · intro f hf
    rcases List.mem_append.mp hf with hf | hf
    · obtain ⟨s, hs, rfl⟩ := List.mem_map.mp hf
      exact List.mem_append_left _ hs
    · obtain ⟨s, hs, rfl⟩ := List.mem_map.mp hf
      exact List.mem_append_right _ hs
  · intro f hf
    cases psf
    · cases hf
    · obtain ⟨s, hs, rfl⟩ := List.mem_map.mp hf
      exact hs

theorem dtype_table (h : UserNames user) (rows : List ObjRow) (nmax : Nat) :
    outputDtype nmax (extraFields psf (table psf w user rows) nmax) = (colFns psf nmax user).map (·.1) := by
  rw [extraFields_eq, userFields_table h, colFns_fields]

/-- Every column of one table is a column of the table with epoch columns of another width. -/
theorem mem_colFns_width {p : Field × (List ObjRow → List (List Val))} (v : Nat) (hp : p ∈ colFns psf v user) :
    (∃ x ∈ scalarCols, p = (⟨x.1, none⟩, fun rows => rows.map (fun o => [x.2 o]))) ∨
    (∃ x ∈ epochCols ++ psfCols, p = (⟨x.1, some v⟩, fun rows => rows.map (fun o => o.slots.map x.2)) ∧
      ((⟨x.1, some w⟩, fun rows => rows.map (fun o => o.slots.map x.2)) : Field × (List ObjRow → List (List Val))) ∈ colFns psf w user) ∨
    (∃ c ∈ user, p = (c.field, fun _ => c.vals) ∧ ((c.field, fun _ => c.vals) : Field × (List ObjRow → List (List Val))) ∈ colFns psf w user) := by
  unfold colFns at hp
  rcases List.mem_append.mp hp with hp | hp
  · rcases List.mem_append.mp hp with hp | hp
    · rcases List.mem_append.mp hp with hp | hp
      · obtain ⟨x, hx, rfl⟩ := List.mem_map.mp hp
        exact Or.inl ⟨x, hx, rfl⟩
      · obtain ⟨x, hx, rfl⟩ := List.mem_map.mp hp
        exact Or.inr (Or.inl ⟨x, List.mem_append_left _ hx, rfl, mem_epoch hx⟩)
    · obtain ⟨x, hx, rfl⟩ := List.mem_map.mp hp
      exact Or.inr (Or.inr ⟨x, hx, rfl, List.mem_append_left _ (List.mem_append_right _
        (List.mem_map_of_mem (f := fun c : Col Val => ((c.field, fun _ => c.vals) : Field × (List ObjRow → List (List Val)))) hx))⟩)
  · cases psf
    · cases hp
    · obtain ⟨x, hx, rfl⟩ := List.mem_map.mp hp
      exact Or.inr (Or.inl ⟨x, List.mem_append_right _ hx, rfl, mem_psf hx⟩)

theorem mapRes_comp {α β γ : Type} (f : β → Res γ) (g : α → β) (l : List α) : mapRes f (l.map g) = mapRes (fun x => f (g x)) l := by
  induction l with
  | nil => rfl
  | cons x xs ih => rw [List.map_cons, mapRes, mapRes, ih]

/-- The first `nmax` epochs of every row. -/
def narrowed (nmax : Nat) (rows : List ObjRow) : List ObjRow := rows.map (fun o => { o with slots := o.slots.take nmax })

theorem epoch_resized : ∀ x ∈ epochCols ++ psfCols, ∀ nmax, (((outputDtype nmax []).map (·.name)).contains x.1 || ((psfDtype nmax).map (·.name)).contains x.1) = true := by
  intro x hx nmax
  rw [outputDtype_names, psfDtype_names, List.map_nil, List.append_nil]
  have : ∀ x ∈ epochCols ++ psfCols, ((scalarNames ++ epochNames).contains x.1 || ["psf_row_size", "psf_col_size", "psf_cutout_row", "psf_cutout_col", "psf_start_row"].contains x.1) = true := by
    decide
  exact this x hx

theorem scalar_not_psf : ∀ x ∈ scalarCols, ∀ nmax, ((psfDtype nmax).map (·.name)).contains x.1 = false := by
  intro x hx nmax
  rw [psfDtype_names]
  have : ∀ x ∈ scalarCols, ["psf_row_size", "psf_col_size", "psf_cutout_row", "psf_cutout_col", "psf_start_row"].contains x.1 = false := by decide
  exact this x hx

theorem resizeCol_table (h : UserNames user) {nmax : Nat} (hw : 2 ≤ w) {rows : List ObjRow}
    {p : Field × (List ObjRow → List (List Val))} (hp : p ∈ colFns psf nmax user) (vals : List (List Val)) :
    resizeCol (table psf w user rows) nmax ⟨p.1, vals⟩ =
      if w < nmax ∧ (∃ x ∈ epochCols ++ psfCols, x.1 = p.1.name) then .error .valueError else .ok ⟨p.1, p.2 (narrowed nmax rows)⟩ := by
  rcases mem_colFns_width (w := w) nmax hp with ⟨x, hx, rfl⟩ | ⟨x, hx, rfl, hm⟩ | ⟨c, hc, rfl, hm⟩
  · have hno : ¬ ∃ y ∈ epochCols ++ psfCols, y.1 = x.1 := by
      have : ∀ x ∈ scalarCols, ¬ ∃ y ∈ epochCols ++ psfCols, y.1 = x.1 := by decide
      exact this x hx
    rw [if_neg (fun hh => hno hh.2)]
    unfold resizeCol
    dsimp only
    rw [col?_table h (mem_scalar hx)]
    dsimp only
    rw [scalar_not_psf x hx, Option.isSome_none, Bool.false_and, Bool.false_or, if_neg (by decide), broadcast_same, Res.ok_bind]
    congr 2
    unfold narrowed
    rw [List.map_map]
    exact List.map_congr_left fun o _ => by rw [Function.comp_apply, scalar_slots hx o (o.slots.take nmax)]
  · unfold resizeCol
    dsimp only
    have e := col?_table h hm rows
    dsimp only at e
    rw [e]
    dsimp only
    rw [Option.isSome_some, Bool.true_and, if_pos (epoch_resized x hx nmax)]
    unfold broadcast
    dsimp only
    by_cases hlt : w < nmax
    · rw [if_pos (c := w < nmax ∧ ∃ y ∈ epochCols ++ psfCols, y.1 = x.1) ⟨hlt, x, hx, rfl⟩, Nat.min_eq_left (by omega), if_neg (by omega), if_neg (by omega)]
      rfl
    · rw [if_neg (c := w < nmax ∧ ∃ y ∈ epochCols ++ psfCols, y.1 = x.1) (fun hh => hlt hh.1), Nat.min_eq_right (by omega), if_pos rfl, Res.ok_bind]
      congr 2
      unfold narrowed
      rw [List.map_map, List.map_map]
      exact List.map_congr_left fun o _ => by simp [List.map_take]
  · obtain ⟨h1, h2⟩ := user_not h hc
    have hno : ¬ ∃ y ∈ epochCols ++ psfCols, y.1 = c.field.name := by
      rintro ⟨y, hy, he⟩
      have : ∀ y ∈ epochCols ++ psfCols, y.1 ∈ scalarNames ++ epochNames ∨ y.1 ∈ ["psf_row_size", "psf_col_size", "psf_cutout_row", "psf_cutout_col", "psf_start_row"] := by decide
      exact (this y hy).elim (fun hh => h1 (he ▸ hh)) (fun hh => h2 (he ▸ hh))
    rw [if_neg (fun hh => hno hh.2)]
    unfold resizeCol
    dsimp only
    have e := col?_table h hm rows
    dsimp only at e
    rw [e]
    dsimp only
    rw [outputDtype_names, psfDtype_names, List.map_nil, List.append_nil]
    rw [if_neg (by
      rw [Bool.or_eq_true, Bool.and_eq_true, List.contains_eq_mem, List.contains_eq_mem, decide_eq_true_iff, decide_eq_true_iff]
      rintro (hh | hh)
      · exact h1 hh.2
      · exact h2 hh)]
    rw [broadcast_same]
    rfl

theorem resized_table (h : UserNames user) (nmax : Nat) (hw : 2 ≤ w) (rows : List ObjRow) :
    resized (.num 0) (.num DEFVAL) psf nmax (table psf w user rows) =
      if w < nmax then .error .valueError else .ok (table psf nmax user (narrowed nmax rows)) := by
  unfold resized outputStruct
  rw [dtype_table h, filled_nodup (by rw [List.map_map]; exact colFns_nodup h), Res.ok_bind]
  dsimp only
  rw [List.map_map, mapRes_comp]
  have hc : ∀ p ∈ colFns psf nmax user, _ := fun p hp => resizeCol_table (rows := rows) h hw hp
    (List.replicate (table psf w user rows).n (List.replicate (p.1.width.getD 1) (if p.1.name = "ncutout" then Val.num 0 else Val.num DEFVAL)))
  by_cases hlt : w < nmax
  · rw [if_pos hlt]
    rw [Maker.mapRes_error (e := .valueError)]
    · rfl
    · intro p hp e he
      rw [Function.comp_apply, hc p hp] at he
      split at he
      · injection he with he; exact he.symm
      · cases he
    · have hm := mem_epoch (psf := psf) (w := nmax) (user := user) (p := ("file_id", fun s => .num s.fileId)) (by simp [epochCols])
      refine ⟨_, hm, .valueError, ?_⟩
      rw [Function.comp_apply, hc _ hm, if_pos ⟨hlt, ("file_id", fun s => .num s.fileId), by simp [epochCols], rfl⟩]
  · rw [if_neg hlt, mapRes_congr (g := fun p => .ok ⟨p.1, p.2 (narrowed nmax rows)⟩) (fun p hp => by
      rw [Function.comp_apply, hc p hp, if_neg (fun hh => hlt hh.1)]), mapRes_ok_map, Res.ok_bind]
    unfold table
    simp [narrowed]

theorem maxInt_eq (rows : List ObjRow) : maxInt (rows.map (·.ncutout)) = Maker.maxNcutout rows := by
  cases rows <;> rfl

/-- The width that `_make_resized_data` gives the per-epoch columns. -/
def nmaxOf (rows : List ObjRow) : Nat :=
  match Maker.maxNcutout rows with
  | .ok m => if m < 2 then 2 else m.toNat
  | .error _ => 0

theorem resizeT_table (h : UserNames user) (hw : 2 ≤ w) {rows : List ObjRow} (hs : ∀ o ∈ rows, o.slots.length = w) :
    (resizeT psf (table psf w user rows) = (Maker.resize rows >>= fun r => .ok (table psf (nmaxOf rows) user r))) := by
  unfold resizeT Maker.resize
  rw [integers_ncutout h, Res.ok_bind, maxInt_eq]
  cases hm : Maker.maxNcutout rows with
  | error e => rfl
  | ok m =>
    rw [Res.ok_bind, Res.ok_bind, resized_table h _ hw]
    have hne : ∃ o, o ∈ rows := by
      cases rows with
      | nil => cases hm
      | cons o os => exact ⟨o, List.mem_cons_self⟩
    unfold nmaxOf
    rw [hm]
    dsimp only
    generalize (if m < 2 then 2 else m.toNat) = nmax
    by_cases hlt : w < nmax
    · rw [if_pos hlt, Maker.mapRes_error (e := .valueError)]
      · rfl
      · intro o ho e he
        split at he
        · injection he with he; exact he.symm
        · cases he
      · obtain ⟨o, ho⟩ := hne
        exact ⟨o, ho, .valueError, by rw [if_pos (by rw [hs o ho]; exact hlt)]⟩
    · rw [if_neg hlt, mapRes_congr (g := fun o => .ok { o with slots := o.slots.take nmax }) (fun o ho => by rw [if_neg (by rw [hs o ho]; exact hlt)]),
        mapRes_ok_map]
      rfl

end Table
end Meds
