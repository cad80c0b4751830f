import Verif.Spec.Table
import Verif.Props.Vector

/-! The catalogue as a structured array and as a list of rows: helper lemmas.  No property theorems here. -/

namespace Meds
namespace Table
open Columns Vec

/-! ### The table of a list of rows -/

/-- The columns of the table, in order, as functions of the rows. -/
def colFns (psf : Bool) (w : Nat) (user : List (Col Val)) : List (Field × (List ObjRow → List (List Val))) :=
  scalarCols.map (fun p => (⟨p.1, none⟩, fun rows => rows.map (fun o => [p.2 o]))) ++
  epochCols.map (fun p => (⟨p.1, some w⟩, fun rows => rows.map (fun o => o.slots.map p.2))) ++
  user.map (fun c => (c.field, fun _ => c.vals)) ++
  (if psf then psfCols.map (fun p => (⟨p.1, some w⟩, fun rows => rows.map (fun o => o.slots.map p.2))) else [])

/-- The structured array for rows with epoch columns of width `w` and the columns of the user. -/
def table (psf : Bool) (w : Nat) (user : List (Col Val)) (rows : List ObjRow) : Arr Val :=
  { n := rows.length, cols := (colFns psf w user).map (fun p => ⟨p.1, p.2 rows⟩) }

/-- The columns of the user have other names than those of the maker. -/
def UserNames (user : List (Col Val)) : Prop :=
  (user.map (·.field.name)).Nodup ∧ ∀ c ∈ user, c.field.name ∉ inputNames ∧ c.field.name ∉ computedNames

variable {psf : Bool} {w : Nat} {user : List (Col Val)}

theorem colFns_names : (colFns psf w user).map (·.1.name) = scalarNames ++ epochNames ++ user.map (·.field.name) ++
    (if psf then ["psf_row_size", "psf_col_size", "psf_cutout_row", "psf_cutout_col", "psf_start_row"] else []) := by
  cases psf <;> simp [colFns, scalarCols, epochCols, psfCols, scalarNames, epochNames, Function.comp_def]

theorem table_names (rows : List ObjRow) : (table psf w user rows).names = (colFns psf w user).map (·.1.name) := by
  simp [Arr.names, table, Function.comp_def]

theorem colFns_nodup (h : UserNames user) : ((colFns psf w user).map (·.1.name)).Nodup := by
  rw [colFns_names]
  have hu : ∀ s ∈ user.map (·.field.name), s ∉ inputNames ∧ s ∉ computedNames := by
    intro s hs
    obtain ⟨c, hc, rfl⟩ := List.mem_map.mp hs
    exact h.2 c hc
  have h1 : ∀ s ∈ scalarNames ++ epochNames, s ∈ inputNames ∨ s ∈ computedNames := by decide
  have h2 : ∀ s ∈ ["psf_row_size", "psf_col_size", "psf_cutout_row", "psf_cutout_col", "psf_start_row"], s ∈ computedNames := by decide
  have h3 : ∀ s ∈ scalarNames ++ epochNames, s ∉ ["psf_row_size", "psf_col_size", "psf_cutout_row", "psf_cutout_col", "psf_start_row"] := by decide
  have hA : (scalarNames ++ epochNames ++ user.map (·.field.name)).Nodup := by
    rw [List.nodup_append]
    refine ⟨by decide, h.1, ?_⟩
    rintro s hs t ht rfl
    exact (h1 s hs).elim (hu s ht).1 (hu s ht).2
  cases psf
  · simpa using hA
  · rw [if_pos rfl, List.nodup_append]
    refine ⟨hA, by decide, ?_⟩
    rintro s hs t ht rfl
    rcases List.mem_append.mp hs with hs | hs
    · exact h3 s hs ht
    · exact (hu s hs).2 (h2 s ht)

theorem col?_table (h : UserNames user) {p : Field × (List ObjRow → List (List Val))} (hp : p ∈ colFns psf w user) (rows : List ObjRow) :
    (table psf w user rows).col? p.1.name = some ⟨p.1, p.2 rows⟩ := by
  have hn : (table psf w user rows).names.Nodup := by rw [table_names]; exact colFns_nodup h
  exact Arr.col?_of_mem (a := table psf w user rows) hn (c := ⟨p.1, p.2 rows⟩) (List.mem_map_of_mem (f := fun p : Field × (List ObjRow → List (List Val)) => (⟨p.1, p.2 rows⟩ : Col Val)) hp)

theorem column_table (h : UserNames user) {p : Field × (List ObjRow → List (List Val))} (hp : p ∈ colFns psf w user) (rows : List ObjRow) :
    column (table psf w user rows) p.1.name = .ok (p.2 rows) := by
  unfold column
  rw [col?_table h hp]

theorem mem_scalar {p : String × (ObjRow → Val)} (hp : p ∈ scalarCols) :
    ((⟨p.1, none⟩, fun rows => rows.map (fun o => [p.2 o])) : Field × (List ObjRow → List (List Val))) ∈ colFns psf w user :=
  List.mem_append_left _ (List.mem_append_left _ (List.mem_append_left _
    (List.mem_map_of_mem (f := fun p : String × (ObjRow → Val) =>
      ((⟨p.1, none⟩, fun rows => rows.map (fun o => [p.2 o])) : Field × (List ObjRow → List (List Val)))) hp)))

theorem mem_epoch {p : String × (Slot → Val)} (hp : p ∈ epochCols) :
    ((⟨p.1, some w⟩, fun rows => rows.map (fun o => o.slots.map p.2)) : Field × (List ObjRow → List (List Val))) ∈ colFns psf w user :=
  List.mem_append_left _ (List.mem_append_left _ (List.mem_append_right _
    (List.mem_map_of_mem (f := fun p : String × (Slot → Val) =>
      ((⟨p.1, some w⟩, fun rows => rows.map (fun o => o.slots.map p.2)) : Field × (List ObjRow → List (List Val)))) hp)))

theorem mem_psf {p : String × (Slot → Val)} (hp : p ∈ psfCols) :
    ((⟨p.1, some w⟩, fun rows => rows.map (fun o => o.slots.map p.2)) : Field × (List ObjRow → List (List Val))) ∈ colFns true w user :=
  List.mem_append_right _ (by
    rw [if_pos rfl]
    exact List.mem_map_of_mem (f := fun p : String × (Slot → Val) =>
      ((⟨p.1, some w⟩, fun rows => rows.map (fun o => o.slots.map p.2)) : Field × (List ObjRow → List (List Val)))) hp)

/-- Every column is a scalar one of the maker, a per-epoch one, or the user's. -/
theorem mem_colFns {p : Field × (List ObjRow → List (List Val))} (hp : p ∈ colFns psf w user) :
    (∃ x ∈ scalarCols, p = (⟨x.1, none⟩, fun rows => rows.map (fun o => [x.2 o]))) ∨
    (∃ x ∈ epochCols ++ psfCols, p = (⟨x.1, some w⟩, fun rows => rows.map (fun o => o.slots.map x.2))) ∨
    (∃ c ∈ user, p = (c.field, fun _ => c.vals)) := by
  unfold colFns at hp
  rcases List.mem_append.mp hp with hp | hp
  · rcases List.mem_append.mp hp with hp | hp
    · rcases List.mem_append.mp hp with hp | hp
      · obtain ⟨x, hx, rfl⟩ := List.mem_map.mp hp
        exact Or.inl ⟨x, hx, rfl⟩
      · obtain ⟨x, hx, rfl⟩ := List.mem_map.mp hp
        exact Or.inr (Or.inl ⟨x, List.mem_append_left _ hx, rfl⟩)
    · obtain ⟨x, hx, rfl⟩ := List.mem_map.mp hp
      exact Or.inr (Or.inr ⟨x, hx, rfl⟩)
  · cases psf
    · cases hp
    · obtain ⟨x, hx, rfl⟩ := List.mem_map.mp hp
      exact Or.inr (Or.inl ⟨x, List.mem_append_right _ hx, rfl⟩)

theorem scalar_slots {y : String × (ObjRow → Val)} (hy : y ∈ scalarCols) (o : ObjRow) (l : List Slot) : y.2 { o with slots := l } = y.2 o := by
  simp only [scalarCols, List.mem_cons, List.not_mem_nil, or_false] at hy
  rcases hy with rfl | rfl | rfl | rfl | rfl <;> rfl

/-! ### Assignments -/

theorem modifyCol_ok {name : String} {f : List (List Val) → Res (List (List Val))} {v' : List (List Val)} (L : List (Field × (List ObjRow → List (List Val))))
    (rows rows' : List ObjRow) (hn : (L.map (·.1.name)).Nodup) {p : Field × (List ObjRow → List (List Val))} (hp : p ∈ L) (hname : p.1.name = name)
    (hf : f (p.2 rows) = .ok v') (hv : v' = p.2 rows') (ho : ∀ q ∈ L, q.1.name ≠ name → q.2 rows' = q.2 rows) :
    modifyCol name f (L.map (fun p => (⟨p.1, p.2 rows⟩ : Col Val))) = .ok (L.map (fun p => (⟨p.1, p.2 rows'⟩ : Col Val))) := by
  induction L with
  | nil => cases hp
  | cons x xs ih =>
    rw [List.map_cons, List.nodup_cons] at hn
    rw [List.map_cons, modifyCol]
    dsimp only
    rcases List.mem_cons.mp hp with rfl | hp
    · rw [if_pos hname, hf, Res.ok_bind, List.map_cons, hv]
      congr 2
      refine List.map_congr_left fun q hq => ?_
      rw [ho q (List.mem_cons_of_mem _ hq)]
      intro he
      exact hn.1 (by rw [hname, ← he]; exact List.mem_map_of_mem (f := fun q : Field × (List ObjRow → List (List Val)) => q.1.name) hq)
    · have hne : x.1.name ≠ name := by
        intro he
        exact hn.1 (by rw [he, ← hname]; exact List.mem_map_of_mem (f := fun q : Field × (List ObjRow → List (List Val)) => q.1.name) hp)
      rw [if_neg hne, ih hn.2 hp (fun q hq => ho q (List.mem_cons_of_mem _ hq)), Res.ok_bind, List.map_cons, ho x List.mem_cons_self hne]

theorem modifyCol_error {name : String} {f : List (List Val) → Res (List (List Val))} {e : Err} (L : List (Field × (List ObjRow → List (List Val))))
    (rows : List ObjRow) (hn : (L.map (·.1.name)).Nodup) {p : Field × (List ObjRow → List (List Val))} (hp : p ∈ L) (hname : p.1.name = name)
    (hf : f (p.2 rows) = .error e) :
    modifyCol name f (L.map (fun p => (⟨p.1, p.2 rows⟩ : Col Val))) = .error e := by
  induction L with
  | nil => cases hp
  | cons x xs ih =>
    rw [List.map_cons, List.nodup_cons] at hn
    rw [List.map_cons, modifyCol]
    dsimp only
    rcases List.mem_cons.mp hp with rfl | hp
    · rw [if_pos hname, hf, Res.error_bind]
    · have hne : x.1.name ≠ name := by
        intro he
        exact hn.1 (by rw [he, ← hname]; exact List.mem_map_of_mem (f := fun q : Field × (List ObjRow → List (List Val)) => q.1.name) hp)
      rw [if_neg hne, ih hn.2 hp, Res.error_bind]

/-- An assignment to one column of a table, when it does to that column what `g` does to the rows. -/
theorem assign_table (h : UserNames user) {name : String} {f : List (List Val) → Res (List (List Val))} {rows : List ObjRow} {g : Res (List ObjRow)}
    {p : Field × (List ObjRow → List (List Val))} (hp : p ∈ colFns psf w user) (hname : p.1.name = name)
    (hf : f (p.2 rows) = (g >>= fun r => .ok (p.2 r)))
    (hl : ∀ r, g = .ok r → r.length = rows.length)
    (ho : ∀ r, g = .ok r → ∀ q ∈ colFns psf w user, q.1.name ≠ name → q.2 r = q.2 rows) :
    assign (table psf w user rows) name f = (g >>= fun r => .ok (table psf w user r)) := by
  unfold assign table
  cases hg : g with
  | error e =>
    rw [hg] at hf
    dsimp only
    rw [modifyCol_error _ rows (colFns_nodup h) hp hname hf]
    rfl
  | ok r =>
    rw [hg] at hf
    dsimp only
    rw [modifyCol_ok _ rows r (colFns_nodup h) hp hname hf rfl (ho r hg), Res.ok_bind, Res.ok_bind, hl r hg]

theorem putCells_map {β : Type} (f : Slot → β → Slot) (π : Slot → Val) (enc : β → Val) (hπ : ∀ s x, π (f s x) = enc x) :
    ∀ (rows : List ObjRow) (q : List Nat) (icut : List Int) (v : List β),
      putCells (rows.map (fun o => o.slots.map π)) q icut (v.map enc) =
        (put2 f rows q icut v >>= fun r => .ok (r.map (fun o => o.slots.map π))) := by
  intro rows q
  induction q generalizing rows with
  | nil =>
    intro icut v
    cases icut <;> cases v <;> rfl
  | cons i q ih =>
    intro icut v
    cases icut with
    | nil => cases v <;> rfl
    | cons k icut =>
      cases v with
      | nil => rfl
      | cons x v =>
        rw [List.map_cons, putCells, put2, List.getElem?_map]
        cases hi : rows[i]? with
        | none => rfl
        | some o =>
          simp only [Option.map_some, List.length_map]
          cases hk : pyIndex o.slots.length k with
          | error e => rfl
          | ok j =>
            have hj := pyIndex_ok hk
            have hg : pyGet o.slots k = .ok o.slots[j] := by
              unfold pyGet
              rw [hk]
              simp [hj]
            rw [Res.ok_bind, Res.ok_bind, hg, Res.ok_bind, ← ih]
            congr 1
            rw [List.map_set]
            congr 1
            rw [List.map_set, hπ]

theorem put2_keeps {β γ : Type} (f : Slot → β → Slot) (g : ObjRow → γ) (hg : ∀ (o : ObjRow) (j : Nat) (s : Slot) (x : β), o.slots[j]? = some s →
    g { o with slots := o.slots.set j (f s x) } = g o) :
    ∀ (rows : List ObjRow) (q : List Nat) (icut : List Int) (v : List β) (r : List ObjRow), put2 f rows q icut v = .ok r → r.map g = rows.map g := by
  intro rows q
  induction q generalizing rows with
  | nil =>
    intro icut v r h
    cases icut <;> cases v <;> first | (rw [put2] at h; injection h with h; rw [h]) | cases h
  | cons i q ih =>
    intro icut v r h
    cases icut with
    | nil => cases v <;> cases h
    | cons k icut =>
      cases v with
      | nil => cases h
      | cons x v =>
        rw [put2] at h
        cases hi : rows[i]? with
        | none => rw [hi] at h; cases h
        | some o =>
          rw [hi] at h
          dsimp only at h
          obtain ⟨j, hj, h⟩ := Res.bind_eq_ok.mp h
          obtain ⟨old, hold, h⟩ := Res.bind_eq_ok.mp h
          have hjs : o.slots[j]? = some old := by
            unfold pyGet at hold
            rw [hj] at hold
            dsimp only at hold
            split at hold
            · rename_i hx
              injection hold with hold
              rw [hx, hold]
            · cases hold
          rw [ih _ _ _ _ h, List.map_set, hg o j old x hjs]
          apply List.ext_getElem?
          intro n
          rw [List.getElem?_set]
          split
          · rename_i hin
            subst hin
            split
            · rw [List.getElem?_map, hi]; rfl
            · rename_i hlt
              rw [List.getElem?_eq_none (by simpa using hlt)]
          · rfl

theorem put2_length {β : Type} (f : Slot → β → Slot) {rows : List ObjRow} {q : List Nat} {icut : List Int} {v : List β} {r : List ObjRow}
    (h : put2 f rows q icut v = .ok r) : r.length = rows.length := by
  have := congrArg List.length (put2_keeps f (fun _ => ()) (fun _ _ _ _ _ => rfl) rows q icut v r h)
  simpa using this

/-- `obj_data["name"][q, icut] = v`, in the table and row by row. -/
theorem put_table (h : UserNames user) {β : Type} {name : String} {π : Slot → Val} {f : Slot → β → Slot} {enc : β → ℚ}
    (hp : ((⟨name, some w⟩, fun rows => rows.map (fun o => o.slots.map π)) : Field × (List ObjRow → List (List Val))) ∈ colFns psf w user)
    (hπ : ∀ s x, π (f s x) = .num (enc x))
    (hoth : ∀ y ∈ epochCols ++ psfCols, y.1 ≠ name → ∀ s x, y.2 (f s x) = y.2 s)
    (rows : List ObjRow) (q : List Nat) (icut : List Int) (v : List β) :
    put (table psf w user rows) name q icut (v.map enc) = (put2 f rows q icut v >>= fun r => .ok (table psf w user r)) := by
  unfold put
  refine assign_table h hp rfl ?_ (fun r hr => put2_length f hr) ?_
  · dsimp only
    rw [List.map_map]
    exact putCells_map f π (fun x => .num (enc x)) hπ rows q icut v
  · intro r hr p hpm hne
    rcases mem_colFns hpm with ⟨y, hy, rfl⟩ | ⟨y, hy, rfl⟩ | ⟨c, hc, rfl⟩
    · dsimp only
      refine put2_keeps f (fun o => [y.2 o]) ?_ rows q icut v r hr
      intro o j s x _
      rw [scalar_slots hy]
    · dsimp only
      refine put2_keeps f (fun o => o.slots.map y.2) ?_ rows q icut v r hr
      intro o j s x hs
      dsimp only
      rw [List.map_set, hoth y hy hne s x]
      apply List.ext_getElem?
      intro n
      rw [List.getElem?_set]
      split
      · rename_i hin
        subst hin
        have := (List.getElem?_eq_some_iff.mp hs).1
        rw [List.getElem?_map, hs]
        simp [this]
      · rfl
    · rfl

theorem putRows_map {β : Type} (f : ObjRow → β → ObjRow) (π : ObjRow → Val) (enc : β → Val) (hπ : ∀ o x, π (f o x) = enc x) :
    ∀ (rows : List ObjRow) (q : List Nat) (v : List β),
      putRows (rows.map (fun o => [π o])) q (v.map enc) = (putField f rows q v >>= fun r => .ok (r.map (fun o => [π o]))) := by
  intro rows q
  induction q generalizing rows with
  | nil => intro v; cases v <;> rfl
  | cons i q ih =>
    intro v
    cases v with
    | nil => rfl
    | cons x v =>
      rw [List.map_cons, putRows, putField, List.getElem?_map]
      cases hi : rows[i]? with
      | none => rfl
      | some o =>
        simp only [Option.map_some]
        rw [← ih]
        congr 1
        rw [List.map_set, hπ]

theorem putField_keeps {β γ : Type} (f : ObjRow → β → ObjRow) (g : ObjRow → γ) (hg : ∀ o x, g (f o x) = g o) :
    ∀ (rows : List ObjRow) (q : List Nat) (v : List β) (r : List ObjRow), putField f rows q v = .ok r → r.map g = rows.map g := by
  intro rows q
  induction q generalizing rows with
  | nil =>
    intro v r h
    cases v with
    | nil => rw [putField] at h; injection h with h; rw [h]
    | cons x v => cases h
  | cons i q ih =>
    intro v r h
    cases v with
    | nil => cases h
    | cons x v =>
      rw [putField] at h
      cases hi : rows[i]? with
      | none => rw [hi] at h; cases h
      | some o =>
        rw [hi] at h
        dsimp only at h
        rw [ih _ _ _ h, List.map_set, hg]
        apply List.ext_getElem?
        intro n
        rw [List.getElem?_set]
        split
        · rename_i hin
          subst hin
          split
          · rw [List.getElem?_map, hi]; rfl
          · rename_i hlt
            rw [List.getElem?_eq_none (by simpa using hlt)]
        · rfl

/-- `obj_data["name"][q] = v`, in the table and row by row. -/
theorem putRows_table (h : UserNames user) {β : Type} {name : String} {π : ObjRow → Val} {f : ObjRow → β → ObjRow} {enc : β → Val}
    (hp : (name, π) ∈ scalarCols) (hπ : ∀ o x, π (f o x) = enc x)
    (hoth : ∀ y ∈ scalarCols, y.1 ≠ name → ∀ o x, y.2 (f o x) = y.2 o) (hs : ∀ o x, (f o x).slots = o.slots)
    (rows : List ObjRow) (q : List Nat) (v : List β) :
    assign (table psf w user rows) name (fun t => putRows t q (v.map enc)) = (putField f rows q v >>= fun r => .ok (table psf w user r)) := by
  refine assign_table h (mem_scalar hp) rfl ?_ (fun r hr => ?_) ?_
  · exact putRows_map f π enc hπ rows q v
  · have := congrArg List.length (putField_keeps f (fun _ => ()) (fun _ _ => rfl) rows q v r hr)
    simpa using this
  · intro r hr p hpm hne
    rcases mem_colFns hpm with ⟨y, hy, rfl⟩ | ⟨y, hy, rfl⟩ | ⟨c, hc, rfl⟩
    · exact putField_keeps f (fun o => [y.2 o]) (fun o x => by rw [hoth y hy hne]) rows q v r hr
    · exact putField_keeps f (fun o => o.slots.map y.2) (fun o x => by rw [hs]) rows q v r hr
    · rfl

/-! ### Reading -/

theorem toInt_int (n : Int) : Val.toInt (.num n) = .ok n := by
  simp [Val.toInt]

theorem numbers_of {a : Arr Val} {name : String} {β : Type} {l : List β} {g : β → ℚ} (h : column a name = .ok (l.map (fun o => [Val.num (g o)]))) :
    numbers a name = .ok (l.map g) := by
  unfold numbers
  rw [h, Res.ok_bind]
  clear h
  induction l with
  | nil => rfl
  | cons x xs ih =>
    rw [List.map_cons, mapRes, ih]
    simp only [single, Res.ok_bind, Val.toNum, List.map_cons]

theorem integers_of {a : Arr Val} {name : String} {β : Type} {l : List β} {g : β → Int} (h : column a name = .ok (l.map (fun o => [Val.num (g o)]))) :
    integers a name = .ok (l.map g) := by
  unfold integers
  rw [h, Res.ok_bind]
  clear h
  induction l with
  | nil => rfl
  | cons x xs ih =>
    rw [List.map_cons, mapRes, ih]
    simp only [single, Res.ok_bind, toInt_int, List.map_cons]

theorem integers_ncutout (h : UserNames user) (rows : List ObjRow) : integers (table psf w user rows) "ncutout" = .ok (rows.map (·.ncutout)) :=
  integers_of (g := fun o : ObjRow => o.ncutout) (column_table h (mem_scalar (p := ("ncutout", fun o => .num o.ncutout)) (by simp [scalarCols])) rows)

theorem integers_box (h : UserNames user) (rows : List ObjRow) : integers (table psf w user rows) "box_size" = .ok (rows.map (·.boxSize)) :=
  integers_of (g := fun o : ObjRow => o.boxSize) (column_table h (mem_scalar (p := ("box_size", fun o => .num o.boxSize)) (by simp [scalarCols])) rows)

theorem column_congr (h : UserNames user) {rows rows' : List ObjRow} {nm : String}
    (hc : ∀ p ∈ colFns psf w user, p.1.name = nm → p.2 rows' = p.2 rows) :
    column (table psf w user rows') nm = column (table psf w user rows) nm := by
  by_cases hin : ∃ p ∈ colFns psf w user, p.1.name = nm
  · obtain ⟨p, hp, rfl⟩ := hin
    rw [column_table h hp, column_table h hp, hc p hp rfl]
  · have hnone : ∀ r, (table psf w user r).col? nm = none := by
      intro r
      refine Arr.col?_none ?_
      rw [table_names]
      intro hm
      obtain ⟨p, hp, he⟩ := List.mem_map.mp hm
      exact hin ⟨p, hp, he⟩
    unfold column
    rw [hnone, hnone]

theorem skies_congr (h : UserNames user) {rows rows' : List ObjRow} (hs : rows'.map (·.sky) = rows.map (·.sky)) :
    skies (table psf w user rows') = skies (table psf w user rows) := by
  have hl : rows'.length = rows.length := by simpa using congrArg List.length hs
  have hcol : ∀ nm, (∀ y ∈ epochCols ++ psfCols, y.1 ≠ nm) → (∀ y ∈ scalarCols, y.1 = nm → ∃ g : SkyPos → Val, ∀ o, y.2 o = g o.sky) →
      column (table psf w user rows') nm = column (table psf w user rows) nm := by
    intro nm h1 h2
    refine column_congr h fun p hp hn => ?_
    rcases mem_colFns hp with ⟨y, hy, rfl⟩ | ⟨y, hy, rfl⟩ | ⟨c, hc, rfl⟩
    · obtain ⟨g, hg⟩ := h2 y hy hn
      dsimp only
      have : ∀ l : List ObjRow, l.map (fun o => [y.2 o]) = (l.map (·.sky)).map (fun s => [g s]) := by
        intro l
        rw [List.map_map]
        exact List.map_congr_left fun o _ => by simp [hg]
      rw [this, this, hs]
    · exact absurd hn (h1 y hy)
    · rfl
  have hnum : ∀ nm, column (table psf w user rows') nm = column (table psf w user rows) nm → numbers (table psf w user rows') nm = numbers (table psf w user rows) nm := by
    intro nm hc
    unfold numbers
    rw [hc]
  have hnames : (table psf w user rows').names = (table psf w user rows).names := by rw [table_names, table_names]
  have hn : (table psf w user rows').n = (table psf w user rows).n := hl
  have e1 := hnum "ra" (hcol "ra" (by decide) (by
    intro y hy hn
    simp only [scalarCols, List.mem_cons, List.not_mem_nil, or_false] at hy
    rcases hy with rfl | rfl | rfl | rfl | rfl
    case inr.inr.inl => exact ⟨fun s => .num s.ra, fun _ => rfl⟩
    all_goals exact absurd hn (by decide)))
  have e2 := hnum "dec" (hcol "dec" (by decide) (by
    intro y hy hn
    simp only [scalarCols, List.mem_cons, List.not_mem_nil, or_false] at hy
    rcases hy with rfl | rfl | rfl | rfl | rfl
    case inr.inr.inr.inl => exact ⟨fun s => .num s.dec, fun _ => rfl⟩
    all_goals exact absurd hn (by decide)))
  have e3 : ∀ nm, nm ∉ computedNames → nm ∉ inputNames → numbers (table psf w user rows') nm = numbers (table psf w user rows) nm := by
    intro nm h1 h2
    refine hnum nm (hcol nm ?_ ?_)
    · intro y hy he
      have : ∀ y ∈ epochCols ++ psfCols, y.1 ∈ computedNames := by decide
      exact h1 (he ▸ this y hy)
    · intro y hy he
      have : ∀ y ∈ scalarCols, y.1 ∈ computedNames ∨ y.1 ∈ inputNames := by decide
      exact ((this y hy).elim (he ▸ h1) (he ▸ h2)).elim
  unfold skies wcsColors psfColors
  rw [e1, e2, hnames, hn, e3 "color" (by decide) (by decide), e3 "wcs_color" (by decide) (by decide), e3 "psf_color" (by decide) (by decide)]

/-! ### One pass over a file -/

theorem bind_step {α β γ δ : Type} {x : Res α} {y : Res β} {t : β → α} {k : α → Res γ} {k' : β → Res δ} {F : δ → γ} (h : x = (y >>= fun r => .ok (t r)))
    (hk : ∀ r, y = .ok r → k (t r) = (k' r >>= fun d => .ok (F d))) : (x >>= k) = ((y >>= k') >>= fun d => .ok (F d)) := by
  rw [h]
  cases hy : y with
  | error e => rfl
  | ok r => exact hk r hy

theorem bind_same {β γ δ : Type} {y : Res β} {k : β → Res γ} {k' : β → Res δ} {F : δ → γ}
    (hk : ∀ r, y = .ok r → k r = (k' r >>= fun d => .ok (F d))) : (y >>= k) = ((y >>= k') >>= fun d => .ok (F d)) := by
  cases hy : y with
  | error e => rfl
  | ok r => exact hk r hy

/-- The sky positions and colours read from the table are those of the rows. -/
def SkyOk (psf : Bool) (w : Nat) (user : List (Col Val)) (rows : List ObjRow) : Prop :=
  skies (table psf w user rows) = .ok (rows.map (·.sky))

theorem SkyOk.congr (hu : UserNames user) {rows rows' : List ObjRow} (h : SkyOk psf w user rows) (hs : rows'.map (·.sky) = rows.map (·.sky)) :
    SkyOk psf w user rows' := by
  unfold SkyOk at *
  rw [skies_congr hu hs, h, hs]

theorem put2_sky {β : Type} {f : Slot → β → Slot} {rows : List ObjRow} {q : List Nat} {icut : List Int} {v : List β} {r : List ObjRow}
    (h : put2 f rows q icut v = .ok r) : r.map (·.sky) = rows.map (·.sky) :=
  put2_keeps f (·.sky) (fun _ _ _ _ _ => rfl) rows q icut v r h

/-- Setting one field of an epoch leaves the columns with other names alone. -/
macro "other_cols" : tactic => `(tactic| simp [epochCols, psfCols])

theorem put_fileId (h : UserNames user) (rows : List ObjRow) (q : List Nat) (icut : List Int) (v : List Int) :
    put (table psf w user rows) "file_id" q icut (v.map (fun x : Int => (x : ℚ))) =
      (put2 (fun s x => { s with fileId := x }) rows q icut v >>= fun r => .ok (table psf w user r)) := by
  have e := put_table (psf := psf) (w := w) h (name := "file_id") (π := fun s => .num s.fileId) (f := fun (s : Slot) (x : Int) => { s with fileId := x })
    (enc := fun x : Int => (x : ℚ)) (mem_epoch (p := ("file_id", fun s => .num s.fileId)) (by simp [epochCols])) (fun _ _ => rfl) (by other_cols) rows q icut v
  exact e

theorem put_startRow (h : UserNames user) (rows : List ObjRow) (q : List Nat) (icut : List Int) (v : List Int) :
    put (table psf w user rows) "start_row" q icut (v.map (fun x : Int => (x : ℚ))) =
      (put2 (fun s x => { s with startRow := x }) rows q icut v >>= fun r => .ok (table psf w user r)) := by
  have e := put_table (psf := psf) (w := w) h (name := "start_row") (π := fun s => .num s.startRow) (f := fun (s : Slot) (x : Int) => { s with startRow := x })
    (enc := fun x : Int => (x : ℚ)) (mem_epoch (p := ("start_row", fun s => .num s.startRow)) (by simp [epochCols])) (fun _ _ => rfl) (by other_cols) rows q icut v
  exact e

theorem put_origRow (h : UserNames user) (rows : List ObjRow) (q : List Nat) (icut : List Int) (v : List ℚ) :
    put (table psf w user rows) "orig_row" q icut v =
      (put2 (fun s x => { s with origRow := x }) rows q icut v >>= fun r => .ok (table psf w user r)) := by
  have e := put_table (psf := psf) (w := w) h (name := "orig_row") (π := fun s => .num s.origRow) (f := fun (s : Slot) (x : ℚ) => { s with origRow := x })
    (enc := fun x : ℚ => x) (mem_epoch (p := ("orig_row", fun s => .num s.origRow)) (by simp [epochCols])) (fun _ _ => rfl) (by other_cols) rows q icut v
  rwa [List.map_id'] at e

theorem put_origCol (h : UserNames user) (rows : List ObjRow) (q : List Nat) (icut : List Int) (v : List ℚ) :
    put (table psf w user rows) "orig_col" q icut v =
      (put2 (fun s x => { s with origCol := x }) rows q icut v >>= fun r => .ok (table psf w user r)) := by
  have e := put_table (psf := psf) (w := w) h (name := "orig_col") (π := fun s => .num s.origCol) (f := fun (s : Slot) (x : ℚ) => { s with origCol := x })
    (enc := fun x : ℚ => x) (mem_epoch (p := ("orig_col", fun s => .num s.origCol)) (by simp [epochCols])) (fun _ _ => rfl) (by other_cols) rows q icut v
  rwa [List.map_id'] at e

theorem put_origStartRow (h : UserNames user) (rows : List ObjRow) (q : List Nat) (icut : List Int) (v : List Int) :
    put (table psf w user rows) "orig_start_row" q icut (v.map (fun x : Int => (x : ℚ))) =
      (put2 (fun s x => { s with origStartRow := x }) rows q icut v >>= fun r => .ok (table psf w user r)) := by
  have e := put_table (psf := psf) (w := w) h (name := "orig_start_row") (π := fun s => .num s.origStartRow) (f := fun (s : Slot) (x : Int) => { s with origStartRow := x })
    (enc := fun x : Int => (x : ℚ)) (mem_epoch (p := ("orig_start_row", fun s => .num s.origStartRow)) (by simp [epochCols])) (fun _ _ => rfl) (by other_cols) rows q icut v
  exact e

theorem put_origStartCol (h : UserNames user) (rows : List ObjRow) (q : List Nat) (icut : List Int) (v : List Int) :
    put (table psf w user rows) "orig_start_col" q icut (v.map (fun x : Int => (x : ℚ))) =
      (put2 (fun s x => { s with origStartCol := x }) rows q icut v >>= fun r => .ok (table psf w user r)) := by
  have e := put_table (psf := psf) (w := w) h (name := "orig_start_col") (π := fun s => .num s.origStartCol) (f := fun (s : Slot) (x : Int) => { s with origStartCol := x })
    (enc := fun x : Int => (x : ℚ)) (mem_epoch (p := ("orig_start_col", fun s => .num s.origStartCol)) (by simp [epochCols])) (fun _ _ => rfl) (by other_cols) rows q icut v
  exact e

theorem put_cutoutRow (h : UserNames user) (rows : List ObjRow) (q : List Nat) (icut : List Int) (v : List ℚ) :
    put (table psf w user rows) "cutout_row" q icut v =
      (put2 (fun s x => { s with cutoutRow := x }) rows q icut v >>= fun r => .ok (table psf w user r)) := by
  have e := put_table (psf := psf) (w := w) h (name := "cutout_row") (π := fun s => .num s.cutoutRow) (f := fun (s : Slot) (x : ℚ) => { s with cutoutRow := x })
    (enc := fun x : ℚ => x) (mem_epoch (p := ("cutout_row", fun s => .num s.cutoutRow)) (by simp [epochCols])) (fun _ _ => rfl) (by other_cols) rows q icut v
  rwa [List.map_id'] at e

theorem put_cutoutCol (h : UserNames user) (rows : List ObjRow) (q : List Nat) (icut : List Int) (v : List ℚ) :
    put (table psf w user rows) "cutout_col" q icut v =
      (put2 (fun s x => { s with cutoutCol := x }) rows q icut v >>= fun r => .ok (table psf w user r)) := by
  have e := put_table (psf := psf) (w := w) h (name := "cutout_col") (π := fun s => .num s.cutoutCol) (f := fun (s : Slot) (x : ℚ) => { s with cutoutCol := x })
    (enc := fun x : ℚ => x) (mem_epoch (p := ("cutout_col", fun s => .num s.cutoutCol)) (by simp [epochCols])) (fun _ _ => rfl) (by other_cols) rows q icut v
  rwa [List.map_id'] at e

theorem put_dudrow (h : UserNames user) (rows : List ObjRow) (q : List Nat) (icut : List Int) (v : List ℚ) :
    put (table psf w user rows) "dudrow" q icut v =
      (put2 (fun s x => { s with dudrow := x }) rows q icut v >>= fun r => .ok (table psf w user r)) := by
  have e := put_table (psf := psf) (w := w) h (name := "dudrow") (π := fun s => .num s.dudrow) (f := fun (s : Slot) (x : ℚ) => { s with dudrow := x })
    (enc := fun x : ℚ => x) (mem_epoch (p := ("dudrow", fun s => .num s.dudrow)) (by simp [epochCols])) (fun _ _ => rfl) (by other_cols) rows q icut v
  rwa [List.map_id'] at e

theorem put_dudcol (h : UserNames user) (rows : List ObjRow) (q : List Nat) (icut : List Int) (v : List ℚ) :
    put (table psf w user rows) "dudcol" q icut v =
      (put2 (fun s x => { s with dudcol := x }) rows q icut v >>= fun r => .ok (table psf w user r)) := by
  have e := put_table (psf := psf) (w := w) h (name := "dudcol") (π := fun s => .num s.dudcol) (f := fun (s : Slot) (x : ℚ) => { s with dudcol := x })
    (enc := fun x : ℚ => x) (mem_epoch (p := ("dudcol", fun s => .num s.dudcol)) (by simp [epochCols])) (fun _ _ => rfl) (by other_cols) rows q icut v
  rwa [List.map_id'] at e

theorem put_dvdrow (h : UserNames user) (rows : List ObjRow) (q : List Nat) (icut : List Int) (v : List ℚ) :
    put (table psf w user rows) "dvdrow" q icut v =
      (put2 (fun s x => { s with dvdrow := x }) rows q icut v >>= fun r => .ok (table psf w user r)) := by
  have e := put_table (psf := psf) (w := w) h (name := "dvdrow") (π := fun s => .num s.dvdrow) (f := fun (s : Slot) (x : ℚ) => { s with dvdrow := x })
    (enc := fun x : ℚ => x) (mem_epoch (p := ("dvdrow", fun s => .num s.dvdrow)) (by simp [epochCols])) (fun _ _ => rfl) (by other_cols) rows q icut v
  rwa [List.map_id'] at e

theorem put_dvdcol (h : UserNames user) (rows : List ObjRow) (q : List Nat) (icut : List Int) (v : List ℚ) :
    put (table psf w user rows) "dvdcol" q icut v =
      (put2 (fun s x => { s with dvdcol := x }) rows q icut v >>= fun r => .ok (table psf w user r)) := by
  have e := put_table (psf := psf) (w := w) h (name := "dvdcol") (π := fun s => .num s.dvdcol) (f := fun (s : Slot) (x : ℚ) => { s with dvdcol := x })
    (enc := fun x : ℚ => x) (mem_epoch (p := ("dvdcol", fun s => .num s.dvdcol)) (by simp [epochCols])) (fun _ _ => rfl) (by other_cols) rows q icut v
  rwa [List.map_id'] at e

theorem put_psfRowSize (h : UserNames user) (rows : List ObjRow) (q : List Nat) (icut : List Int) (v : List Int) :
    put (table true w user rows) "psf_row_size" q icut (v.map (fun x : Int => (x : ℚ))) =
      (put2 (fun s x => { s with psfRowSize := x }) rows q icut v >>= fun r => .ok (table true w user r)) := by
  have e := put_table (psf := true) (w := w) h (name := "psf_row_size") (π := fun s => .num s.psfRowSize) (f := fun (s : Slot) (x : Int) => { s with psfRowSize := x })
    (enc := fun x : Int => (x : ℚ)) (mem_psf (p := ("psf_row_size", fun s => .num s.psfRowSize)) (by simp [psfCols])) (fun _ _ => rfl) (by other_cols) rows q icut v
  exact e

theorem put_psfColSize (h : UserNames user) (rows : List ObjRow) (q : List Nat) (icut : List Int) (v : List Int) :
    put (table true w user rows) "psf_col_size" q icut (v.map (fun x : Int => (x : ℚ))) =
      (put2 (fun s x => { s with psfColSize := x }) rows q icut v >>= fun r => .ok (table true w user r)) := by
  have e := put_table (psf := true) (w := w) h (name := "psf_col_size") (π := fun s => .num s.psfColSize) (f := fun (s : Slot) (x : Int) => { s with psfColSize := x })
    (enc := fun x : Int => (x : ℚ)) (mem_psf (p := ("psf_col_size", fun s => .num s.psfColSize)) (by simp [psfCols])) (fun _ _ => rfl) (by other_cols) rows q icut v
  exact e

theorem put_psfCutoutRow (h : UserNames user) (rows : List ObjRow) (q : List Nat) (icut : List Int) (v : List ℚ) :
    put (table true w user rows) "psf_cutout_row" q icut v =
      (put2 (fun s x => { s with psfCutoutRow := x }) rows q icut v >>= fun r => .ok (table true w user r)) := by
  have e := put_table (psf := true) (w := w) h (name := "psf_cutout_row") (π := fun s => .num s.psfCutoutRow) (f := fun (s : Slot) (x : ℚ) => { s with psfCutoutRow := x })
    (enc := fun x : ℚ => x) (mem_psf (p := ("psf_cutout_row", fun s => .num s.psfCutoutRow)) (by simp [psfCols])) (fun _ _ => rfl) (by other_cols) rows q icut v
  rwa [List.map_id'] at e

theorem put_psfCutoutCol (h : UserNames user) (rows : List ObjRow) (q : List Nat) (icut : List Int) (v : List ℚ) :
    put (table true w user rows) "psf_cutout_col" q icut v =
      (put2 (fun s x => { s with psfCutoutCol := x }) rows q icut v >>= fun r => .ok (table true w user r)) := by
  have e := put_table (psf := true) (w := w) h (name := "psf_cutout_col") (π := fun s => .num s.psfCutoutCol) (f := fun (s : Slot) (x : ℚ) => { s with psfCutoutCol := x })
    (enc := fun x : ℚ => x) (mem_psf (p := ("psf_cutout_col", fun s => .num s.psfCutoutCol)) (by simp [psfCols])) (fun _ _ => rfl) (by other_cols) rows q icut v
  rwa [List.map_id'] at e

theorem put_psfStartRow (h : UserNames user) (rows : List ObjRow) (q : List Nat) (icut : List Int) (v : List Int) :
    put (table true w user rows) "psf_start_row" q icut (v.map (fun x : Int => (x : ℚ))) =
      (put2 (fun s x => { s with psfStartRow := x }) rows q icut v >>= fun r => .ok (table true w user r)) := by
  have e := put_table (psf := true) (w := w) h (name := "psf_start_row") (π := fun s => .num s.psfStartRow) (f := fun (s : Slot) (x : Int) => { s with psfStartRow := x })
    (enc := fun x : Int => (x : ℚ)) (mem_psf (p := ("psf_start_row", fun s => .num s.psfStartRow)) (by simp [psfCols])) (fun _ _ => rfl) (by other_cols) rows q icut v
  exact e

theorem fillT_table (hu : UserNames user) (fileId : Nat) (im : SrcImage) (half : List Int) (rows : List ObjRow) (hs : SkyOk psf w user rows)
    (q : List Nat) (z : List Pos) :
    fillT fileId im half (table psf w user rows) q z = (Maker.fillV fileId im half rows q z >>= fun r => .ok (table psf w user r)) := by
  unfold fillT Maker.fillV
  dsimp only
  rw [integers_ncutout hu, Res.ok_bind]
  refine bind_same fun icut _ => ?_
  have e1 : (q.map (fun _ => (fileId : ℚ))) = (q.map (fun _ => (fileId : Int))).map (fun x : Int => (x : ℚ)) := by
    rw [List.map_map]; rfl
  rw [e1]
  refine bind_step (put_fileId hu rows q icut _) fun o1 h1 => ?_
  refine bind_step (put_origRow hu o1 q icut _) fun o2 h2 => ?_
  refine bind_step (put_origCol hu o2 q icut _) fun o3 h3 => ?_
  refine bind_same fun h _ => ?_
  refine bind_step (put_origStartRow hu o3 q icut _) fun o4 h4 => ?_
  refine bind_step (put_origStartCol hu o4 q icut _) fun o5 h5 => ?_
  refine bind_step (put_cutoutRow hu o5 q icut _) fun o6 h6 => ?_
  refine bind_step (put_cutoutCol hu o6 q icut _) fun o7 h7 => ?_
  have hsky : SkyOk psf w user o7 := hs.congr hu (by
    rw [put2_sky h7, put2_sky h6, put2_sky h5, put2_sky h4, put2_sky h3, put2_sky h2, put2_sky h1])
  rw [show skies (table psf w user o7) = _ from hsky, Res.ok_bind]
  refine bind_same fun colors _ => ?_
  refine bind_step (put_dudcol hu o7 q icut _) fun o8 h8 => ?_
  refine bind_step (put_dudrow hu o8 q icut _) fun o9 h9 => ?_
  refine bind_step (put_dvdcol hu o9 q icut _) fun o10 h10 => ?_
  refine bind_step (put_dvdrow hu o10 q icut _) fun o11 h11 => ?_
  rw [integers_ncutout hu, Res.ok_bind]
  refine bind_same fun n _ => ?_
  have := putRows_table (psf := psf) (w := w) hu (name := "ncutout") (π := fun o => .num o.ncutout) (f := fun (o : ObjRow) (x : Int) => { o with ncutout := x })
    (enc := fun x : Int => Val.num (x : ℚ)) (by simp [scalarCols]) (fun _ _ => rfl) (by
      intro y hy hn o x
      simp only [scalarCols, List.mem_cons, List.not_mem_nil, or_false] at hy
      rcases hy with rfl | rfl | rfl | rfl | rfl <;> first | rfl | exact absurd rfl hn) (fun _ _ => rfl) o11 q (n.map (· + 1))
  rw [List.map_map] at this
  exact this

end Table
end Meds
