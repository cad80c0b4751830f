import Verif.Lemmas.Table
import Verif.Props.Vector
import Mathlib.Data.List.Nodup

/-! The layout in the structured array does what it does row by row: helper lemmas.  No property theorems here. -/

namespace Meds
namespace Table
open Columns Vec

variable {psf : Bool} {w : Nat} {user : List (Col Val)} {useJoblib : Bool} {nJobs : Nat} {cfg : MakerCfg}

/-! ### The loop over the files -/

theorem posAndBoundsT_table {rows : List ObjRow} (hs : SkyOk psf w user rows) (fileId : Nat) (im : SrcImage) :
    posAndBoundsT useJoblib nJobs cfg (table psf w user rows) fileId im = Maker.posAndBoundsV useJoblib nJobs cfg rows fileId im := by
  unfold posAndBoundsT Maker.posAndBoundsV
  rw [show skies (table psf w user rows) = _ from hs, Res.ok_bind, List.map_map]
  rfl

theorem layoutFileT_table (hu : UserNames user) (half : List Int) {rows : List ObjRow} (hs : SkyOk psf w user rows) (fi : Nat × SrcImage) :
    layoutFileT useJoblib nJobs cfg half (table psf w user rows) fi =
      (Maker.layoutFileV useJoblib nJobs cfg half rows fi >>= fun r => .ok (table psf w user r)) := by
  unfold layoutFileT Maker.layoutFileV
  dsimp only
  rw [posAndBoundsT_table hs]
  refine bind_same fun pbq _ => ?_
  refine bind_same fun pos _ => ?_
  rw [show (table psf w user rows).n = rows.length from rfl]
  split
  · rfl
  · refine bind_same fun q _ => ?_
    refine bind_same fun z _ => ?_
    exact fillT_table hu _ _ _ _ hs _ _

theorem fillV_sky {fileId : Nat} {im : SrcImage} {half : List Int} {rows r : List ObjRow} {q : List Nat} {z : List Pos}
    (h : Maker.fillV fileId im half rows q z = .ok r) : r.map (·.sky) = rows.map (·.sky) := by
  unfold Maker.fillV at h
  dsimp only at h
  obtain ⟨_, _, h⟩ := Res.bind_eq_ok.mp h
  obtain ⟨o1, h1, h⟩ := Res.bind_eq_ok.mp h
  obtain ⟨o2, h2, h⟩ := Res.bind_eq_ok.mp h
  obtain ⟨o3, h3, h⟩ := Res.bind_eq_ok.mp h
  obtain ⟨_, _, h⟩ := Res.bind_eq_ok.mp h
  obtain ⟨o4, h4, h⟩ := Res.bind_eq_ok.mp h
  obtain ⟨o5, h5, h⟩ := Res.bind_eq_ok.mp h
  obtain ⟨o6, h6, h⟩ := Res.bind_eq_ok.mp h
  obtain ⟨o7, h7, h⟩ := Res.bind_eq_ok.mp h
  obtain ⟨_, _, h⟩ := Res.bind_eq_ok.mp h
  obtain ⟨o8, h8, h⟩ := Res.bind_eq_ok.mp h
  obtain ⟨o9, h9, h⟩ := Res.bind_eq_ok.mp h
  obtain ⟨o10, h10, h⟩ := Res.bind_eq_ok.mp h
  obtain ⟨o11, h11, h⟩ := Res.bind_eq_ok.mp h
  obtain ⟨_, _, h⟩ := Res.bind_eq_ok.mp h
  have h12 := putField_keeps (fun (o : ObjRow) (x : Int) => { o with ncutout := x }) (fun o : ObjRow => o.sky) (fun _ _ => rfl) _ _ _ _ h
  rw [h12, put2_sky h11, put2_sky h10, put2_sky h9, put2_sky h8, put2_sky h7, put2_sky h6, put2_sky h5,
    put2_sky h4, put2_sky h3, put2_sky h2, put2_sky h1]

theorem layoutFileV_sky {half : List Int} {rows r : List ObjRow} {fi : Nat × SrcImage} (h : Maker.layoutFileV useJoblib nJobs cfg half rows fi = .ok r) :
    r.map (·.sky) = rows.map (·.sky) := by
  unfold Maker.layoutFileV at h
  dsimp only at h
  obtain ⟨_, _, h⟩ := Res.bind_eq_ok.mp h
  obtain ⟨_, _, h⟩ := Res.bind_eq_ok.mp h
  split at h
  · cases h
  · obtain ⟨_, _, h⟩ := Res.bind_eq_ok.mp h
    obtain ⟨_, _, h⟩ := Res.bind_eq_ok.mp h
    exact fillV_sky h

theorem fold_layoutFileT (hu : UserNames user) (half : List Int) (L : List (Nat × SrcImage)) {rows : List ObjRow} (hs : SkyOk psf w user rows) :
    foldRes (layoutFileT useJoblib nJobs cfg half) (table psf w user rows) L =
      (foldRes (Maker.layoutFileV useJoblib nJobs cfg half) rows L >>= fun r => .ok (table psf w user r)) := by
  induction L generalizing rows with
  | nil => rfl
  | cons fi L ih =>
    rw [foldRes, foldRes, layoutFileT_table hu half hs]
    cases h : Maker.layoutFileV useJoblib nJobs cfg half rows fi with
    | error e => rfl
    | ok r => exact ih (hs.congr hu (layoutFileV_sky h))

theorem fold_layoutFileV_sky {half : List Int} {L : List (Nat × SrcImage)} {rows r : List ObjRow}
    (h : foldRes (Maker.layoutFileV useJoblib nJobs cfg half) rows L = .ok r) : r.map (·.sky) = rows.map (·.sky) :=
  foldRes_inv (P := fun x : List ObjRow => x.map (·.sky) = rows.map (·.sky)) rfl (fun _ _ _ _ hP hx => (layoutFileV_sky hx).trans hP) h

/-! ### Selecting rows -/

/-- The rows of a column at the places in `q`. -/
def taken {α : Type} (q : List Nat) (l : List α) : List α := q.filterMap (fun i => l[i]?)

/-- A column of the user with the rows in `q`. -/
def takeCol (q : List Nat) (c : Col Val) : Col Val := { c with vals := taken q c.vals }

theorem taken_cons {α : Type} {i : Nat} {q : List Nat} {l : List α} {x : α} (h : l[i]? = some x) : taken (i :: q) l = x :: taken q l := by
  unfold taken
  rw [List.filterMap_cons_some h]

theorem take_taken {α : Type} {q : List Nat} {l : List α} (h : ∀ i ∈ q, i < l.length) : take l q = .ok (taken q l) := by
  induction q with
  | nil => rfl
  | cons i q ih =>
    have hi := h i List.mem_cons_self
    have hx : l[i]? = some l[i] := List.getElem?_eq_getElem hi
    rw [taken_cons hx]
    unfold take
    rw [mapRes, pyGet_nat_some hx]
    have := ih (fun j hj => h j (List.mem_cons_of_mem _ hj))
    unfold take at this
    rw [this]

theorem taken_map {α β : Type} (f : α → β) (q : List Nat) (l : List α) : taken q (l.map f) = (taken q l).map f := by
  unfold taken
  rw [List.map_filterMap]
  congr 1
  funext i
  rw [List.getElem?_map]

theorem taken_length {α : Type} {q : List Nat} {l : List α} (h : ∀ i ∈ q, i < l.length) : (taken q l).length = q.length := by
  induction q with
  | nil => rfl
  | cons i q ih =>
    rw [taken_cons (List.getElem?_eq_getElem (h i List.mem_cons_self)), List.length_cons, List.length_cons, ih (fun j hj => h j (List.mem_cons_of_mem _ hj))]

theorem taken_range {α : Type} (l : List α) : taken (List.range l.length) l = l := by
  unfold taken
  apply List.ext_getElem?
  intro n
  have : ∀ m, m ≤ l.length → (List.range m).filterMap (fun i => l[i]?) = l.take m := by
    intro m hm
    induction m with
    | zero => rfl
    | succ m ih =>
      rw [List.range_succ, List.filterMap_append, ih (by omega), List.take_add_one]
      rfl
  rw [this _ (Nat.le_refl _), List.take_length]

theorem taken_mapRes {α β : Type} {f : α → Res β} {q : List Nat} {l : List α} {l' : List β} (h : mapRes f l = .ok l') :
    mapRes f (taken q l) = .ok (taken q l') := by
  have hlen := mapRes_length h
  induction q with
  | nil => rfl
  | cons i q ih =>
    by_cases hi : i < l.length
    · have hx : l[i]? = some l[i] := List.getElem?_eq_getElem hi
      obtain ⟨y, hy1, hy2⟩ := mapRes_getElem? h hx
      rw [taken_cons hx, taken_cons hy1, mapRes, hy2, ih]
    · have e1 : taken (i :: q) l = taken q l := by
        unfold taken
        rw [List.filterMap_cons_none (by rw [List.getElem?_eq_none (by omega)])]
      have e2 : taken (i :: q) l' = taken q l' := by
        unfold taken
        rw [List.filterMap_cons_none (by rw [List.getElem?_eq_none (by omega)])]
      rw [e1, e2, ih]

theorem taken_replicate {α : Type} {q : List Nat} {n : Nat} (x : α) (h : ∀ i ∈ q, i < n) : taken q (List.replicate n x) = List.replicate q.length x := by
  induction q with
  | nil => rfl
  | cons i q ih =>
    have hi := h i List.mem_cons_self
    rw [taken_cons (x := x) (by simp [hi]), ih (fun j hj => h j (List.mem_cons_of_mem _ hj)), List.length_cons, List.replicate_succ]

theorem taken_zipWith {α β γ : Type} (f : α → β → γ) {q : List Nat} {a : List α} {b : List β} (h : a.length = b.length) :
    taken q (List.zipWith f a b) = List.zipWith f (taken q a) (taken q b) := by
  induction q with
  | nil => rfl
  | cons i q ih =>
    by_cases hi : i < a.length
    · have hx : a[i]? = some a[i] := List.getElem?_eq_getElem hi
      have hy : b[i]? = some (b[i]'(h ▸ hi)) := List.getElem?_eq_getElem (h ▸ hi)
      have hz : (List.zipWith f a b)[i]? = some (f a[i] (b[i]'(h ▸ hi))) := by
        rw [List.getElem?_zipWith, hx, hy]
      rw [taken_cons hx, taken_cons hy, taken_cons hz, ih, List.zipWith_cons_cons]
    · have e : ∀ {δ : Type} (l : List δ), ¬ i < l.length → taken (i :: q) l = taken q l := by
        intro δ l hl
        unfold taken
        rw [List.filterMap_cons_none (by rw [List.getElem?_eq_none (by omega)])]
      rw [e a hi, e b (h ▸ hi), e _ (by simp; omega), ih]

theorem taken_zip {α β : Type} {q : List Nat} {a : List α} {b : List β} (h : a.length = b.length) :
    taken q (a.zip b) = (taken q a).zip (taken q b) := by
  unfold List.zip
  exact taken_zipWith _ h

/-- Rows of a table. -/
theorem takeRows_table {rows : List ObjRow} {q : List Nat} (hq : ∀ i ∈ q, i < rows.length) (hl : ∀ c ∈ user, c.vals.length = rows.length) :
    takeRows (table psf w user rows) q = .ok (table psf w (user.map (takeCol q)) (taken q rows)) := by
  have hcs : mapRes (fun c : Col Val => do let v ← take c.vals q; .ok { c with vals := v }) (table psf w user rows).cols =
      .ok ((table psf w user rows).cols.map (takeCol q)) := by
    rw [← mapRes_ok_map]
    refine mapRes_congr fun c hc => ?_
    obtain ⟨p, hp, rfl⟩ := List.mem_map.mp hc
    have : (p.2 rows).length = rows.length := by
      rcases mem_colFns hp with ⟨y, hy, rfl⟩ | ⟨y, hy, rfl⟩ | ⟨c', hc', rfl⟩
      · simp
      · simp
      · exact hl c' hc'
    dsimp only
    rw [take_taken (fun i hi => by rw [this]; exact hq i hi)]
    rfl
  unfold takeRows
  rw [hcs, Res.ok_bind]
  congr 1
  unfold table
  congr 1
  · exact (taken_length hq).symm
  · dsimp only
    rw [List.map_map]
    unfold colFns
    simp only [List.map_append, List.map_map]
    congr 1
    · congr 1
      · congr 1
        · refine List.map_congr_left fun p _ => ?_
          simp [takeCol, taken_map]
        · refine List.map_congr_left fun p _ => ?_
          simp [takeCol, taken_map]
    · cases psf
      · rfl
      · simp only [if_true, List.map_map]
        refine List.map_congr_left fun p _ => ?_
        simp [takeCol, taken_map]

theorem takeCol_names (q : List Nat) : UserNames (user.map (takeCol q)) ↔ UserNames user := by
  unfold UserNames
  rw [List.map_map]
  simp [takeCol, Function.comp_def]

theorem takeRows_col? {a a' : Arr Val} {q : List Nat} (h : takeRows a q = .ok a') (hq : ∀ c ∈ a.cols, ∀ i ∈ q, i < c.vals.length) :
    a' = { n := q.length, cols := a.cols.map (takeCol q) } := by
  unfold takeRows at h
  have hcs : mapRes (fun c : Col Val => do let v ← take c.vals q; .ok { c with vals := v }) a.cols = .ok (a.cols.map (takeCol q)) := by
    rw [← mapRes_ok_map]
    refine mapRes_congr fun c hc => ?_
    rw [take_taken (hq c hc)]
    rfl
  rw [hcs, Res.ok_bind] at h
  injection h with h
  exact h.symm

theorem col?_takeCol (a : Arr Val) (q : List Nat) (nm : String) :
    (Arr.mk q.length (a.cols.map (takeCol q))).col? nm = (a.col? nm).map (takeCol q) := by
  unfold Arr.col?
  dsimp only
  rw [List.find?_map]
  rfl

theorem numbers_take {a : Arr Val} {q : List Nat} {nm : String} {l : List ℚ} (h : numbers a nm = .ok l) :
    numbers (Arr.mk q.length (a.cols.map (takeCol q))) nm = .ok (taken q l) := by
  unfold numbers column at h ⊢
  rw [col?_takeCol]
  cases hc : a.col? nm with
  | none => rw [hc] at h; cases h
  | some c =>
    rw [hc] at h
    exact taken_mapRes h

theorem numbers_length {a : Arr Val} {nm : String} {l : List ℚ} (h : numbers a nm = .ok l) (hn : ∀ c ∈ a.cols, c.vals.length = a.n) : l.length = a.n := by
  unfold numbers column at h
  cases hc : a.col? nm with
  | none => rw [hc] at h; cases h
  | some c =>
    rw [hc] at h
    rw [mapRes_length h]
    exact hn c (Arr.mem_of_col? hc).1

theorem wcsColors_take {a : Arr Val} {q : List Nat} {l : List (Option ℚ)} (h : wcsColors a = .ok l) (hq : ∀ i ∈ q, i < a.n) :
    wcsColors (Arr.mk q.length (a.cols.map (takeCol q))) = .ok (taken q l) := by
  have hn : (Arr.mk q.length (a.cols.map (takeCol q))).names = a.names := by
    simp [Arr.names, takeCol, Function.comp_def]
  unfold wcsColors at h ⊢
  rw [hn]
  by_cases h1 : a.names.contains "color" = true
  · rw [if_pos h1] at h ⊢
    obtain ⟨c, hc, h⟩ := Res.bind_eq_ok.mp h
    injection h with h
    rw [numbers_take hc, Res.ok_bind, ← h, taken_map]
  · rw [if_neg h1] at h ⊢
    by_cases h2 : a.names.contains "wcs_color" = true
    · rw [if_pos h2] at h ⊢
      obtain ⟨c, hc, h⟩ := Res.bind_eq_ok.mp h
      injection h with h
      rw [numbers_take hc, Res.ok_bind, ← h, taken_map]
    · rw [if_neg h2] at h ⊢
      injection h with h
      rw [← h, taken_replicate _ hq]

theorem wcsColors_length {a : Arr Val} {l : List (Option ℚ)} (h : wcsColors a = .ok l) (hn : ∀ c ∈ a.cols, c.vals.length = a.n) : l.length = a.n := by
  unfold wcsColors at h
  by_cases h1 : a.names.contains "color" = true
  · rw [if_pos h1] at h
    obtain ⟨c, hc, h⟩ := Res.bind_eq_ok.mp h
    injection h with h
    rw [← h, List.length_map, numbers_length hc hn]
  · rw [if_neg h1] at h
    by_cases h2 : a.names.contains "wcs_color" = true
    · rw [if_pos h2] at h
      obtain ⟨c, hc, h⟩ := Res.bind_eq_ok.mp h
      injection h with h
      rw [← h, List.length_map, numbers_length hc hn]
    · rw [if_neg h2] at h
      injection h with h
      rw [← h, List.length_replicate]

theorem psfColors_take {a : Arr Val} {q : List Nat} {l : List (Option ℚ)} (h : psfColors a = .ok l) (hq : ∀ i ∈ q, i < a.n) :
    psfColors (Arr.mk q.length (a.cols.map (takeCol q))) = .ok (taken q l) := by
  have hn : (Arr.mk q.length (a.cols.map (takeCol q))).names = a.names := by
    simp [Arr.names, takeCol, Function.comp_def]
  unfold psfColors at h ⊢
  rw [hn]
  by_cases h1 : a.names.contains "psf_color" = true
  · rw [if_pos h1] at h ⊢
    obtain ⟨c, hc, h⟩ := Res.bind_eq_ok.mp h
    injection h with h
    rw [numbers_take hc, Res.ok_bind, ← h, taken_map]
  · rw [if_neg h1] at h ⊢
    injection h with h
    rw [← h, taken_replicate _ hq]

theorem psfColors_length {a : Arr Val} {l : List (Option ℚ)} (h : psfColors a = .ok l) (hn : ∀ c ∈ a.cols, c.vals.length = a.n) : l.length = a.n := by
  unfold psfColors at h
  by_cases h1 : a.names.contains "psf_color" = true
  · rw [if_pos h1] at h
    obtain ⟨c, hc, h⟩ := Res.bind_eq_ok.mp h
    injection h with h
    rw [← h, List.length_map, numbers_length hc hn]
  · rw [if_neg h1] at h
    injection h with h
    rw [← h, List.length_replicate]

theorem skies_take {a : Arr Val} {q : List Nat} {l : List SkyPos} (h : skies a = .ok l) (hq : ∀ i ∈ q, i < a.n) (hn : ∀ c ∈ a.cols, c.vals.length = a.n) :
    skies (Arr.mk q.length (a.cols.map (takeCol q))) = .ok (taken q l) := by
  unfold skies at h ⊢
  obtain ⟨ra, h1, h⟩ := Res.bind_eq_ok.mp h
  obtain ⟨dec, h2, h⟩ := Res.bind_eq_ok.mp h
  obtain ⟨c, h3, h⟩ := Res.bind_eq_ok.mp h
  obtain ⟨p, h4, h⟩ := Res.bind_eq_ok.mp h
  injection h with h
  rw [numbers_take h1, Res.ok_bind, numbers_take h2, Res.ok_bind, wcsColors_take h3 hq, Res.ok_bind, psfColors_take h4 hq, Res.ok_bind, ← h]
  have l1 := numbers_length h1 hn
  have l2 := numbers_length h2 hn
  have l3 := wcsColors_length h3 hn
  have l4 := psfColors_length h4 hn
  rw [taken_zipWith _ (by rw [List.length_zip, List.length_zip, l1, l2, l3, l4]), taken_zip (by rw [l1, l2]), taken_zip (by rw [l3, l4])]

theorem table_lengths {rows : List ObjRow} (hl : ∀ c ∈ user, c.vals.length = rows.length) :
    ∀ c ∈ (table psf w user rows).cols, c.vals.length = (table psf w user rows).n := by
  intro c hc
  obtain ⟨p, hp, rfl⟩ := List.mem_map.mp hc
  rcases mem_colFns hp with ⟨y, hy, rfl⟩ | ⟨y, hy, rfl⟩ | ⟨c', hc', rfl⟩
  · simp [table]
  · simp [table]
  · exact hl c' hc'

theorem SkyOk.taken {rows : List ObjRow} (h : SkyOk psf w user rows) {q : List Nat} (hq : ∀ i ∈ q, i < rows.length) (hl : ∀ c ∈ user, c.vals.length = rows.length) :
    SkyOk psf w (user.map (takeCol q)) (taken q rows) := by
  have e := takeRows_table (psf := psf) (w := w) hq hl
  have e2 := takeRows_col? e (fun c hc i hi => by rw [table_lengths hl c hc]; exact hq i hi)
  unfold SkyOk at h ⊢
  rw [e2, skies_take h hq (table_lengths hl), taken_map]

/-! ### Trimming -/

/-- The rows that trimming to the coadd keeps. -/
def keepRows (cfg : MakerCfg) (images : List SrcImage) (rows : List ObjRow) : List Nat :=
  if cfg.firstImageIsCoadd && cfg.trimToCoadd then
    match images with
    | [] => []
    | im :: _ => sel (Maker.accepted cfg 0 im) rows
  else List.range rows.length

theorem sel_lt {α : Type} {p : α → Bool} {l : List α} : ∀ i ∈ sel p l, i < l.length := by
  intro i hi
  unfold sel at hi
  obtain ⟨x, hx, rfl⟩ := List.mem_map.mp hi
  have := (List.mem_filter.mp hx).1
  have := List.snd_lt_of_mem_zipIdx this
  omega

theorem taken_sel {α : Type} (p : α → Bool) (l : List α) : taken (sel p l) l = l.filter p := by
  have h := Maker.take_sel id p l
  rw [List.map_id, take_taken sel_lt, List.map_id] at h
  injection h

theorem keepRows_lt {images : List SrcImage} {rows : List ObjRow} : ∀ i ∈ keepRows cfg images rows, i < rows.length := by
  unfold keepRows
  split
  · cases images with
    | nil => intro i hi; cases hi
    | cons im rest => exact sel_lt
  · intro i hi
    exact List.mem_range.mp hi

theorem trimT_table (hj : 0 < nJobs) (images : List SrcImage) {rows : List ObjRow} (hs : SkyOk psf w user rows)
    (hl : ∀ c ∈ user, c.vals.length = rows.length) :
    trimT useJoblib nJobs cfg images (table psf w user rows) =
      (Maker.trimV useJoblib nJobs cfg images rows >>= fun r => .ok (table psf w (user.map (takeCol (keepRows cfg images rows))) r)) ∧
    ∀ r, Maker.trimV useJoblib nJobs cfg images rows = .ok r → r = taken (keepRows cfg images rows) rows := by
  unfold trimT Maker.trimV keepRows
  by_cases hc : (cfg.firstImageIsCoadd && cfg.trimToCoadd) = true
  · simp only [if_pos hc]
    cases images with
    | nil => exact ⟨rfl, fun r hr => by cases hr⟩
    | cons im rest =>
      rw [show pyGet (im :: rest) 0 = .ok im from pyGet_nat_some (k := 0) rfl]
      simp only [Res.ok_bind]
      rw [posAndBoundsT_table hs, Maker.posAndBoundsV_eq hj]
      simp only [Res.ok_bind]
      rw [Maker.containsPoints_eq, Maker.take_sel_sel]
      simp only [Res.ok_bind]
      rw [show sel (fun o => im.wcs.rough o.sky && Maker.inside cfg 0 im o) rows = sel (Maker.accepted cfg 0 im) rows from rfl]
      have h2 := Maker.take_sel id (Maker.accepted cfg 0 im) rows
      rw [List.map_id, List.map_id] at h2
      split
      · exact ⟨rfl, fun r hr => by cases hr⟩
      · rw [h2, takeRows_table sel_lt hl, taken_sel]
        exact ⟨rfl, fun r hr => by injection hr with hr; exact hr.symm⟩
  · simp only [if_neg hc]
    refine ⟨?_, fun r hr => by injection hr with hr; rw [← hr, taken_range]⟩
    rw [Res.ok_bind]
    congr 2
    conv_lhs => rw [← List.map_id user]
    refine List.map_congr_left fun c hcm => ?_
    unfold takeCol
    rw [← hl c hcm, taken_range]
    rfl

end Table
end Meds
