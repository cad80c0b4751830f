import Verif.Model.Dtype
import Verif.Lemmas.Machine
import Verif.Props.StoredMasks
import Verif.Props.ColumnShapes

/-!
# Types and memory layout of the input columns (C114, C115)
-/

namespace Meds
namespace Spec
open Dtype

/-- A dtype as numpy has them: fields with different names, none of them empty, all inside the record. -/
structure DTypeOK (d : DType) : Prop where
  nodup : (d.fields.map (·.1.name)).Nodup
  named : ∀ f ∈ d.fields, f.1.name ≠ ""
  inside : ∀ f ∈ d.fields, f.2 + f.1.size ≤ d.itemsize

/-- The fields follow each other in memory in the order of the dtype, without gaps in between or at the end. -/
def Packed (d : DType) : Prop :=
  (∀ k f, d.fields[k]? = some f → f.2 = ((d.fields.take k).map (·.1.size)).sum) ∧ d.itemsize = (d.fields.map (·.1.size)).sum

/-- An array: one list of rows for every field, all of them of the right shape. -/
structure ArrayOK (a : TArr) : Prop where
  dtype : DTypeOK a.dtype
  fields : a.vals.length = a.dtype.fields.length
  rows : ∀ c ∈ a.cols, c.vals.length = a.n
  widths : ∀ c ∈ a.cols, ∀ r ∈ c.vals, r.length = c.entry.width.getD 1

/-- The names of the columns the maker fills in. -/
def makersNames : List String :=
  ["id", "box_size", "ra", "dec", "ncutout", "file_id", "start_row", "orig_row", "orig_col", "orig_start_row", "orig_start_col", "cutout_row", "cutout_col",
   "dudrow", "dudcol", "dvdrow", "dvdcol", "psf_row_size", "psf_col_size", "psf_cutout_row", "psf_cutout_col", "psf_start_row"]

end Spec

namespace Dtype
open Spec

/-! ### The descriptor -/

/-- Consecutive from `off` on, ending at `stop`. -/
def Consecutive : List (Entry × Nat) → Nat → Nat → Prop
  | [], off, stop => off = stop
  | f :: fs, off, stop => f.2 = off ∧ Consecutive fs (off + f.1.size) stop

theorem consecutive_iff (fs : List (Entry × Nat)) (off stop : Nat) : Consecutive fs off stop ↔
    (∀ k f, fs[k]? = some f → f.2 = off + ((fs.take k).map (·.1.size)).sum) ∧ stop = off + (fs.map (·.1.size)).sum := by
  induction fs generalizing off with
  | nil => simp [Consecutive, eq_comm]
  | cons f fs ih =>
    unfold Consecutive
    rw [ih]
    constructor
    · rintro ⟨h1, h2, h3⟩
      refine ⟨?_, by simp only [List.map_cons, List.sum_cons]; omega⟩
      intro k g hg
      cases k with
      | zero => simp at hg; subst hg; simp [h1]
      | succ k =>
        have := h2 k g (by simpa using hg)
        simp only [List.take_succ_cons, List.map_cons, List.sum_cons]
        omega
    · rintro ⟨h1, h2⟩
      refine ⟨by simpa using h1 0 f rfl, ?_, by simp only [List.map_cons, List.sum_cons] at h2; omega⟩
      intro k g hg
      have := h1 (k + 1) g (by simpa using hg)
      simp only [List.take_succ_cons, List.map_cons, List.sum_cons] at this
      omega

theorem packed_iff (d : DType) : Packed d ↔ Consecutive d.fields 0 d.itemsize := by
  rw [consecutive_iff]
  simp [Packed]

theorem descrFrom_consecutive {it : Nat} {fs : List (Entry × Nat)} {off : Nat} (h : Consecutive fs off it) : descrFrom it fs off = .ok (fs.map (·.1)) := by
  induction fs generalizing off with
  | nil =>
    unfold Consecutive at h
    unfold descrFrom
    rw [if_neg (by omega)]
    rfl
  | cons f fs ih =>
    unfold Consecutive at h
    unfold descrFrom
    rw [if_neg (by omega), if_neg (by omega), ih h.2]
    rfl

theorem descrFrom_named {it : Nat} {fs : List (Entry × Nat)} {off : Nat} {ds : List Entry} (hin : ∀ f ∈ fs, f.2 + f.1.size ≤ it) (hoff : off ≤ it)
    (h : descrFrom it fs off = .ok ds) (hn : ∀ e ∈ ds, e.name ≠ "") : Consecutive fs off it := by
  induction fs generalizing off ds with
  | nil =>
    unfold descrFrom at h
    unfold Consecutive
    split at h
    · injection h with h
      subst h
      exact absurd rfl (hn _ List.mem_cons_self)
    · omega
  | cons f fs ih =>
    unfold descrFrom at h
    split at h
    · obtain ⟨r, _, h⟩ := Res.bind_eq_ok.mp h
      injection h with h
      subst h
      exact absurd rfl (hn _ List.mem_cons_self)
    · split at h
      · cases h
      · have hf : f.2 = off := by omega
        obtain ⟨r, hr, h⟩ := Res.bind_eq_ok.mp h
        injection h with h
        subst h
        have := hin f List.mem_cons_self
        exact ⟨hf, ih (fun g hg => hin g (List.mem_cons_of_mem _ hg)) (by omega) hr (fun e he => hn e (List.mem_cons_of_mem _ he))⟩

theorem descrFrom_error {it : Nat} {fs : List (Entry × Nat)} {off : Nat} {e : Err} (h : descrFrom it fs off = .error e) : e = .valueError := by
  induction fs generalizing off with
  | nil => cases h
  | cons f fs ih =>
    unfold descrFrom at h
    split at h
    · cases hr : descrFrom it fs (f.2 + f.1.size) with
      | error e' => rw [hr] at h; injection h with h; subst h; exact ih hr
      | ok r => rw [hr] at h; cases h
    · split at h
      · injection h with h; exact h.symm
      · cases hr : descrFrom it fs (off + f.1.size) with
        | error e' => rw [hr] at h; injection h with h; subst h; exact ih hr
        | ok r => rw [hr] at h; cases h

/-- **C115** (the cause) The descriptor of a dtype lists just its fields if they are packed; otherwise it has an entry without a name, or there is none. -/
theorem descr_packed {d : DType} (hd : DTypeOK d) : (Packed d → d.descr = .ok (d.fields.map (·.1))) ∧
    (¬ Packed d → d.descr = .error .valueError ∨ ∃ ds, d.descr = .ok ds ∧ ∃ e ∈ ds, e.name = "") := by
  constructor
  · intro h
    exact descrFrom_consecutive ((packed_iff d).mp h)
  · intro h
    cases hr : d.descr with
    | error e => left; rw [descrFrom_error hr]
    | ok ds =>
      right
      refine ⟨ds, rfl, ?_⟩
      by_contra hno
      simp only [not_exists, not_and] at hno
      exact h ((packed_iff d).mpr (descrFrom_named hd.inside (Nat.zero_le _) hr hno))

theorem mem_descrFrom {it : Nat} {fs : List (Entry × Nat)} {off : Nat} {ds : List Entry} (h : descrFrom it fs off = .ok ds) :
    ∀ e ∈ ds, (e.name = "" ∧ ∃ n, e.kind = .void n) ∨ ∃ f ∈ fs, f.1 = e := by
  induction fs generalizing off ds with
  | nil =>
    unfold descrFrom at h
    injection h with h
    subst h
    intro e he
    split at he
    · rw [List.mem_singleton] at he; subst he; exact .inl ⟨rfl, _, rfl⟩
    · cases he
  | cons f fs ih =>
    unfold descrFrom at h
    have hrest : ∀ off' r, descrFrom it fs off' = .ok r → ∀ e ∈ r, (e.name = "" ∧ ∃ n, e.kind = .void n) ∨ ∃ g ∈ f :: fs, g.1 = e := by
      intro off' r hr e he
      rcases ih hr e he with h | ⟨g, hg, h⟩
      · exact .inl h
      · exact .inr ⟨g, List.mem_cons_of_mem _ hg, h⟩
    split at h
    · obtain ⟨r, hr, h⟩ := Res.bind_eq_ok.mp h
      injection h with h
      subst h
      intro e he
      rcases List.mem_cons.mp he with rfl | he
      · exact .inl ⟨rfl, _, rfl⟩
      · rcases List.mem_cons.mp he with rfl | he
        · exact .inr ⟨f, List.mem_cons_self, rfl⟩
        · exact hrest _ _ hr e he
    · split at h
      · cases h
      · obtain ⟨r, hr, h⟩ := Res.bind_eq_ok.mp h
        injection h with h
        subst h
        intro e he
        rcases List.mem_cons.mp he with rfl | he
        · exact .inr ⟨f, List.mem_cons_self, rfl⟩
        · exact hrest _ _ hr e he

/-! ### The empty catalogue -/

theorem own_names (nmax : Nat) : ((outputDtype nmax []).map (·.name)) ++ ((psfDtype nmax).map (·.name)) = makersNames := rfl

/-- The entries of the user. -/
def userEntries (ds : List Entry) : List Entry := ds.filter (fun e => decide (e.name ∉ makersNames))

theorem extraFields_eq {psf : Bool} {d : DType} {nmax : Nat} {ds : List Entry} (h : d.descr = .ok ds) :
    extraFields psf d nmax = .ok (userEntries ds ++ (if psf then psfDtype nmax else [])) := by
  unfold extraFields
  rw [h, Res.ok_bind]
  have : ds.filter (fun e => !(((outputDtype nmax []).map (·.name)).contains e.name) && !(((psfDtype nmax).map (·.name)).contains e.name)) = userEntries ds := by
    unfold userEntries
    apply List.filter_congr
    intro e _
    rw [Bool.eq_iff_iff]
    simp only [Bool.and_eq_true, Bool.not_eq_true', List.contains_eq_mem, decide_eq_false_iff_not, decide_eq_true_eq, ← own_names nmax, List.mem_append, not_or]
  rw [this]

theorem fillCol_error {strict : Bool} {n : Nat} {e : Entry} {x : Err} (h : fillCol strict n e = .error x) :
    (e.name = "" ∧ x = .valueError) ∨ (e.name ≠ "" ∧ e.name ≠ "ncutout" ∧ assignDefault strict e.kind = .error x) := by
  unfold fillCol at h
  split at h
  · cases h
  · rename_i h1
    split at h
    · rename_i h2
      injection h with h
      exact .inl ⟨h2, h.symm⟩
    · rename_i h2
      cases ha : assignDefault strict e.kind with
      | ok v => rw [ha] at h; cases h
      | error x' =>
        rw [ha] at h
        injection h with h
        subst h
        exact .inr ⟨h2, h1, rfl⟩

theorem wrap_eq_iff {t : IntType} (hb : 0 < t.bits) (k : Int) : t.wrap k = k ↔ Holds t k :=
  ⟨fun h => h ▸ IntType.wrap_holds t hb k, IntType.wrap_of_holds⟩

theorem own_fill {psf : Bool} {nmax : Nat} (strict : Bool) (n : Nat) :
    ∀ e ∈ outputDtype nmax [] ++ (if psf then psfDtype nmax else []), ∃ c, fillCol strict n e = .ok c := by
  have h8 : assignDefault strict i8 = .ok (.num (-9999)) := by cases strict <;> decide
  have h4 : assignDefault strict i4 = .ok (.num (-9999)) := by cases strict <;> decide
  have hd : assignDefault strict .f8 = .ok (.num (-9999)) := rfl
  have key : ∀ e : Entry, e.name ∈ makersNames → (e.kind = i8 ∨ e.kind = i4 ∨ e.kind = .f8) → ∃ c, fillCol strict n e = .ok c := by
    intro e he hk
    unfold fillCol
    split
    · exact ⟨_, rfl⟩
    · rw [if_neg (by intro h; rw [h] at he; revert he; decide)]
      rcases hk with hk | hk | hk
      · rw [hk, h8]; exact ⟨_, rfl⟩
      · rw [hk, h4]; exact ⟨_, rfl⟩
      · rw [hk, hd]; exact ⟨_, rfl⟩
  intro e he
  rcases List.mem_append.mp he with he | he
  · simp only [outputDtype, List.append_nil, List.mem_cons, List.not_mem_nil, or_false] at he
    rcases he with rfl | rfl | rfl | rfl | rfl | rfl | rfl | rfl | rfl | rfl | rfl | rfl | rfl | rfl | rfl | rfl | rfl <;>
      exact key _ (by simp [makersNames]) (by simp)
  · cases psf
    · cases he
    · simp only [if_true, psfDtype, List.mem_cons, List.not_mem_nil, or_false] at he
      rcases he with rfl | rfl | rfl | rfl | rfl <;> exact key _ (by simp [makersNames]) (by simp)

theorem fieldNames_named {ds : List Entry} (h : ∀ e ∈ ds, e.name ≠ "") : fieldNames ds = ds.map (·.name) := by
  unfold fieldNames
  apply List.ext_getElem
  · simp
  · intro i h1 h2
    simp only [List.getElem_mapIdx, List.getElem_map]
    rw [if_neg (h _ (List.getElem_mem _))]

theorem outputDtype_split (nmax : Nat) (extra : List Entry) : outputDtype nmax extra = outputDtype nmax [] ++ extra := by simp [outputDtype]

/-- The entries of the new catalogue are named differently. -/
theorem new_nodup {psf : Bool} {nmax : Nat} {ds : List Entry} (hn : (ds.map (·.name)).Nodup) :
    ((outputDtype nmax (userEntries ds ++ (if psf then psfDtype nmax else []))).map (·.name)).Nodup := by
  have hu : ((userEntries ds).map (·.name)).Nodup := (List.Sublist.map _ List.filter_sublist).nodup hn
  have hfree : ∀ s ∈ (userEntries ds).map (·.name), s ∉ makersNames := by
    intro s hs
    obtain ⟨e, he, rfl⟩ := List.mem_map.mp hs
    simpa using (List.mem_filter.mp he).2
  have hps : ∀ s ∈ (if psf then psfDtype nmax else []).map (·.name), s ∈ (psfDtype nmax).map (·.name) := by
    cases psf
    · intro s hs; cases hs
    · intro s hs; exact hs
  rw [outputDtype_split, List.map_append, List.map_append]
  have hm : (makersNames).Nodup := by decide
  rw [← own_names nmax, List.nodup_append] at hm
  rw [List.nodup_append]
  refine ⟨hm.1, ?_, ?_⟩
  · rw [List.nodup_append]
    refine ⟨hu, ?_, ?_⟩
    · cases psf
      · exact List.nodup_nil
      · exact hm.2.1
    · rintro s hs t ht rfl
      exact hfree s hs (by rw [← own_names nmax]; exact List.mem_append_right _ (hps s ht))
  · rintro s hs t ht rfl
    rcases List.mem_append.mp ht with ht | ht
    · exact hfree s ht (by rw [← own_names nmax]; exact List.mem_append_left _ hs)
    · exact hm.2.2 s hs s (hps s ht) rfl

theorem required_iff (a : TArr) :
    ¬ (["id", "box_size", "ra", "dec"].filter (fun s => !((a.dtype.fields.map (·.1.name)).contains s))).length > 0 ↔
      ∀ s ∈ ["id", "box_size", "ra", "dec"], s ∈ a.dtype.fields.map (·.1.name) := by
  rw [Nat.not_lt, Nat.le_zero, List.length_eq_zero_iff, List.filter_eq_nil_iff]
  simp

theorem filledStruct_ok {strict : Bool} {n : Nat} {ds : List Entry} {cols : List TCol} (h : filledStruct strict n ds = .ok cols) :
    mapRes (fillCol strict n) ds = .ok cols := by
  unfold filledStruct at h
  split at h
  · exact h
  · cases h

theorem filledStruct_error {strict : Bool} {n : Nat} {ds : List Entry} {e : Err} (h : filledStruct strict n ds = .error e) :
    e = .valueError ∨ mapRes (fillCol strict n) ds = .error e := by
  unfold filledStruct at h
  split at h
  · exact .inr h
  · injection h with h; exact .inl h.symm

theorem filledStruct_user {strict psf : Bool} {n nmax : Nat} {ds : List Entry} {cols : List TCol}
    (h : filledStruct strict n (outputDtype nmax (userEntries ds ++ (if psf then psfDtype nmax else []))) = .ok cols) :
    ∀ e ∈ ds, e.name ≠ "" := by
  intro e he hn
  have h := mapRes_ok_iff.mp (filledStruct_ok h)
  have hm : e ∈ outputDtype nmax (userEntries ds ++ (if psf then psfDtype nmax else [])) := by
    rw [outputDtype_split]
    refine List.mem_append_right _ (List.mem_append_left _ (List.mem_filter.mpr ⟨he, ?_⟩))
    rw [hn]
    decide
  obtain ⟨c, _, hc⟩ := Columns.mem_of_forall₂ h hm
  unfold fillCol at hc
  rw [if_neg (by rw [hn]; decide), if_pos hn] at hc
  cases hc

/-! ### C115 -/

/-- **C115** (as far as it holds) An array is taken only if its fields are packed. -/
theorem C115_packed_only {strict psf : Bool} {nmax : Nat} {a : TArr} (ha : DTypeOK a.dtype) {cols : List TCol} (h : setObjData strict psf nmax a = .ok cols) :
    Packed a.dtype := by
  unfold setObjData at h
  split at h
  · cases h
  · by_contra hp
    rcases (descr_packed ha).2 hp with hd | ⟨ds, hd, e, he, hn⟩
    · unfold extraFields at h
      rw [hd] at h
      cases h
    · rw [extraFields_eq hd, Res.ok_bind] at h
      obtain ⟨new, hnew, _⟩ := Res.bind_eq_ok.mp h
      exact filledStruct_user hnew e he hn

/-- **C115** (what happens) An array with the required columns that is not packed is a ValueError; with numpy 2 an OverflowError if a column before the gap cannot have
the default value. Columns of raw bytes are left out. -/
theorem C115_refused {psf : Bool} {nmax : Nat} {a : TArr} (ha : DTypeOK a.dtype) (hv : ∀ f ∈ a.dtype.fields, ∀ n, f.1.kind ≠ .void n) (hp : ¬ Packed a.dtype) :
    setObjData false psf nmax a = .error .valueError ∧ ∃ e, setObjData true psf nmax a = .error e ∧ (e = .valueError ∨ e = .overflowError) := by
  have key : ∀ strict, ∃ e, setObjData strict psf nmax a = .error e ∧ (e = .valueError ∨ (strict = true ∧ e = .overflowError)) := by
    intro strict
    unfold setObjData
    split
    · exact ⟨_, rfl, .inl rfl⟩
    · rcases (descr_packed ha).2 hp with hd | ⟨ds, hd, e, he, hn⟩
      · unfold extraFields
        rw [hd]
        exact ⟨_, rfl, .inl rfl⟩
      · rw [extraFields_eq hd, Res.ok_bind]
        cases hf : filledStruct strict a.n (outputDtype nmax (userEntries ds ++ (if psf then psfDtype nmax else []))) with
        | ok cols => exact absurd hn (filledStruct_user hf e he)
        | error x =>
          refine ⟨x, rfl, ?_⟩
          rcases filledStruct_error hf with hf | hf
          · exact .inl hf
          · obtain ⟨y, hy, hx⟩ := Columns.mapRes_error_from hf
            rcases fillCol_error hx with ⟨_, h⟩ | ⟨h1, h2, h3⟩
            · exact .inl h
            · have hkind : ∀ n, y.kind ≠ .void n := by
                rw [outputDtype_split] at hy
                rcases List.mem_append.mp hy with hy | hy
                · obtain ⟨c, hc⟩ := own_fill (psf := psf) strict a.n y (List.mem_append_left _ hy)
                  rw [hc] at hx; cases hx
                · rcases List.mem_append.mp hy with hy | hy
                  · rcases mem_descrFrom hd y (List.mem_filter.mp hy).1 with ⟨h, _⟩ | ⟨f, hf1, hf2⟩
                    · exact absurd h h1
                    · rw [← hf2]; exact hv f hf1
                  · obtain ⟨c, hc⟩ := own_fill (nmax := nmax) (psf := psf) strict a.n y (List.mem_append_right _ hy)
                    rw [hc] at hx; cases hx
              revert h3
              unfold assignDefault
              split
              · split
                · intro h; cases h
                · split
                  · rename_i hs; intro h; injection h with h; exact .inr ⟨hs, h.symm⟩
                  · intro h; cases h
              · intro h; cases h
              · intro h; cases h
              · intro h; cases h
              · intro h; cases h
              · rename_i n hk; exact absurd hk (hkind n)
  obtain ⟨e, h1, h2⟩ := key false
  obtain ⟨e', h1', h2'⟩ := key true
  refine ⟨?_, e', h1', by tauto⟩
  rcases h2 with h2 | ⟨h2, _⟩
  · rw [h1, h2]
  · cases h2

theorem consecutive_suffix {it : Nat} {all gs fs : List (Entry × Nat)} {off : Nat} (hpos : ∀ f ∈ gs, 0 < f.1.size)
    (hg : Consecutive gs off it) (hf : Consecutive fs off it) (hsub : ∀ f ∈ fs, f ∈ all) (hall : ∀ f ∈ all, f ∈ gs ∨ f.2 < off) (hfpos : ∀ f ∈ fs, 0 < f.1.size) :
    fs = gs := by
  induction fs generalizing gs off with
  | nil =>
    cases gs with
    | nil => rfl
    | cons g gs =>
      have h1 : off = it := hf
      obtain ⟨_, h2⟩ := hg
      have h3 := ((consecutive_iff _ _ _).mp h2).2
      have := hpos g List.mem_cons_self
      omega
  | cons f fs ih =>
    obtain ⟨hf1, hf2⟩ := hf
    cases gs with
    | nil =>
      rcases hall f (hsub f List.mem_cons_self) with h | h
      · cases h
      · omega
    | cons g gs =>
      obtain ⟨hg1, hg2⟩ := hg
      have hfg : f = g := by
        rcases hall f (hsub f List.mem_cons_self) with h | h
        · rcases List.mem_cons.mp h with h | h
          · exact h
          · exfalso
            obtain ⟨k, hk⟩ := List.getElem?_of_mem h
            have := ((consecutive_iff _ _ _).mp hg2).1 k f hk
            have := hpos g List.mem_cons_self
            omega
        · omega
      subst hfg
      congr 1
      refine ih (fun h hh => hpos h (List.mem_cons_of_mem _ hh)) hg2 hf2 (fun h hh => hsub h (List.mem_cons_of_mem _ hh)) ?_ (fun h hh => hfpos h (List.mem_cons_of_mem _ hh))
      intro h hh
      have := hpos f List.mem_cons_self
      rcases hall h hh with h' | h'
      · rcases List.mem_cons.mp h' with rfl | h'
        · right; omega
        · exact .inl h'
      · right; omega

theorem find_name {fs : List (Entry × Nat)} (hn : (fs.map (·.1.name)).Nodup) {f : Entry × Nat} (hf : f ∈ fs) :
    fs.find? (fun g => g.1.name == f.1.name) = some f := by
  induction fs with
  | nil => cases hf
  | cons g gs ih =>
    rw [List.map_cons, List.nodup_cons] at hn
    rcases List.mem_cons.mp hf with rfl | hf
    · rw [List.find?_cons_of_pos (by simp)]
    · rw [List.find?_cons_of_neg, ih hn.2 hf]
      simp only [beq_iff_eq]
      intro h
      exact hn.1 (h ▸ List.mem_map_of_mem hf)

/-- **C115** A selection of columns of a packed array, `obj_data[names]`, is packed only if it is the selection of all columns in their order. -/
theorem C115_selection {d : DType} (hd : DTypeOK d) (hp : Packed d) (hpos : ∀ f ∈ d.fields, 0 < f.1.size) {names : List String}
    (hsub : ∀ s ∈ names, s ∈ d.fields.map (·.1.name)) : Packed (select names d) ↔ names = d.fields.map (·.1.name) := by
  have hsel : (select names d).fields.map (·.1.name) = names := by
    unfold select
    dsimp only
    induction names with
    | nil => rfl
    | cons s ns ih =>
      obtain ⟨f, hf, rfl⟩ := List.mem_map.mp (hsub s List.mem_cons_self)
      rw [List.filterMap_cons, find_name hd.nodup hf, List.map_cons, ih (fun s hs => hsub s (List.mem_cons_of_mem _ hs))]
  have hmem : ∀ f ∈ (select names d).fields, f ∈ d.fields := by
    intro f hf
    obtain ⟨s, _, hs⟩ := List.mem_filterMap.mp hf
    exact List.mem_of_find?_eq_some hs
  constructor
  · intro h
    have hc : Consecutive (select names d).fields 0 d.itemsize := (packed_iff (select names d)).mp h
    have := consecutive_suffix (all := d.fields) hpos ((packed_iff d).mp hp) hc hmem (fun f hf => .inl hf) (fun f hf => hpos f (hmem f hf))
    rw [← hsel, this]
  · intro h
    have : select names d = d := by
      have hf : (select names d).fields = d.fields := by
        unfold select
        dsimp only
        rw [h, List.filterMap_map]
        have : ∀ l : List (Entry × Nat), (∀ f ∈ l, f ∈ d.fields) → l.filterMap ((fun s => d.fields.find? (fun f => f.1.name == s)) ∘ (·.1.name)) = l := by
          intro l hl
          induction l with
          | nil => rfl
          | cons f l ih =>
            rw [List.filterMap_cons]
            simp only [Function.comp_apply]
            rw [find_name hd.nodup (hl f List.mem_cons_self)]
            dsimp only
            exact congrArg (f :: ·) (ih (fun g hg => hl g (List.mem_cons_of_mem _ hg)))
        exact this _ (fun f hf => hf)
      cases d
      unfold select at hf ⊢
      dsimp only at hf ⊢
      rw [hf]
    rw [this]
    exact hp


/-! ### C114 -/

theorem cols_entries {a : TArr} (ha : ArrayOK a) : a.cols.map (·.entry) = a.dtype.fields.map (·.1) := by
  unfold TArr.cols
  have : ∀ (fs : List (Entry × Nat)) (vs : List (List (List V))), vs.length = fs.length →
      (List.zipWith (fun f v => (⟨f.1, v⟩ : TCol)) fs vs).map (·.entry) = fs.map (·.1) := by
    intro fs
    induction fs with
    | nil => intro vs h; simp
    | cons f fs ih =>
      intro vs h
      cases vs with
      | nil => cases h
      | cons v vs => simp [ih vs (by simpa using h)]
  exact this _ _ ha.fields

theorem cols_find {a : TArr} (ha : ArrayOK a) {c : TCol} (hc : c ∈ a.cols) : a.cols.find? (fun s => s.entry.name == c.entry.name) = some c := by
  have hn : (a.cols.map (·.entry.name)).Nodup := by
    have : a.cols.map (·.entry.name) = (a.cols.map (·.entry)).map (·.name) := by simp
    rw [this, cols_entries ha, List.map_map]
    exact ha.dtype.nodup
  generalize a.cols = cs at hc hn ⊢
  induction cs with
  | nil => cases hc
  | cons g gs ih =>
    rw [List.map_cons, List.nodup_cons] at hn
    rcases List.mem_cons.mp hc with rfl | hc
    · rw [List.find?_cons_of_pos (by simp)]
    · rw [List.find?_cons_of_neg, ih hc hn.2]
      simp only [beq_iff_eq]
      intro h
      exact hn.1 (h ▸ List.mem_map_of_mem hc)

theorem entry_of_field {a : TArr} (ha : ArrayOK a) {e : Entry} (he : e ∈ a.dtype.fields.map (·.1)) : ∃ c ∈ a.cols, c.entry = e := by
  rw [← cols_entries ha] at he
  exact List.mem_map.mp he

theorem assign_error {strict : Bool} {k : Kind} {x : Err} (hv : ∀ n, k ≠ .void n) (h : assignDefault strict k = .error x) : strict = true ∧ x = .overflowError := by
  revert h
  unfold assignDefault
  split
  · split
    · intro h; cases h
    · split
      · rename_i hs; intro h; injection h with h; exact ⟨hs, h.symm⟩
      · intro h; cases h
  · intro h; cases h
  · intro h; cases h
  · intro h; cases h
  · intro h; cases h
  · rename_i n; exact absurd rfl (hv n)

/-- **C114** (what happens with numpy 2) A packed array with the required columns that has, under a name of the user's own, a column of an integer type without the
number -9999 is an OverflowError in the constructor: the empty catalogue is filled with -9999 before the columns are copied. -/
theorem C114_refused {psf : Bool} {nmax : Nat} {a : TArr} (ha : DTypeOK a.dtype) (hp : Packed a.dtype) (hv : ∀ f ∈ a.dtype.fields, ∀ n, f.1.kind ≠ .void n)
    (hreq : ∀ s ∈ ["id", "box_size", "ra", "dec"], s ∈ a.dtype.fields.map (·.1.name)) {f : Entry × Nat} (hf : f ∈ a.dtype.fields) (hn : f.1.name ∉ makersNames)
    {t : IntType} (hk : f.1.kind = .int t) (hb : 0 < t.bits) (ht : ¬ Holds t (-9999)) : setObjData true psf nmax a = .error .overflowError := by
  have hd := (descr_packed ha).1 hp
  unfold setObjData
  rw [if_neg ((required_iff a).mpr hreq), extraFields_eq hd, Res.ok_bind]
  have hname : ∀ e ∈ a.dtype.fields.map (·.1), e.name ≠ "" := by
    intro e he
    obtain ⟨g, hg, rfl⟩ := List.mem_map.mp he
    exact ha.named g hg
  cases h : filledStruct true a.n (outputDtype nmax (userEntries (a.dtype.fields.map (·.1)) ++ (if psf then psfDtype nmax else []))) with
  | ok cols =>
    exfalso
    have hm : f.1 ∈ outputDtype nmax (userEntries (a.dtype.fields.map (·.1)) ++ (if psf then psfDtype nmax else [])) := by
      rw [outputDtype_split]
      exact List.mem_append_right _ (List.mem_append_left _ (List.mem_filter.mpr ⟨List.mem_map_of_mem hf, by simpa using hn⟩))
    obtain ⟨c, _, hc⟩ := Columns.mem_of_forall₂ (mapRes_ok_iff.mp (filledStruct_ok h)) hm
    unfold fillCol at hc
    rw [if_neg (by intro e; rw [e] at hn; revert hn; decide), if_neg (ha.named f hf), hk] at hc
    unfold assignDefault at hc
    dsimp only at hc
    rw [if_neg (by rw [wrap_eq_iff hb]; exact ht), if_pos rfl] at hc
    cases hc
  | error x =>
    have : x = .overflowError := by
      have hnd : (fieldNames (outputDtype nmax (userEntries (a.dtype.fields.map (·.1)) ++ (if psf then psfDtype nmax else [])))).Nodup := by
        rw [fieldNames_named]
        · exact new_nodup (by rw [List.map_map]; exact ha.nodup)
        · intro e he
          rw [outputDtype_split] at he
          rcases List.mem_append.mp he with he | he
          · intro h0
            have : e.name ∈ makersNames := by rw [← own_names nmax]; exact List.mem_append_left _ (List.mem_map_of_mem he)
            rw [h0] at this
            revert this
            decide
          · rcases List.mem_append.mp he with he | he
            · exact hname e (List.mem_filter.mp he).1
            · cases psf
              · cases he
              · intro h0
                have : e.name ∈ makersNames := by rw [← own_names nmax]; exact List.mem_append_right _ (List.mem_map_of_mem he)
                rw [h0] at this
                revert this
                decide
      unfold filledStruct at h
      rw [if_pos hnd] at h
      obtain ⟨y, hy, hx⟩ := Columns.mapRes_error_from h
      rw [outputDtype_split] at hy
      rcases List.mem_append.mp hy with hy | hy
      · obtain ⟨c, hc⟩ := own_fill (psf := psf) true a.n y (List.mem_append_left _ hy)
        rw [hc] at hx; cases hx
      · rcases List.mem_append.mp hy with hy | hy
        · rcases fillCol_error hx with ⟨h0, _⟩ | ⟨_, _, h3⟩
          · exact absurd h0 (hname y (List.mem_filter.mp hy).1)
          · obtain ⟨g, hg, rfl⟩ := List.mem_map.mp (List.mem_filter.mp hy).1
            exact (assign_error (hv g hg) h3).2
        · obtain ⟨c, hc⟩ := own_fill (nmax := nmax) (psf := psf) true a.n y (List.mem_append_right _ hy)
          rw [hc] at hx; cases hx
    rw [this]
    rfl

/-- **C114** The integer types without -9999 are the unsigned ones and those of one byte. -/
theorem C114_which_types (t : IntType) (hb : t.bits ∈ [8, 16, 32, 64]) : Holds t (-9999) ↔ t.signed = true ∧ t.bits ≠ 8 := by
  obtain ⟨b, sg⟩ := t
  simp only [List.mem_cons, List.not_mem_nil, or_false] at hb
  rcases hb with rfl | rfl | rfl | rfl <;> cases sg <;> simp [Holds]

/-- How a value of a required column gets into the catalogue: whole numbers keep their value modulo `2^64`, and fractions are dropped, in `id` and `box_size`;
floats are kept and whole numbers become the nearest double in `ra` and `dec`. -/
inductive _root_.Meds.Spec.Stored : Kind → Kind → V → V → Prop
  | wrapped {t : IntType} {k k' m : Int} : Holds ⟨64, true⟩ k' → k = k' + 2 ^ 64 * m → Stored (.int t) i8 (.num k) (.num k')
  | truncated {src : Kind} {q : ℚ} {k : Int} : src = .f8 ∨ src = .f4 → |(k : ℚ)| ≤ |q| → |q - k| < 1 → 0 ≤ q * k → Stored src i8 (.num q) (.num k)
  | same {src : Kind} {q : ℚ} : src = .f8 ∨ src = .f4 → Stored src .f8 (.num q) (.num q)
  | nearest {t : IntType} {k : Int} {q : ℚ} : IsDouble q → (∀ d, IsDouble d → |q - k| ≤ |d - k|) → Stored (.int t) .f8 (.num k) (.num q)

/-- A required column with numbers: integers of a type of at most 64 bits, or floats, which have to be within the range of the integers where integers are wanted. -/
def _root_.Meds.Spec.NumberColumn (c : TCol) : Prop :=
  c.entry.width = none ∧ ((∃ t, c.entry.kind = .int t ∧ (t = ⟨64, true⟩ → ∀ r ∈ c.vals, ∀ v ∈ r, ∀ k : Int, v = .num k → Holds t k)) ∨ c.entry.kind = .f8 ∨ c.entry.kind = .f4) ∧
  ∀ r ∈ c.vals, ∀ v ∈ r, ∃ q : ℚ, v = .num q ∧ (∀ t, c.entry.kind = .int t → ∃ k : Int, q = k) ∧
    (c.entry.name = "id" ∨ c.entry.name = "box_size" → c.entry.kind = .f8 ∨ c.entry.kind = .f4 → -2 ^ 63 ≤ q ∧ q < 2 ^ 63)

theorem truncZ_facts (q : ℚ) : |((truncZ q : Int) : ℚ)| ≤ |q| ∧ |q - (truncZ q : Int)| < 1 ∧ 0 ≤ q * (truncZ q : Int) := by
  unfold truncZ
  split
  · rename_i h
    have h1 := Int.floor_le q
    have h2 := Int.lt_floor_add_one q
    have h3 : (0 : ℚ) ≤ (⌊q⌋ : Int) := by exact_mod_cast Int.floor_nonneg.mpr h
    refine ⟨by rw [abs_of_nonneg h3, abs_of_nonneg h]; exact h1, ?_, mul_nonneg h h3⟩
    rw [abs_of_nonneg (by linarith)]
    linarith
  · rename_i h
    have h := not_le.mp h
    have h1 := Int.le_ceil q
    have h2 := Int.ceil_lt_add_one q
    have h3 : ((⌈q⌉ : Int) : ℚ) ≤ 0 := by exact_mod_cast Int.ceil_le.mpr (by push_cast; exact h.le)
    refine ⟨by rw [abs_of_nonpos h3, abs_of_neg h]; linarith, ?_, mul_nonneg_of_nonpos_of_nonpos h.le h3⟩
    rw [abs_of_nonpos (by linarith)]
    linarith

theorem truncZ_whole (k : Int) : truncZ (k : ℚ) = k := by unfold truncZ; split <;> simp

theorem convert_stored {src dst : Kind} {q : ℚ} (hd : dst = i8 ∨ dst = .f8) (hs : (∃ t, src = .int t ∧ ∃ k : Int, q = k ∧ (t = ⟨64, true⟩ → Holds t k)) ∨ src = .f8 ∨ src = .f4)
    (hr : dst = i8 → src = .f8 ∨ src = .f4 → -2 ^ 63 ≤ q ∧ q < 2 ^ 63) : ∃ v, convert src dst (.num q) = .ok v ∧ Stored src dst (.num q) v := by
  have htr : -2 ^ 63 ≤ q → q < 2 ^ 63 → (⟨64, true⟩ : IntType).wrap (truncZ q) = truncZ q := by
    intro h1 h2
    apply IntType.wrap_of_holds
    unfold Holds
    simp only [if_true]
    refine ⟨by norm_num, ?_, ?_⟩
    · unfold truncZ
      split
      · apply Int.le_floor.mpr; push_cast; exact h1
      · have : ((-2 ^ 63 : Int) : ℚ) ≤ (⌈q⌉ : Int) := by push_cast; exact h1.trans (Int.le_ceil q)
        exact_mod_cast this
    · unfold truncZ
      split
      · apply Int.floor_lt.mpr; push_cast; exact h2
      · rename_i h
        have : (⌈q⌉ : Int) ≤ 0 := Int.ceil_le.mpr (by push_cast; exact (not_le.mp h).le)
        calc (⌈q⌉ : Int) ≤ 0 := this
          _ < 2 ^ (64 - 1) := by norm_num
  obtain ⟨f1, f2, f3⟩ := truncZ_facts q
  rcases hs with ⟨t, rfl, k, rfl, hk⟩ | hs
  · rcases hd with rfl | rfl
    · by_cases ht : t = ⟨64, true⟩
      · subst ht
        exact ⟨_, if_pos rfl, .wrapped (m := 0) (hk rfl) (by ring)⟩
      · refine ⟨.num ((⟨64, true⟩ : IntType).wrap k), ?_, ?_⟩
        · unfold convert
          rw [if_neg (by unfold i8; intro h; injection h with h; exact ht h)]
          simp only [i8, truncZ_whole]
        · obtain ⟨m, hm⟩ := (⟨64, true⟩ : IntType).wrap_congr k
          exact .wrapped (IntType.wrap_holds _ (by norm_num) _) hm
    · refine ⟨.num (rndD k), ?_, .nearest (rndD_isDouble _) (fun d hd => rndD_nearest _ hd)⟩
      unfold convert
      rw [if_neg (by intro h; cases h)]
  · rcases hd with rfl | rfl
    · have hw := htr (hr rfl hs).1 (hr rfl hs).2
      refine ⟨.num (truncZ q), ?_, .truncated hs f1 f2 f3⟩
      rcases hs with rfl | rfl
      · unfold convert
        rw [if_neg (by intro h; cases h)]
        simp only [i8]
        rw [if_pos hw]
      · unfold convert
        rw [if_neg (by intro h; cases h)]
        simp only [i8]
        rw [if_pos hw]
    · refine ⟨.num q, ?_, .same hs⟩
      rcases hs with rfl | rfl
      · exact if_pos rfl
      · unfold convert
        rw [if_neg (by intro h; cases h)]

theorem mapRes_rel {β γ : Type} {f : β → Res γ} {R : β → γ → Prop} {l : List β} (h : ∀ x ∈ l, ∃ y, f x = .ok y ∧ R x y) :
    ∃ m, mapRes f l = .ok m ∧ List.Forall₂ R l m := by
  induction l with
  | nil => exact ⟨[], rfl, .nil⟩
  | cons x l ih =>
    obtain ⟨y, h1, h2⟩ := h x List.mem_cons_self
    obtain ⟨m, h3, h4⟩ := ih (fun z hz => h z (List.mem_cons_of_mem _ hz))
    exact ⟨y :: m, by unfold mapRes; rw [h1]; dsimp only; rw [h3], .cons h2 h4⟩

theorem mapRes_convert_same (k : Kind) (l : List (List V)) : mapRes (mapRes (convert k k)) l = .ok l := by
  have h1 : ∀ r : List V, mapRes (convert k k) r = .ok r := by
    intro r
    induction r with
    | nil => rfl
    | cons v r ih => unfold mapRes; rw [show convert k k v = .ok v from if_pos rfl]; dsimp only; rw [ih]
  induction l with
  | nil => rfl
  | cons r l ih => unfold mapRes; rw [h1]; dsimp only; rw [ih]

/-- **C114** (as far as it holds) A packed array is taken if it has the required columns, with numbers, no other column of the maker's, and, with numpy 2, no column of an
integer type without -9999. Then every column of the user is in the catalogue unchanged, with its type, and the required ones are there in the types of the maker. -/
theorem C114_taken_partial {strict psf : Bool} {nmax : Nat} {a : TArr} (ha : ArrayOK a) (hp : Packed a.dtype) (hv : ∀ f ∈ a.dtype.fields, ∀ n, f.1.kind ≠ .void n)
    (hreq : ∀ s ∈ ["id", "box_size", "ra", "dec"], s ∈ a.dtype.fields.map (·.1.name))
    (hno : ∀ f ∈ a.dtype.fields, f.1.name ∈ makersNames → f.1.name ∈ ["id", "box_size", "ra", "dec"])
    (hnum : ∀ c ∈ a.cols, c.entry.name ∈ ["id", "box_size", "ra", "dec"] → NumberColumn c)
    (hstrict : strict = true → ∀ f ∈ a.dtype.fields, f.1.name ∉ makersNames → ∀ t, f.1.kind = .int t → Holds t (-9999)) :
    ∃ cols, setObjData strict psf nmax a = .ok cols ∧
      (∀ c ∈ a.cols, c.entry.name ∉ makersNames → c ∈ cols) ∧
      (∀ c ∈ a.cols, ∀ s, c.entry.name = s → s ∈ ["id", "box_size", "ra", "dec"] → ∃ c' ∈ cols,
        c'.entry = ⟨s, if s = "id" ∨ s = "box_size" then i8 else .f8, none⟩ ∧
        List.Forall₂ (List.Forall₂ (Stored c.entry.kind c'.entry.kind)) c.vals c'.vals) := by
  have hdt := ha.dtype
  have hd := (descr_packed hdt).1 hp
  set ds := a.dtype.fields.map (·.1) with hds
  set es := outputDtype nmax (userEntries ds ++ (if psf then psfDtype nmax else [])) with hes
  have hname : ∀ e ∈ ds, e.name ≠ "" := by
    intro e he
    obtain ⟨g, hg, rfl⟩ := List.mem_map.mp he
    exact hdt.named g hg
  have hown : ∀ e ∈ outputDtype nmax [] ++ (if psf then psfDtype nmax else []), e.name ∈ makersNames := by
    intro e he
    rw [← own_names nmax]
    rcases List.mem_append.mp he with he | he
    · exact List.mem_append_left _ (List.mem_map_of_mem he)
    · cases psf
      · cases he
      · exact List.mem_append_right _ (List.mem_map_of_mem he)
  have hmem : ∀ e ∈ es, e ∈ outputDtype nmax [] ++ (if psf then psfDtype nmax else []) ∨ (e ∈ ds ∧ e.name ∉ makersNames) := by
    intro e he
    rw [hes, outputDtype_split] at he
    rcases List.mem_append.mp he with he | he
    · exact .inl (List.mem_append_left _ he)
    · rcases List.mem_append.mp he with he | he
      · exact .inr ⟨(List.mem_filter.mp he).1, by simpa using (List.mem_filter.mp he).2⟩
      · exact .inl (List.mem_append_right _ he)
  -- the empty catalogue
  have hfill : ∀ e ∈ es, ∃ c, fillCol strict a.n e = .ok c ∧ c.entry = e := by
    intro e he
    have hok : ∃ c, fillCol strict a.n e = .ok c := by
      rcases hmem e he with h | ⟨h1, h2⟩
      · exact own_fill strict a.n e h
      · cases hf : fillCol strict a.n e with
        | ok c => exact ⟨c, rfl⟩
        | error x =>
          exfalso
          obtain ⟨g, hg, rfl⟩ := List.mem_map.mp h1
          rcases fillCol_error hf with ⟨h0, _⟩ | ⟨_, _, h3⟩
          · exact hname _ h1 h0
          · have hst := (assign_error (hv g hg) h3).1
            cases hk : g.1.kind with
            | int t =>
              have := hstrict hst g hg h2 t hk
              rw [hk] at h3
              unfold assignDefault at h3
              dsimp only at h3
              rw [if_pos (IntType.wrap_of_holds this)] at h3
              cases h3
            | void n => exact hv g hg n hk
            | _ => rw [hk] at h3; cases h3
    obtain ⟨c, hc⟩ := hok
    refine ⟨c, hc, ?_⟩
    unfold fillCol at hc
    split at hc
    · injection hc with hc; rw [← hc]
    · split at hc
      · cases hc
      · obtain ⟨v, _, hc⟩ := Res.bind_eq_ok.mp hc
        injection hc with hc
        rw [← hc]
  obtain ⟨new, hnew, hrel⟩ := mapRes_rel hfill
  have hstruct : filledStruct strict a.n es = .ok new := by
    unfold filledStruct
    rw [if_pos, hnew]
    rw [fieldNames_named]
    · exact new_nodup (by rw [hds, List.map_map]; exact hdt.nodup)
    · intro e he
      rcases hmem e he with h | ⟨h, _⟩
      · intro h0
        have := hown e h
        rw [h0] at this
        revert this
        decide
      · exact hname e h
  have hentry : ∀ c ∈ new, c.entry ∈ es := by
    intro c hc
    have : ∀ {l : List Entry} {m : List TCol}, List.Forall₂ (fun e c => c.entry = e) l m → ∀ c ∈ m, c.entry ∈ l := by
      intro l m h
      induction h with
      | nil => intro c hc; cases hc
      | cons h1 _ ih =>
        intro c hc
        rcases List.mem_cons.mp hc with rfl | hc
        · exact h1 ▸ List.mem_cons_self
        · exact List.mem_cons_of_mem _ (ih c hc)
    exact this hrel c hc
  -- the shapes and types of the required columns
  have hwant : ∀ e ∈ outputDtype nmax [] ++ (if psf then psfDtype nmax else []), e.name ∈ ["id", "box_size", "ra", "dec"] →
      e = ⟨e.name, if e.name = "id" ∨ e.name = "box_size" then i8 else .f8, none⟩ := by
    intro e he
    rcases List.mem_append.mp he with he | he
    · simp only [outputDtype, List.append_nil, List.mem_cons, List.not_mem_nil, or_false] at he
      rcases he with rfl | rfl | rfl | rfl | rfl | rfl | rfl | rfl | rfl | rfl | rfl | rfl | rfl | rfl | rfl | rfl | rfl <;> simp
    · cases psf
      · cases he
      · simp only [if_true, psfDtype, List.mem_cons, List.not_mem_nil, or_false] at he
        rcases he with rfl | rfl | rfl | rfl | rfl <;> simp
  have hcopy : ∀ c ∈ new, ∃ c', copyCol a c = .ok c' ∧ (c'.entry = c.entry ∧ ∀ s ∈ a.cols, s.entry.name = c.entry.name →
      (s.entry.name ∉ makersNames → c' = s) ∧ (s.entry.name ∈ ["id", "box_size", "ra", "dec"] → List.Forall₂ (List.Forall₂ (Stored s.entry.kind c'.entry.kind)) s.vals c'.vals)) := by
    intro c hc
    have hce := hentry c hc
    unfold copyCol
    cases hf : a.cols.find? (fun s => s.entry.name == c.entry.name) with
    | none =>
      refine ⟨c, rfl, rfl, fun s hs he => ?_⟩
      have := List.find?_eq_none.mp hf s hs
      simp [he] at this
    | some s =>
      have hs1 := List.mem_of_find?_eq_some hf
      have hs2 : s.entry.name = c.entry.name := by simpa using List.find?_some hf
      have huniq : ∀ s' ∈ a.cols, s'.entry.name = c.entry.name → s' = s := by
        intro s' hs' he
        have := cols_find ha hs'
        rw [he, hf] at this
        injection this with this
        exact this.symm
      have hsf : s.entry ∈ ds := by rw [hds, ← cols_entries ha]; exact List.mem_map_of_mem hs1
      rcases hmem _ hce with h | ⟨h1, h2⟩
      · -- a required column
        have hin : c.entry.name ∈ ["id", "box_size", "ra", "dec"] := by
          obtain ⟨g, hg, hge⟩ := List.mem_map.mp hsf
          have := hno g hg (by rw [hge, hs2]; exact hown _ h)
          rwa [hge, hs2] at this
        have hw := hwant _ h hin
        obtain ⟨n1, n2, n3⟩ := hnum s hs1 (by rw [hs2]; exact hin)
        have hwid : c.entry.width = none := by rw [hw]
        have hkind : c.entry.kind = if c.entry.name = "id" ∨ c.entry.name = "box_size" then i8 else .f8 := by
          conv => lhs; rw [hw]
        have hconv : ∀ r ∈ s.vals, ∃ r', mapRes (convert s.entry.kind c.entry.kind) r = .ok r' ∧ List.Forall₂ (Stored s.entry.kind c.entry.kind) r r' := by
          intro r hr
          apply mapRes_rel
          intro v hv'
          obtain ⟨q, rfl, hq1, hq2⟩ := n3 r hr v hv'
          apply convert_stored
          · rw [hkind]; split <;> simp
          · rcases n2 with ⟨t, ht, hh⟩ | h | h
            · obtain ⟨k, rfl⟩ := hq1 t ht
              exact .inl ⟨t, ht, k, rfl, fun h64 => hh h64 r hr _ hv' k rfl⟩
            · exact .inr (.inl h)
            · exact .inr (.inr h)
          · intro h8 hfl
            refine hq2 ?_ hfl
            rw [hkind] at h8
            split at h8
            · rename_i hx; rw [hs2]; exact hx
            · cases h8
        obtain ⟨vals', hv1, hv2⟩ := mapRes_rel hconv
        refine ⟨{ c with vals := vals' }, ?_, rfl, ?_⟩
        · dsimp only
          rw [n1, hwid, Columns.broadcast_same, Res.ok_bind, hv1]
          rfl
        · intro s' hs' he
          obtain rfl := huniq s' hs' he
          refine ⟨fun hfree => absurd (hown _ h) (by rw [← hs2]; exact hfree), fun _ => hv2⟩
      · -- a column of the user
        have hse : s.entry = c.entry := by
          obtain ⟨c2, hc2, he2⟩ := entry_of_field ha h1
          rw [← he2, huniq c2 hc2 (by rw [he2])]
        refine ⟨s, ?_, hse, ?_⟩
        · dsimp only
          rw [hse, Columns.broadcast_same, Res.ok_bind, mapRes_convert_same, Res.ok_bind, ← hse]
        · intro s' hs' he
          obtain rfl := huniq s' hs' he
          refine ⟨fun _ => rfl, fun hin => ?_⟩
          exfalso
          apply h2
          rw [← hs2]
          have : ∀ s ∈ ["id", "box_size", "ra", "dec"], s ∈ makersNames := by decide
          exact this _ hin
  obtain ⟨cols, hcols, hrel2⟩ := mapRes_rel hcopy
  have hset : setObjData strict psf nmax a = .ok cols := by
    unfold setObjData
    rw [if_neg ((required_iff a).mpr hreq), extraFields_eq hd, Res.ok_bind, ← hes, hstruct, Res.ok_bind, hcols]
  have hfind : ∀ e ∈ es, ∃ c ∈ new, c.entry = e := fun e he => Columns.mem_of_forall₂ hrel he
  refine ⟨cols, hset, ?_, ?_⟩
  · intro c hc hfree
    have hce : c.entry ∈ es := by
      rw [hes, outputDtype_split]
      refine List.mem_append_right _ (List.mem_append_left _ (List.mem_filter.mpr ⟨?_, by simpa using hfree⟩))
      rw [hds, ← cols_entries ha]
      exact List.mem_map_of_mem hc
    obtain ⟨b, hb, hbe⟩ := hfind _ hce
    obtain ⟨c', hc', _, hall⟩ := Columns.mem_of_forall₂ hrel2 hb
    have := (hall c hc (by rw [hbe])).1 hfree
    exact this ▸ hc'
  · intro c hc s hs hin
    subst hs
    have hex : (⟨c.entry.name, if c.entry.name = "id" ∨ c.entry.name = "box_size" then i8 else .f8, none⟩ : Entry) ∈ es := by
      rw [hes, outputDtype_split]
      refine List.mem_append_left _ ?_
      simp only [List.mem_cons, List.not_mem_nil, or_false] at hin
      rcases hin with h | h | h | h <;> rw [h] <;> simp [outputDtype]
    obtain ⟨b, hb, hbe⟩ := hfind _ hex
    obtain ⟨c', hc', he', hall⟩ := Columns.mem_of_forall₂ hrel2 hb
    exact ⟨c', hc', by rw [he', hbe], (hall c hc (by rw [hbe])).2 hin⟩


theorem fillCol_entry {strict : Bool} {n : Nat} {e : Entry} {c : TCol} (h : fillCol strict n e = .ok c) : c.entry = e := by
  unfold fillCol at h
  split at h
  · injection h with h; rw [← h]
  · split at h
    · cases h
    · obtain ⟨v, _, h⟩ := Res.bind_eq_ok.mp h
      injection h with h; rw [← h]

theorem copyCol_entry {a : TArr} {c c' : TCol} (h : copyCol a c = .ok c') : c'.entry = c.entry := by
  unfold copyCol at h
  split at h
  · injection h with h; rw [h]
  · obtain ⟨v, _, h⟩ := Res.bind_eq_ok.mp h
    obtain ⟨w, _, h⟩ := Res.bind_eq_ok.mp h
    injection h with h; rw [← h]

theorem map_entry {α : Type} {g : α → Entry} {l : List α} {r : List TCol} (h : List.Forall₂ (fun x c => c.entry = g x) l r) : r.map (·.entry) = l.map g := by
  induction h with
  | nil => rfl
  | cons h1 _ ih => rw [List.map_cons, List.map_cons, h1, ih]

/-- **C114** The types of all columns that the maker has itself, in every catalogue: eight bytes for all whole numbers but the sizes of the PSF images, doubles for the others. -/
theorem C114_types {strict psf : Bool} {nmax : Nat} {a : TArr} {cols : List TCol} (h : setObjData strict psf nmax a = .ok cols) :
    ∃ users : List Entry, (∀ e ∈ users, e.name ∉ makersNames) ∧ cols.map (·.entry) =
      [⟨"id", .int ⟨64, true⟩, none⟩, ⟨"box_size", .int ⟨64, true⟩, none⟩, ⟨"ra", .f8, none⟩, ⟨"dec", .f8, none⟩, ⟨"ncutout", .int ⟨64, true⟩, none⟩] ++
      [("file_id", Kind.int ⟨64, true⟩), ("start_row", .int ⟨64, true⟩), ("orig_row", .f8), ("orig_col", .f8), ("orig_start_row", .int ⟨64, true⟩), ("orig_start_col", .int ⟨64, true⟩),
        ("cutout_row", .f8), ("cutout_col", .f8), ("dudrow", .f8), ("dudcol", .f8), ("dvdrow", .f8), ("dvdcol", .f8)].map (fun x => ⟨x.1, x.2, some nmax⟩) ++
      users ++
      (if psf then [("psf_row_size", Kind.int ⟨32, true⟩), ("psf_col_size", .int ⟨32, true⟩), ("psf_cutout_row", .f8), ("psf_cutout_col", .f8),
        ("psf_start_row", .int ⟨64, true⟩)].map (fun x => ⟨x.1, x.2, some nmax⟩) else []) := by
  unfold setObjData at h
  split at h
  · cases h
  · obtain ⟨extra, hx, h⟩ := Res.bind_eq_ok.mp h
    obtain ⟨new, hnew, h⟩ := Res.bind_eq_ok.mp h
    have h1 := map_entry ((mapRes_ok_iff.mp h).imp (fun _ _ hc => copyCol_entry hc))
    unfold filledStruct at hnew
    split at hnew
    · have h2 := map_entry (g := id) ((mapRes_ok_iff.mp hnew).imp (fun _ _ hc => fillCol_entry hc))
      rw [h1, h2, List.map_id]
      unfold extraFields at hx
      obtain ⟨ds, _, hx⟩ := Res.bind_eq_ok.mp hx
      injection hx with hx
      subst hx
      refine ⟨ds.filter (fun e => !(((outputDtype nmax []).map (·.name)).contains e.name) && !(((psfDtype nmax).map (·.name)).contains e.name)), ?_, ?_⟩
      · intro e he
        have := (List.mem_filter.mp he).2
        simp only [Bool.and_eq_true, Bool.not_eq_true', List.contains_eq_mem, decide_eq_false_iff_not] at this
        intro hm
        rw [← own_names nmax] at hm
        rcases List.mem_append.mp hm with hm | hm
        · exact this.1 hm
        · exact this.2 hm
      · generalize ds.filter _ = us
        unfold outputDtype
        rw [← List.append_assoc]
        rfl
    · cases hnew

/-- **C114** What does not lose anything: whole numbers of the range of `i8` in `id` and `box_size`, whole numbers of at most 53 bits in `ra` and `dec`. -/
theorem C114_unchanged {t : IntType} {k : Int} {v : V} : (Stored (.int t) i8 (.num k) v → Holds ⟨64, true⟩ k → v = .num k) ∧
    (Stored (.int t) .f8 (.num k) v → |k| ≤ 2 ^ 53 → v = .num k) := by
  constructor
  · intro h hk
    generalize hs : Kind.int t = src at h
    generalize hd : i8 = dst at h
    generalize hv : V.num k = w at h
    cases h with
    | wrapped h1 h2 =>
      rename_i t' k1 k' m
      injection hv with hv
      have hv : k = k1 := by exact_mod_cast hv
      subst hv
      unfold Holds at h1 hk
      simp only [if_true] at h1 hk
      obtain ⟨_, a1, a2⟩ := h1
      obtain ⟨_, b1, b2⟩ := hk
      norm_num at a1 a2 b1 b2
      congr 2
      omega
    | truncated h => rcases h with rfl | rfl <;> cases hs
    | same h => rcases h with rfl | rfl <;> cases hs
    | nearest => cases hd
  · intro h hk
    generalize hs : Kind.int t = src at h
    generalize hd : Kind.f8 = dst at h
    generalize hv : V.num k = w at h
    cases h with
    | wrapped h1 h2 => cases hd
    | truncated h => rcases h with rfl | rfl <;> cases hs
    | same h => rcases h with rfl | rfl <;> cases hs
    | nearest h1 h2 =>
      injection hv with hv
      have := h2 k (isDouble_int hk)
      rw [hv] at *
      rw [sub_self, abs_zero] at this
      have := abs_nonpos_iff.mp this
      rw [sub_eq_zero.mp this]

/-- **C114** (`get_meds_input_struct`) The same for the empty input array with extra fields: with numpy 2 it is made exactly if no extra field has an integer type
without -9999, and otherwise an OverflowError. -/
theorem C114_input_struct {n : Nat} {extra : List Entry} (hn : ((["id", "box_size", "ra", "dec"] ++ extra.map (·.name))).Nodup) (hne : ∀ e ∈ extra, e.name ≠ "")
    (hc : ∀ e ∈ extra, e.name ≠ "ncutout") (hv : ∀ e ∈ extra, ∀ m, e.kind ≠ .void m) (hb : ∀ e ∈ extra, ∀ t, e.kind = .int t → 0 < t.bits) :
    ((∃ cols, inputStruct true n extra = .ok cols) ↔ ∀ e ∈ extra, ∀ t, e.kind = .int t → Holds t (-9999)) ∧
    ((∃ e ∈ extra, ∃ t, e.kind = .int t ∧ ¬ Holds t (-9999)) → inputStruct true n extra = .error .overflowError) := by
  set es : List Entry := [⟨"id", i8, none⟩, ⟨"box_size", i8, none⟩, ⟨"ra", .f8, none⟩, ⟨"dec", .f8, none⟩] ++ extra with hes
  have hnd : (fieldNames es).Nodup := by
    rw [fieldNames_named]
    · simpa [hes] using hn
    · intro e he
      rcases List.mem_append.mp he with he | he
      · simp only [List.mem_cons, List.not_mem_nil, or_false] at he
        rcases he with rfl | rfl | rfl | rfl <;> simp
      · exact hne e he
  have hst : inputStruct true n extra = mapRes (fillCol true n) es := by unfold inputStruct filledStruct; rw [if_pos hnd]
  have hfix : ∀ e ∈ [(⟨"id", i8, none⟩ : Entry), ⟨"box_size", i8, none⟩, ⟨"ra", .f8, none⟩, ⟨"dec", .f8, none⟩], ∃ c, fillCol true n e = .ok c := by
    intro e he
    simp only [List.mem_cons, List.not_mem_nil, or_false] at he
    rcases he with rfl | rfl | rfl | rfl <;> exact ⟨_, rfl⟩
  have hbad : ∀ e ∈ extra, ∀ t, e.kind = .int t → ¬ Holds t (-9999) → fillCol true n e = .error .overflowError := by
    intro e he t ht hh
    unfold fillCol
    rw [if_neg (hc e he), if_neg (hne e he), ht]
    unfold assignDefault
    dsimp only
    rw [if_neg (by rw [wrap_eq_iff (hb e he t ht)]; exact hh), if_pos rfl]
    rfl
  have hall : ∀ e ∈ es, ∀ x, fillCol true n e = .error x → x = .overflowError ∧ ∃ t, e.kind = .int t ∧ ¬ Holds t (-9999) ∧ e ∈ extra := by
    intro e he x hx
    rcases List.mem_append.mp he with he | he
    · obtain ⟨c, h⟩ := hfix e he
      rw [h] at hx; cases hx
    · rcases fillCol_error hx with ⟨h0, _⟩ | ⟨_, _, h3⟩
      · exact absurd h0 (hne e he)
      · refine ⟨(assign_error (hv e he) h3).2, ?_⟩
        cases hk : e.kind with
        | int t =>
          refine ⟨t, rfl, fun hh => ?_, he⟩
          rw [hk] at h3
          unfold assignDefault at h3
          dsimp only at h3
          rw [if_pos (IntType.wrap_of_holds hh)] at h3
          cases h3
        | void m => exact absurd hk (hv e he m)
        | _ => rw [hk] at h3; cases h3
  rw [hst]
  refine ⟨⟨?_, ?_⟩, ?_⟩
  · rintro ⟨cols, h⟩ e he t ht
    by_contra hh
    obtain ⟨c, _, hc'⟩ := Columns.mem_of_forall₂ (mapRes_ok_iff.mp h) (List.mem_append_right _ he)
    rw [hbad e he t ht hh] at hc'
    cases hc'
  · intro h
    cases hm : mapRes (fillCol true n) es with
    | ok cols => exact ⟨cols, rfl⟩
    | error x =>
      obtain ⟨y, hy, hx⟩ := Columns.mapRes_error_from hm
      obtain ⟨_, t, h1, h2, h3⟩ := hall y hy x hx
      exact absurd (h y h3 t h1) h2
  · rintro ⟨e, he, t, ht, hh⟩
    cases hm : mapRes (fillCol true n) es with
    | ok cols =>
      obtain ⟨c, _, hc'⟩ := Columns.mem_of_forall₂ (mapRes_ok_iff.mp hm) (List.mem_append_right _ he)
      rw [hbad e he t ht hh] at hc'
      cases hc'
    | error x =>
      obtain ⟨y, hy, hx⟩ := Columns.mapRes_error_from hm
      rw [(hall y hy x hx).1]

/-! ### Concrete arrays -/

/-- Two objects with integer coordinates, an integer column `flags` of the given type and a magnitude. -/
def twoObjects (t : IntType) : TArr :=
  { dtype := { fields := [(⟨"id", .int ⟨32, true⟩, none⟩, 0), (⟨"box_size", .f8, none⟩, 4), (⟨"flags", .int t, none⟩, 12), (⟨"ra", .f4, none⟩, 12 + t.bits / 8),
                         (⟨"dec", .int ⟨64, true⟩, none⟩, 16 + t.bits / 8), (⟨"mag", .f4, some 2⟩, 24 + t.bits / 8)],
               itemsize := 32 + t.bits / 8 },
    n := 2,
    vals := [[[.num 7], [.num 8]], [[.num (65/2)], [.num 48]], [[.num 1], [.num 0]], [[.num (21/2)], [.num (23/2)]], [[.num (-5)], [.num (2 ^ 53 + 1)]],
             [[.num 20, .num 21], [.num 22, .num 23]]] }

/-- The four required columns only, of the same array. -/
def fourColumns : TArr :=
  { dtype := select ["id", "box_size", "ra", "dec"] (twoObjects ⟨32, true⟩).dtype, n := 2,
    vals := [[[.num 7], [.num 8]], [[.num (65/2)], [.num 48]], [[.num (21/2)], [.num (23/2)]], [[.num (-5)], [.num (2 ^ 53 + 1)]]] }

def refusedWith (e : Err) (r : Res (List TCol)) : Bool :=
  match r with
  | .error x => x == e
  | .ok _ => false

def columnIs (r : Res (List TCol)) (c : TCol) : Bool :=
  match r with
  | .error _ => false
  | .ok cols => cols.contains c

instance : Decidable (Packed d) := by
  have : Packed d ↔ (∀ k ∈ List.range d.fields.length, ∀ f ∈ d.fields[k]?, f.2 = ((d.fields.take k).map (·.1.size)).sum) ∧ d.itemsize = (d.fields.map (·.1.size)).sum := by
    unfold Packed
    refine and_congr ⟨fun h k _ f hf => h k f hf, fun h k f hf => h k (List.mem_range.mpr ?_) f hf⟩ Iff.rfl
    exact (List.getElem?_eq_some_iff.mp hf).1
  exact decidable_of_iff _ this.symm

/-- **C114** (the claim for numpy 2 is false) A catalogue with a column of flags of type `u4` is taken by numpy 1, which has the flags unchanged, and is an
OverflowError with numpy 2. -/
theorem C114_counterexample :
    Packed (twoObjects ⟨32, false⟩).dtype ∧
    columnIs (setObjData false true 3 (twoObjects ⟨32, false⟩)) ⟨⟨"flags", .int ⟨32, false⟩, none⟩, [[.num 1], [.num 0]]⟩ = true ∧
    refusedWith .overflowError (setObjData true true 3 (twoObjects ⟨32, false⟩)) = true := by
  decide +kernel

/-- **C115** (the claim is false) An array that is taken; the selection `cat[['id', 'box_size', 'ra', 'dec']]` of its required columns is a ValueError. -/
theorem C115_counterexample :
    columnIs (setObjData true true 3 (twoObjects ⟨32, true⟩)) ⟨⟨"flags", .int ⟨32, true⟩, none⟩, [[.num 1], [.num 0]]⟩ = true ∧
    fourColumns.dtype.fields.map (·.1.name) = ["id", "box_size", "ra", "dec"] ∧
    refusedWith .valueError (setObjData true true 3 fourColumns) = true ∧ refusedWith .valueError (setObjData false true 3 fourColumns) = true := by
  decide +kernel

/-- The case of C114_taken_partial: `box_size` 32.5 becomes 32, and `2^53 + 1` the double `2^53`. -/
example : columnIs (setObjData true false 2 (twoObjects ⟨16, true⟩)) ⟨⟨"box_size", i8, none⟩, [[.num 32], [.num 48]]⟩ = true ∧
    columnIs (setObjData true false 2 (twoObjects ⟨16, true⟩)) ⟨⟨"dec", .f8, none⟩, [[.num (-5)], [.num (2 ^ 53)]]⟩ = true ∧
    columnIs (setObjData true false 2 (twoObjects ⟨16, true⟩)) ⟨⟨"mag", .f4, some 2⟩, [[.num 20, .num 21], [.num 22, .num 23]]⟩ = true ∧
    columnIs (setObjData true false 2 (twoObjects ⟨16, true⟩)) ⟨⟨"orig_row", .f8, some 2⟩, [[.num (-9999), .num (-9999)], [.num (-9999), .num (-9999)]]⟩ = true := by
  decide +kernel

theorem twoObjects_ok (t : IntType) : ArrayOK (twoObjects t) := by
  refine ⟨⟨by simp [twoObjects], by simp [twoObjects], ?_⟩, rfl, ?_, ?_⟩
  · simp [twoObjects, Entry.size, Kind.size]; omega
  · simp [TArr.cols, twoObjects]
  · simp [TArr.cols, twoObjects]

theorem twoObjects_packed (t : IntType) : Packed (twoObjects t).dtype := by
  rw [packed_iff]
  simp [twoObjects, Consecutive, Entry.size, Kind.size]
  omega

/-- The hypotheses of C114_refused and C114_taken_partial are met by the array. -/
example : setObjData true true 3 (twoObjects ⟨32, false⟩) = .error .overflowError :=
  C114_refused (twoObjects_ok _).dtype (twoObjects_packed _) (by simp [twoObjects]) (by decide) (f := (⟨"flags", .int ⟨32, false⟩, none⟩, 12)) (by simp [twoObjects])
    (by decide) rfl (by norm_num) (by simp [Holds])

example : ∃ cols, setObjData true true 3 (twoObjects ⟨32, true⟩) = .ok cols := by
  refine Exists.imp (fun _ h => h.1) (C114_taken_partial (strict := true) (psf := true) (nmax := 3) (twoObjects_ok ⟨32, true⟩) (twoObjects_packed _) (by simp [twoObjects])
    (by decide) (by decide) ?_ ?_)
  · intro c hc hn
    simp only [TArr.cols, twoObjects, List.zipWith_cons_cons, List.zipWith_nil_right, List.mem_cons, List.not_mem_nil, or_false] at hc
    rcases hc with rfl | rfl | rfl | rfl | rfl | rfl
    · refine ⟨rfl, .inl ⟨_, rfl, by simp⟩, ?_⟩
      intro r hr v hv
      simp only [List.mem_cons, List.not_mem_nil, or_false] at hr
      rcases hr with rfl | rfl <;> (simp only [List.mem_singleton] at hv; subst hv)
      · exact ⟨7, rfl, fun _ _ => ⟨7, by norm_num⟩, by simp⟩
      · exact ⟨8, rfl, fun _ _ => ⟨8, by norm_num⟩, by simp⟩
    · refine ⟨rfl, .inr (.inl rfl), ?_⟩
      intro r hr v hv
      simp only [List.mem_cons, List.not_mem_nil, or_false] at hr
      rcases hr with rfl | rfl <;> (simp only [List.mem_singleton] at hv; subst hv)
      · exact ⟨65/2, rfl, (fun _ h => by cases h), fun _ _ => by norm_num⟩
      · exact ⟨48, rfl, (fun _ h => by cases h), fun _ _ => by norm_num⟩
    · exact absurd hn (by decide)
    · refine ⟨rfl, .inr (.inr rfl), ?_⟩
      intro r hr v hv
      simp only [List.mem_cons, List.not_mem_nil, or_false] at hr
      rcases hr with rfl | rfl <;> (simp only [List.mem_singleton] at hv; subst hv)
      · exact ⟨21/2, rfl, (fun _ h => by cases h), by simp⟩
      · exact ⟨23/2, rfl, (fun _ h => by cases h), by simp⟩
    · refine ⟨rfl, .inl ⟨_, rfl, ?_⟩, ?_⟩
      · intro _ r hr v hv k hk
        simp only [List.mem_cons, List.not_mem_nil, or_false] at hr
        rcases hr with rfl | rfl <;> (simp only [List.mem_singleton] at hv; subst hv; injection hk with hk)
        · have : k = -5 := by exact_mod_cast hk.symm
          subst this; simp [Holds]
        · have : k = 2 ^ 53 + 1 := by exact_mod_cast hk.symm
          subst this; simp [Holds]
      · intro r hr v hv
        simp only [List.mem_cons, List.not_mem_nil, or_false] at hr
        rcases hr with rfl | rfl <;> (simp only [List.mem_singleton] at hv; subst hv)
        · exact ⟨-5, rfl, fun _ _ => ⟨-5, by norm_num⟩, by simp⟩
        · exact ⟨2 ^ 53 + 1, rfl, fun _ _ => ⟨2 ^ 53 + 1, by norm_num⟩, by simp⟩
    · exact absurd hn (by decide)
  · intro _ f hf hn t ht
    simp only [twoObjects, List.mem_cons, List.not_mem_nil, or_false] at hf
    rcases hf with rfl | rfl | rfl | rfl | rfl | rfl
    · exact absurd (by decide) hn
    · cases ht
    · injection ht with ht; subst ht; simp [Holds]
    · cases ht
    · exact absurd (by decide) hn
    · cases ht

/-- C115_selection for this array: leaving out `flags` is not packed, all columns in their order are. -/
example : ¬ Packed fourColumns.dtype ∧ Packed (select ["id", "box_size", "flags", "ra", "dec", "mag"] (twoObjects ⟨32, true⟩).dtype) := by
  decide +kernel

/-- C114_input_struct with a column of flags. -/
example : inputStruct true 5 [⟨"flags", .int ⟨8, true⟩, none⟩] = .error .overflowError ∧ (∃ cols, inputStruct true 5 [⟨"flags", .int ⟨16, true⟩, none⟩] = .ok cols) := by
  constructor
  · refine (C114_input_struct (by decide) (by simp) (by simp) (by simp) (by simp)).2 ⟨_, List.mem_cons_self, ⟨8, true⟩, rfl, by simp [Holds]⟩
  · refine (C114_input_struct (by decide) (by simp) (by simp) (by simp) (by simp)).1.mpr ?_
    simp [Holds]

/-- What becomes of -9999 in other types: cut to the width of a string, true as a truth value, wrapped in an unsigned type before numpy 2. -/
example : assignDefault true (.bytes 3) = .ok (.text "-99") ∧ assignDefault true (.bytes 8) = .ok (.text "-9999") ∧ assignDefault true .bool = .ok (.num 1) ∧ zeroOf .f4 = .num 0 ∧
    zeroOf (.bytes 3) = .text "" := by decide +kernel

-- the sizes of the types in bytes
example : [Kind.bool, .f4, .f8, .bytes 5, .void 3, i4, i8].map Kind.size = [1, 4, 8, 5, 3, 4, 8] := by decide +kernel

end Dtype
end Meds
