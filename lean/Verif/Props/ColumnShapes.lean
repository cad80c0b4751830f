import Verif.Props.Columns

/-!
# Columns of the input that have the name of a column the maker fills in (C113)
-/

namespace Meds
namespace Spec

/-- The shape of a column of `n` rows that is scalar (`none`) or has `w` entries per row. -/
def shapeOf (n : Nat) (w : Option Nat) : List Nat := n :: w.toList

/-- NumPy's rule for `dst[...] = src`: the axes are compared from the last one; each axis of the source has the length of the axis of the target or length one;
where the target has no axis, length one. -/
def Broadcasts (src dst : List Nat) : Prop :=
  ∀ k s : Nat, src.reverse[k]? = some s → s = 1 ∨ dst.reverse[k]? = some s

/-- The shape the maker wants for a column of this name: `none` if the name is free, otherwise scalar or one entry per epoch. -/
def wanted (psf : Bool) (nmax : Nat) (name : String) : Option (Option Nat) :=
  if name ∈ ["id", "box_size", "ra", "dec", "ncutout"] then some none
  else if name ∈ ["file_id", "start_row", "orig_row", "orig_col", "orig_start_row", "orig_start_col", "cutout_row", "cutout_col",
    "dudrow", "dudcol", "dvdrow", "dvdcol"] then some (some nmax)
  else if psf ∧ name ∈ ["psf_row_size", "psf_col_size", "psf_cutout_row", "psf_cutout_col", "psf_start_row"] then some (some nmax)
  else none

/-- Where the entry `k` of row `i` of the target comes from: row and entry of the source. -/
def sourceOf (n : Nat) (dst src : Option Nat) (i k : Nat) : Nat × Nat :=
  match src with
  | some v => (i, if v = 1 then 0 else k)
  | none => if dst = none then (i, k) else (if n = 1 then 0 else k, 0)

end Spec

namespace Columns
open Spec

variable {α : Type}

/-- Entry `k` of row `i` of a column. -/
def _root_.Meds.Spec.entry (c : Col α) (i k : Nat) : Option α := c.vals[i]?.bind (·[k]?)

theorem broadcasts_iff (n : Nat) (dst src : Option Nat) : Broadcasts (shapeOf n src) (shapeOf n dst) ↔
    match dst, src with
    | none, none => True
    | some w, some v => v = w ∨ v = 1
    | some w, none => n = w ∨ n = 1
    | none, some v => n = 1 ∧ (v = n ∨ v = 1) := by
  unfold Broadcasts shapeOf
  cases dst with
  | none =>
    cases src with
    | none => simp; intro k s h; right; exact h
    | some v =>
      simp
      constructor
      · intro h
        have h0 := h 0 v rfl
        have h1 := h 1 n rfl
        simp at h0 h1
        exact ⟨h1, by tauto⟩
      · rintro ⟨h1, h2⟩ k s h
        match k, h with
        | 0, h => simp at h ⊢; subst h; tauto
        | 1, h => simp at h; subst h; exact .inl h1
        | (k + 2), h => simp at h
  | some w =>
    cases src with
    | none =>
      simp
      constructor
      · intro h
        have h0 := h 0 n rfl
        simp at h0
        rcases h0 with h | h
        · exact .inr h
        · exact .inl h.symm
      · intro h1 k s h
        match k, h with
        | 0, h => simp at h ⊢; subst h; rcases h1 with h1 | h1 <;> simp [h1]
        | (k + 1), h => simp at h
    | some v =>
      simp
      constructor
      · intro h
        have h0 := h 0 v rfl
        simp at h0
        rcases h0 with h | h
        · exact .inr h
        · exact .inl h.symm
      · intro h1 k s h
        match k, h with
        | 0, h => simp at h ⊢; subst h; rcases h1 with h1 | h1 <;> simp [h1]
        | 1, h => simp at h ⊢; exact .inr h
        | (k + 2), h => simp at h

/-- `broadcast` is NumPy's rule. -/
theorem broadcast_ok_iff {n : Nat} {dst src : Option Nat} {vals : List (List α)} :
    (∃ v, broadcast n dst src vals = .ok v) ↔ Broadcasts (shapeOf n src) (shapeOf n dst) := by
  rw [broadcasts_iff]
  unfold broadcast
  cases dst <;> cases src <;> dsimp only
  · simp
  · rename_i v
    constructor
    · rintro ⟨x, h⟩
      split at h
      · rename_i hh; exact ⟨hh.1, .inr hh.2⟩
      · cases h
    · rintro ⟨h1, h2⟩
      rw [if_pos ⟨h1, by omega⟩]
      exact ⟨_, rfl⟩
  · rename_i w
    constructor
    · rintro ⟨x, h⟩
      split at h
      · rename_i hh; exact .inl hh
      · split at h
        · rename_i hh; exact .inr hh
        · cases h
    · intro h
      split
      · exact ⟨_, rfl⟩
      · rw [if_pos (by tauto)]; exact ⟨_, rfl⟩
  · rename_i w v
    constructor
    · rintro ⟨x, h⟩
      split at h
      · rename_i hh; exact .inl hh
      · split at h
        · rename_i hh; exact .inr hh
        · cases h
    · intro h
      split
      · exact ⟨_, rfl⟩
      · rw [if_pos (by tauto)]; exact ⟨_, rfl⟩

theorem broadcast_error {n : Nat} {dst src : Option Nat} {vals : List (List α)} {e : Err} (he : broadcast n dst src vals = .error e) : e = .valueError := by
  unfold broadcast at he
  cases dst <;> cases src <;> dsimp only at he
  · cases he
  · split at he <;> cases he; rfl
  · split at he
    · cases he
    · split at he <;> cases he; rfl
  · split at he
    · cases he
    · split at he <;> cases he; rfl

theorem getElem?_repeat {w k : Nat} {r : List α} (hr : r.length = 1) (hk : k < w) : (List.replicate w r).flatten[k]? = r[0]? := by
  obtain ⟨a, rfl⟩ := List.length_eq_one_iff.mp hr
  have : ∀ m, (List.replicate m [a]).flatten = List.replicate m a := by
    intro m
    induction m with
    | zero => rfl
    | succ m ih => rw [List.replicate_succ, List.flatten_cons, ih]; rfl
  rw [this, List.getElem?_replicate, if_pos hk]
  rfl

theorem getElem?_flatten_ones {vals : List (List α)} (h : ∀ r ∈ vals, r.length = 1) (k : Nat) : vals.flatten[k]? = vals[k]?.bind (·[0]?) := by
  induction vals generalizing k with
  | nil => simp
  | cons r rs ih =>
    obtain ⟨a, rfl⟩ := List.length_eq_one_iff.mp (h r List.mem_cons_self)
    cases k with
    | zero => simp
    | succ k =>
      have := ih (fun r hr => h r (List.mem_cons_of_mem _ hr)) k
      simpa using this

theorem broadcast_values {n : Nat} {dst src : Option Nat} {vals v : List (List α)} (hn : vals.length = n) (hw : ∀ r ∈ vals, r.length = src.getD 1)
    (h : broadcast n dst src vals = .ok v) : v.length = n ∧ (∀ r ∈ v, r.length = dst.getD 1) ∧ ∀ i k, i < n → k < dst.getD 1 →
      v[i]?.bind (·[k]?) = vals[(sourceOf n dst src i k).1]?.bind (·[(sourceOf n dst src i k).2]?) := by
  unfold broadcast at h
  cases dst with
  | none =>
    cases src with
    | none =>
      injection h with h
      subst h
      exact ⟨hn, hw, fun i k _ _ => rfl⟩
    | some m =>
      dsimp only at h
      split at h
      · rename_i hh
        injection h with h
        subst h
        refine ⟨hn, by intro r hr; rw [hw r hr]; exact hh.2, fun i k _ hk => ?_⟩
        have : k = 0 := by simpa using hk
        simp [sourceOf, hh.2, this]
      · cases h
  | some w =>
    cases src with
    | none =>
      have hw' : ∀ r ∈ vals, r.length = 1 := hw
      dsimp only at h
      split at h
      · rename_i hnw
        injection h with h
        subst h
        refine ⟨List.length_replicate, ?_, ?_⟩
        · intro r hr
          rw [(List.mem_replicate.mp hr).2, List.length_flatten, List.map_congr_left hw']
          simp [hn, hnw]
        · intro i k hi hk
          rw [List.getElem?_replicate, if_pos hi, Option.bind_some, getElem?_flatten_ones hw']
          have hk' : k < n := by rw [hnw]; exact hk
          have : (if n = 1 then 0 else k) = k := by split <;> omega
          simp [sourceOf, this]
      · split at h
        · rename_i h1
          injection h with h
          subst h
          refine ⟨by simp [hn], ?_, ?_⟩
          · intro r hr
            obtain ⟨s, hs, rfl⟩ := List.mem_map.mp hr
            simp [hw' s hs]
          · intro i k hi hk
            have hi0 : i = 0 := by omega
            subst hi0
            cases hv : vals[0]? with
            | none => simp [sourceOf, h1, hv]
            | some r =>
              simp only [sourceOf, h1, List.getElem?_map, hv, Option.map_some, Option.bind_some, if_true, reduceCtorEq, if_false]
              exact getElem?_repeat (hw' r (List.mem_of_getElem? hv)) hk
        · cases h
    | some m =>
      dsimp only at h
      split at h
      · rename_i hm
        injection h with h
        subst h
        refine ⟨hn, by intro r hr; rw [hw r hr]; exact hm, fun i k _ hk => ?_⟩
        have : (if m = 1 then 0 else k) = k := by
          split
          · rename_i h1
            have : k < w := hk
            omega
          · rfl
        simp [sourceOf, this]
      · split at h
        · rename_i h1
          injection h with h
          subst h
          refine ⟨by simp [hn], ?_, ?_⟩
          · intro r hr
            obtain ⟨s, hs, rfl⟩ := List.mem_map.mp hr
            have := hw s hs
            simp at this
            simp [this, h1]
          · intro i k hi hk
            cases hv : vals[i]? with
            | none => simp [sourceOf, h1, hv]
            | some r =>
              simp only [sourceOf, h1, List.getElem?_map, hv, Option.map_some, Option.bind_some, if_true]
              exact getElem?_repeat ((hw r (List.mem_of_getElem? hv)).trans (by simp [h1])) hk
        · cases h

theorem wanted_none {psf : Bool} {nmax : Nat} {s : String} (h1 : s ∉ scalarNames) (h2 : s ∉ epochNames)
    (h3 : s ∉ ["psf_row_size", "psf_col_size", "psf_cutout_row", "psf_cutout_col", "psf_start_row"]) : wanted psf nmax s = none :=
  (if_neg h1).trans ((if_neg h2).trans (if_neg (fun h => h3 h.2)))

theorem mem_of_forall₂ {β γ : Type} {R : β → γ → Prop} {l : List β} {m : List γ} (h : List.Forall₂ R l m) {x : β} (hx : x ∈ l) : ∃ y ∈ m, R x y := by
  induction h with
  | nil => cases hx
  | cons h1 _ ih =>
    rcases List.mem_cons.mp hx with rfl | hx
    · exact ⟨_, List.mem_cons_self, h1⟩
    · obtain ⟨y, hy, hr⟩ := ih hx
      exact ⟨y, List.mem_cons_of_mem _ hy, hr⟩

theorem mapRes_error_from {β γ : Type} {f : β → Res γ} {l : List β} {e : Err} (h : mapRes f l = .error e) : ∃ x ∈ l, f x = .error e := by
  induction l with
  | nil => cases h
  | cons x l ih =>
    unfold mapRes at h
    cases hx : f x with
    | error e' =>
      rw [hx] at h
      injection h with h
      exact ⟨x, List.mem_cons_self, h ▸ hx⟩
    | ok y =>
      rw [hx] at h
      dsimp only at h
      cases hm : mapRes f l with
      | ok ys => rw [hm] at h; cases h
      | error e' =>
        rw [hm] at h
        injection h with h
        subst h
        obtain ⟨z, hz, hz'⟩ := ih hm
        exact ⟨z, List.mem_cons_of_mem _ hz, hz'⟩

theorem wanted_of_field {psf : Bool} {obj : Arr α} {nmax : Nat} {f : Field} (hf : f ∈ outputDtype nmax (extraFields psf obj nmax)) :
    wanted psf nmax f.name = some f.width ∨ (wanted psf nmax f.name = none ∧ f ∈ userFields obj) := by
  unfold outputDtype at hf
  rw [extraFields_eq] at hf
  have hs : ∀ s ∈ scalarNames, wanted psf nmax s = some none := fun s hs => if_pos hs
  have he : ∀ s ∈ epochNames, wanted psf nmax s = some (some nmax) := by
    intro s hs
    have : ∀ s ∈ epochNames, s ∉ scalarNames := by decide
    exact (if_neg (this s hs)).trans (if_pos hs)
  rcases List.mem_append.mp hf with hf | hf
  · rcases List.mem_append.mp hf with hf | hf
    · obtain ⟨s, h, rfl⟩ := List.mem_map.mp hf
      exact .inl (hs s h)
    · obtain ⟨s, h, rfl⟩ := List.mem_map.mp hf
      exact .inl (he s h)
  · rcases List.mem_append.mp hf with hf | hf
    · refine .inr ⟨?_, hf⟩
      have := (List.mem_filter.mp hf).2
      simp only [Bool.and_eq_true, Bool.not_eq_true', List.contains_eq_mem, decide_eq_false_iff_not, List.mem_append, not_or] at this
      exact wanted_none this.1.1 this.1.2 this.2
    · cases psf
      · cases hf
      · obtain ⟨s, h, rfl⟩ := List.mem_map.mp hf
        have h1 : ∀ s ∈ ["psf_row_size", "psf_col_size", "psf_cutout_row", "psf_cutout_col", "psf_start_row"], s ∉ scalarNames ∧ s ∉ epochNames := by decide
        left
        exact (if_neg (h1 s h).1).trans ((if_neg (h1 s h).2).trans (if_pos ⟨rfl, h⟩))

theorem field_of_wanted {psf : Bool} (obj : Arr α) {nmax : Nat} {name : String} {w : Option Nat} (h : wanted psf nmax name = some w) :
    (⟨name, w⟩ : Field) ∈ outputDtype nmax (extraFields psf obj nmax) := by
  unfold wanted at h
  unfold outputDtype
  rw [extraFields_eq]
  split at h
  · rename_i hn
    injection h with h
    subst h
    exact List.mem_append_left _ (List.mem_append_left _ (List.mem_map.mpr ⟨name, hn, rfl⟩))
  · split at h
    · rename_i hn
      injection h with h
      subst h
      exact List.mem_append_left _ (List.mem_append_right _ (List.mem_map.mpr ⟨name, hn, rfl⟩))
    · split at h
      · rename_i hn
        injection h with h
        subst h
        rw [if_pos hn.1]
        exact List.mem_append_right _ (List.mem_append_right _ (List.mem_map.mpr ⟨name, hn.2, rfl⟩))
      · cases h

/-- The column the maker starts from. -/
def blank (zero defval : α) (n : Nat) (f : Field) : Col α :=
  { field := f, vals := List.replicate n (List.replicate (f.width.getD 1) (if f.name = "ncutout" then zero else defval)) }

theorem setObjData_eq {zero defval : α} {psf : Bool} {nmax : Nat} {obj : Arr α} (hw : obj.WF) :
    setObjData zero defval psf nmax obj = (do
      checkRequired obj
      let cs ← mapRes (copyInto obj) ((outputDtype nmax (extraFields psf obj nmax)).map (blank zero defval obj.n))
      .ok { n := obj.n, cols := cs }) := by
  unfold setObjData fullObjData outputStruct
  rw [filled_nodup (dtype_nodup psf nmax hw.nodup)]
  simp only [Res.ok_bind]
  unfold copyFields
  rw [if_neg (by simp)]
  rfl

theorem checkRequired_ok {obj : Arr α} : checkRequired obj = .ok () ↔ ∀ s ∈ ["id", "box_size", "ra", "dec"], s ∈ obj.names := by
  unfold checkRequired
  constructor
  · intro h s hs
    split at h
    · cases h
    · rename_i hf
      rw [Nat.not_lt, Nat.le_zero, List.length_eq_zero_iff, List.filter_eq_nil_iff] at hf
      have := hf s hs
      simpa using this
  · intro h
    rw [if_neg]
    rw [Nat.not_lt, Nat.le_zero, List.length_eq_zero_iff, List.filter_eq_nil_iff]
    intro s hs
    simp [h s hs]

theorem copyInto_ok_iff {obj : Arr α} {c : Col α} :
    (∃ y, copyInto obj c = .ok y) ↔ ∀ s, obj.col? c.field.name = some s → Broadcasts (shapeOf obj.n s.field.width) (shapeOf obj.n c.field.width) := by
  unfold copyInto
  cases h : obj.col? c.field.name with
  | none => simp
  | some s =>
    dsimp only
    constructor
    · rintro ⟨y, hy⟩ s' hs'
      injection hs' with hs'
      subst hs'
      obtain ⟨v, hv, _⟩ := Res.bind_eq_ok.mp hy
      exact broadcast_ok_iff.mp ⟨v, hv⟩
    · intro hall
      obtain ⟨v, hv⟩ := (broadcast_ok_iff (vals := s.vals)).mpr (hall s rfl)
      rw [hv]
      exact ⟨_, rfl⟩

theorem copyInto_error {obj : Arr α} {c : Col α} {e : Err} (h : copyInto obj c = .error e) : e = .valueError := by
  unfold copyInto at h
  split at h
  · cases h
  · rename_i s _
    cases hb : broadcast obj.n c.field.width s.field.width s.vals with
    | ok v => rw [hb] at h; cases h
    | error e' =>
      rw [hb] at h
      injection h with h
      exact h ▸ broadcast_error hb

/-- **C113** The catalogue is accepted exactly if it has the required columns and every column with the name of one of the maker's fits, by NumPy's rule, into the shape
the maker wants: one value per object for `id`, `box_size`, `ra`, `dec` and `ncutout`, one per object and epoch for the others. -/
theorem C113_accepted {zero defval : α} {psf : Bool} {nmax : Nat} {obj : Arr α} (hw : obj.WF) :
    (∃ full, setObjData zero defval psf nmax obj = .ok full) ↔ (∀ s ∈ ["id", "box_size", "ra", "dec"], s ∈ obj.names) ∧
      ∀ c ∈ obj.cols, ∀ w, wanted psf nmax c.field.name = some w → Broadcasts (shapeOf obj.n c.field.width) (shapeOf obj.n w) := by
  rw [setObjData_eq hw, ← checkRequired_ok]
  constructor
  · rintro ⟨full, h⟩
    obtain ⟨_, h1, h⟩ := Res.bind_eq_ok.mp h
    obtain ⟨cs, h2, _⟩ := Res.bind_eq_ok.mp h
    refine ⟨h1, fun c hc w hw' => ?_⟩
    have hf := List.mem_map_of_mem (f := blank zero defval obj.n) (field_of_wanted obj hw')
    rw [mapRes_ok_iff] at h2
    obtain ⟨y, _, hy⟩ := mem_of_forall₂ h2 hf
    exact copyInto_ok_iff.mp ⟨y, hy⟩ c (Arr.col?_of_mem hw.nodup hc)
  · rintro ⟨h1, h2⟩
    rw [h1]
    have : ∀ c ∈ (outputDtype nmax (extraFields psf obj nmax)).map (blank zero defval obj.n), ∃ y, copyInto obj c = .ok y := by
      intro c hc
      obtain ⟨f, hf, rfl⟩ := List.mem_map.mp hc
      rw [copyInto_ok_iff]
      intro s hs
      obtain ⟨hs1, hs2⟩ := Arr.mem_of_col? hs
      rcases wanted_of_field hf with hwf | ⟨_, hu⟩
      · exact h2 s hs1 _ (by rw [hs2]; exact hwf)
      · obtain ⟨⟨d, hd, rfl⟩, _⟩ := userFields_mem.mp hu
        have e1 := Arr.col?_of_mem hw.nodup hd
        have : s = d := by
          have e2 : obj.col? d.field.name = some s := hs
          rw [e1] at e2
          injection e2 with e2
          exact e2.symm
        subst this
        exact fun k t ht => .inr ht
    obtain ⟨cs, hcs⟩ := mapRes_of_forall this
    rw [Res.ok_bind, hcs]
    exact ⟨_, rfl⟩

/-- **C113** A catalogue that is not accepted is a ValueError in the constructor. -/
theorem C113_refused {zero defval : α} {psf : Bool} {nmax : Nat} {obj : Arr α} (hw : obj.WF) {e : Err} (h : setObjData zero defval psf nmax obj = .error e) :
    e = .valueError := by
  rw [setObjData_eq hw] at h
  cases hc : checkRequired obj with
  | error e' =>
    rw [hc] at h
    injection h with h
    subst h
    unfold checkRequired at hc
    split at hc
    · injection hc with hc; exact hc.symm
    · cases hc
  | ok u =>
    rw [hc, Res.ok_bind] at h
    cases hm : mapRes (copyInto obj) ((outputDtype nmax (extraFields psf obj nmax)).map (blank zero defval obj.n)) with
    | ok cs => rw [hm] at h; cases h
    | error e' =>
      rw [hm] at h
      injection h with h
      subst h
      obtain ⟨c, _, hc⟩ := mapRes_error_from hm
      exact copyInto_error hc

/-- **C113** In the accepted catalogue, the columns of the maker come first, then the columns of the user under other names, unchanged; a column with the name of one
of the maker's has the shape the maker wants, and its entries are those of the given column along the axes that agree, repeated along the others. Columns of the
maker that were not given have zero in `ncutout` and the default value elsewhere. -/
theorem C113_values {zero defval : α} {psf : Bool} {nmax : Nat} {obj full : Arr α} (hw : obj.WF) (h : setObjData zero defval psf nmax obj = .ok full) :
    full.n = obj.n ∧ full.names = ["id", "box_size", "ra", "dec", "ncutout", "file_id", "start_row", "orig_row", "orig_col", "orig_start_row", "orig_start_col",
        "cutout_row", "cutout_col", "dudrow", "dudcol", "dvdrow", "dvdcol"] ++ obj.names.filter (fun s => wanted true nmax s = none) ++
        (if psf then ["psf_row_size", "psf_col_size", "psf_cutout_row", "psf_cutout_col", "psf_start_row"] else []) ∧
      (∀ c ∈ obj.cols, wanted true nmax c.field.name = none → c ∈ full.cols) ∧
      (∀ name w, wanted psf nmax name = some w → ∃ c' ∈ full.cols, c'.field = ⟨name, w⟩ ∧ c'.vals.length = obj.n ∧ (∀ r ∈ c'.vals, r.length = w.getD 1) ∧
        (∀ c ∈ obj.cols, c.field.name = name → ∀ i k, i < obj.n → k < w.getD 1 →
          entry c' i k = entry c (sourceOf obj.n w c.field.width i k).1 (sourceOf obj.n w c.field.width i k).2) ∧
        (name ∉ obj.names → ∀ i k, i < obj.n → k < w.getD 1 → entry c' i k = some (if name = "ncutout" then zero else defval))) := by
  rw [setObjData_eq hw] at h
  obtain ⟨_, _, h⟩ := Res.bind_eq_ok.mp h
  obtain ⟨cs, h2, h⟩ := Res.bind_eq_ok.mp h
  injection h with h
  subst h
  have h2' := mapRes_ok_iff.mp h2
  have hfield : ∀ c y, copyInto obj c = .ok y → y.field = c.field := by
    intro c y hy
    unfold copyInto at hy
    split at hy
    · injection hy with hy; rw [hy]
    · obtain ⟨v, _, hy⟩ := Res.bind_eq_ok.mp hy
      injection hy with hy
      rw [← hy]
  have hfree : ∀ f : Field, f ∈ userFields obj → wanted true nmax f.name = none := by
    intro f hf
    have := (List.mem_filter.mp hf).2
    simp only [Bool.and_eq_true, Bool.not_eq_true', List.contains_eq_mem, decide_eq_false_iff_not, List.mem_append, not_or] at this
    exact wanted_none this.1.1 this.1.2 this.2
  have hfree' : ∀ s, wanted true nmax s = none → s ∉ scalarNames ++ epochNames ∧
      s ∉ ["psf_row_size", "psf_col_size", "psf_cutout_row", "psf_cutout_col", "psf_start_row"] := by
    intro s hs
    unfold wanted at hs
    split at hs
    · cases hs
    · rename_i h1
      split at hs
      · cases hs
      · rename_i h2
        split at hs
        · cases hs
        · rename_i h3
          exact ⟨fun h => (List.mem_append.mp h).elim h1 h2, fun h => h3 ⟨rfl, h⟩⟩
  refine ⟨rfl, ?_, ?_, ?_⟩
  · have e : cs.map (·.field) = outputDtype nmax (extraFields psf obj nmax) := by
      have : ∀ (l : List Field) (cs : List (Col α)), mapRes (copyInto obj) (l.map (blank zero defval obj.n)) = .ok cs → cs.map (·.field) = l := by
        intro l
        induction l with
        | nil => intro cs h; injection h with h; subst h; rfl
        | cons f l ih =>
          intro cs h
          rw [List.map_cons, mapRes_ok_iff] at h
          cases h with
          | cons h1 h2 =>
            rw [List.map_cons, hfield _ _ h1, ih _ (mapRes_ok_iff.mpr h2)]
            rfl
      exact this _ _ h2
    rw [Arr.names_eq]
    unfold Arr.descr
    dsimp only
    rw [e, outputDtype_names, extraFields_eq, List.map_append]
    have eu : (userFields obj).map (·.name) = obj.names.filter (fun s => wanted true nmax s = none) := by
      unfold userFields
      rw [Arr.names_eq, List.filter_map]
      congr 1
      apply List.filter_congr
      intro f hf
      have key : (!(scalarNames ++ epochNames).contains f.name && !["psf_row_size", "psf_col_size", "psf_cutout_row", "psf_cutout_col", "psf_start_row"].contains f.name) = true ↔
          wanted true nmax f.name = none := by
        simp only [Bool.and_eq_true, Bool.not_eq_true', List.contains_eq_mem, decide_eq_false_iff_not]
        constructor
        · intro h
          exact wanted_none (fun h' => h.1 (List.mem_append_left _ h')) (fun h' => h.1 (List.mem_append_right _ h')) h.2
        · exact hfree' _
      rw [Bool.eq_iff_iff, key]
      simp
    rw [eu, ← List.append_assoc]
    cases psf <;> rfl
  · intro c hc hfr
    have hfu : c.field ∈ outputDtype nmax (extraFields psf obj nmax) := by
      unfold outputDtype
      rw [extraFields_eq]
      refine List.mem_append_right _ (List.mem_append_left _ ?_)
      unfold userFields
      refine List.mem_filter.mpr ⟨List.mem_map_of_mem hc, ?_⟩
      simp only [Bool.and_eq_true, Bool.not_eq_true', List.contains_eq_mem, decide_eq_false_iff_not]
      exact hfree' _ hfr
    obtain ⟨y, hy1, hy2⟩ := mem_of_forall₂ h2' (List.mem_map_of_mem (f := blank zero defval obj.n) hfu)
    unfold copyInto at hy2
    rw [show (blank zero defval obj.n c.field).field = c.field from rfl, Arr.col?_of_mem hw.nodup hc] at hy2
    dsimp only at hy2
    rw [broadcast_same, Res.ok_bind] at hy2
    injection hy2 with hy2
    have : y = c := by rw [← hy2]
    exact this ▸ hy1
  · intro name w hwn
    obtain ⟨y, hy1, hy2⟩ := mem_of_forall₂ h2' (List.mem_map_of_mem (f := blank zero defval obj.n) (field_of_wanted obj hwn))
    have hfy := hfield _ _ hy2
    refine ⟨y, hy1, hfy, ?_⟩
    unfold copyInto at hy2
    rw [show (blank zero defval obj.n ⟨name, w⟩).field = ⟨name, w⟩ from rfl] at hy2
    dsimp only at hy2
    cases hcol : obj.col? name with
    | none =>
      rw [hcol] at hy2
      injection hy2 with hy2
      subst hy2
      have hnot : ∀ c ∈ obj.cols, c.field.name ≠ name := by
        intro c hc e
        rw [← e, Arr.col?_of_mem hw.nodup hc] at hcol
        cases hcol
      refine ⟨List.length_replicate, ?_, fun c hc e => absurd e (hnot c hc), fun _ i k hi hk => ?_⟩
      · intro r hr
        rw [(List.mem_replicate.mp hr).2]
        exact List.length_replicate
      · unfold entry blank
        dsimp only
        rw [List.getElem?_replicate, if_pos hi, Option.bind_some, List.getElem?_replicate, if_pos hk]
    | some s =>
      rw [hcol] at hy2
      dsimp only at hy2
      obtain ⟨v, hv, hy2⟩ := Res.bind_eq_ok.mp hy2
      injection hy2 with hy2
      subst hy2
      obtain ⟨hs1, hs2⟩ := Arr.mem_of_col? hcol
      obtain ⟨q1, q2, q3⟩ := broadcast_values (hw.rows s hs1) (hw.widths s hs1) hv
      refine ⟨q1, q2, ?_, ?_⟩
      · intro c hc e i k hi hk
        have : c = s := by
          have e2 := Arr.col?_of_mem hw.nodup hc
          rw [e, hcol] at e2
          injection e2 with e2
          exact e2.symm
        subst this
        exact q3 i k hi hk
      · intro hn
        exact absurd (hs2 ▸ List.mem_map_of_mem hs1) hn

/-- **C113** In particular a column with one value per object under the name of a per-epoch column is refused unless there is one object or as many objects as
epochs. -/
theorem C113_scalar_refused {zero defval : α} {psf : Bool} {nmax : Nat} {obj : Arr α} (hw : obj.WF) {c : Col α} (hc : c ∈ obj.cols)
    (hwn : wanted psf nmax c.field.name = some (some nmax)) (hsc : c.field.width = none) (h1 : obj.n ≠ 1) (h2 : obj.n ≠ nmax) :
    setObjData zero defval psf nmax obj = .error .valueError := by
  cases h : setObjData zero defval psf nmax obj with
  | error e => rw [C113_refused hw h]
  | ok full =>
    have := ((C113_accepted hw).mp ⟨full, h⟩).2 c hc _ hwn
    rw [hsc, broadcasts_iff] at this
    exact absurd this (by tauto)

/-! ### A concrete catalogue -/

/-- Three objects with a scalar column `file_id` and a column of the user. -/
def exShapes : Arr Nat :=
  { n := 3, cols := [⟨⟨"id", none⟩, [[1], [2], [3]]⟩, ⟨⟨"box_size", none⟩, [[4], [4], [6]]⟩, ⟨⟨"ra", none⟩, [[7], [8], [9]]⟩, ⟨⟨"dec", none⟩, [[7], [8], [9]]⟩,
    ⟨⟨"file_id", none⟩, [[10], [20], [30]]⟩, ⟨⟨"flux", some 2⟩, [[1, 2], [3, 4], [5, 6]]⟩, ⟨⟨"psf_row_size", none⟩, [[1], [2], [3]]⟩] }

example : exShapes.WF := ⟨by decide, by decide, by decide⟩

-- with two epochs it is refused; with three, the values of the objects become those of the epochs; `psf_row_size` disappears
example : (match setObjData 0 99 false 2 exShapes with | .error e => decide (e = .valueError) | .ok _ => false) = true := by decide +kernel

example : (match setObjData 0 99 false 3 exShapes with
    | .ok f => decide ((f.col? "file_id").map (·.vals) = some [[10, 20, 30], [10, 20, 30], [10, 20, 30]] ∧ "psf_row_size" ∉ f.names)
    | .error _ => false) = true := by decide +kernel

end Columns
end Meds
