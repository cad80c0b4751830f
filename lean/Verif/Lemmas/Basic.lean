import Verif.Model.Basic
import Mathlib.Tactic.Ring
import Mathlib.Tactic.Linarith

/-! Helper lemmas about `Res`, numpy indexing and images.  No property theorems here. -/

namespace Meds

@[simp] theorem Res.ok_bind {α β : Type} (a : α) (f : α → Res β) : (Except.ok a >>= f) = f a := rfl

@[simp] theorem Res.error_bind {α β : Type} (e : Err) (f : α → Res β) : ((Except.error e : Res α) >>= f) = .error e := rfl

theorem Res.bind_eq_ok {α β : Type} {x : Res α} {f : α → Res β} {b : β} :
    (x >>= f) = .ok b ↔ ∃ a, x = .ok a ∧ f a = .ok b := by
  cases x with
  | error e => simp
  | ok a => simp

theorem pyIndex_nat {n k : Nat} (h : k < n) : pyIndex n (k : Int) = .ok k := by
  unfold pyIndex; simp [h]

theorem pyIndex_ok {n : Nat} {i : Int} {k : Nat} (h : pyIndex n i = .ok k) : k < n := by
  unfold pyIndex at h
  split at h
  · split at h
    · injection h with h; omega
    · cases h
  · split at h
    · injection h with h; omega
    · cases h

theorem pyIndex_ok_nonneg {n : Nat} {i : Int} {k : Nat} (h : pyIndex n i = .ok k) (hi : 0 ≤ i) : (k : Int) = i := by
  unfold pyIndex at h
  rw [if_pos hi] at h
  split at h
  · injection h with h; omega
  · cases h

theorem pyGet_nat {α : Type} {l : List α} {k : Nat} (h : k < l.length) : pyGet l (k : Int) = .ok l[k] := by
  unfold pyGet; rw [pyIndex_nat h]; simp [h]

theorem pyGet_nat_some {α : Type} {l : List α} {k : Nat} {x : α} (h : l[k]? = some x) : pyGet l (k : Int) = .ok x := by
  obtain ⟨hk, rfl⟩ := List.getElem?_eq_some_iff.mp h
  exact pyGet_nat hk

theorem pyGet_ok_nonneg {α : Type} {l : List α} {i : Int} {x : α} (h : pyGet l i = .ok x) (hi : 0 ≤ i) :
    l[i.toNat]? = some x := by
  unfold pyGet at h
  split at h
  · cases h
  · rename_i k hk
    have := pyIndex_ok_nonneg hk hi
    split at h
    · rename_i y hy
      injection h with h
      subst h
      have : i.toNat = k := by omega
      rw [this]; exact hy
    · cases h

theorem pyGet_ok {α : Type} {l : List α} {i : Int} {x : α} (h : pyGet l i = .ok x) : x ∈ l := by
  unfold pyGet at h
  split at h
  · cases h
  · split at h
    · rename_i y hy
      injection h with h
      subst h
      exact List.mem_of_getElem? hy
    · cases h

theorem pyGet_ok_wrap {α : Type} {l : List α} {i : Int} {x : α} (h : pyGet l i = .ok x) :
    ∃ k : Nat, l[k]? = some x ∧ ((0 ≤ i ∧ (k : Int) = i) ∨ (i < 0 ∧ (k : Int) = i + l.length)) := by
  unfold pyGet at h
  split at h
  · cases h
  · rename_i k hk
    split at h
    · rename_i y hy
      injection h with h
      subst h
      refine ⟨k, hy, ?_⟩
      unfold pyIndex at hk
      split at hk
      · split at hk
        · injection hk with hk; left; omega
        · cases hk
      · split at hk
        · injection hk with hk; right; omega
        · cases hk
    · cases h

theorem mapRes_ok_iff {α β : Type} {f : α → Res β} {l : List α} {ys : List β} :
    mapRes f l = .ok ys ↔ List.Forall₂ (fun x y => f x = .ok y) l ys := by
  induction l generalizing ys with
  | nil =>
    simp only [mapRes, List.forall₂_nil_left_iff]
    constructor
    · intro h; injection h with h; exact h.symm
    · intro h; rw [h]
  | cons x xs ih =>
    simp only [mapRes, List.forall₂_cons_left_iff]
    cases hx : f x with
    | error e => simp
    | ok y =>
      cases hxs : mapRes f xs with
      | error e =>
        simp only [reduceCtorEq, false_iff]
        rintro ⟨b, u, hb, hu, rfl⟩
        rw [← ih] at hu
        rw [hxs] at hu; cases hu
      | ok zs =>
        simp only [Except.ok.injEq]
        constructor
        · rintro rfl
          exact ⟨y, zs, rfl, (ih.mp hxs), rfl⟩
        · rintro ⟨b, u, hb, hu, rfl⟩
          rw [← ih, hxs] at hu
          injection hu with hu
          rw [hb, hu]

theorem mapRes_length {α β : Type} {f : α → Res β} {l : List α} {ys : List β} (h : mapRes f l = .ok ys) :
    ys.length = l.length := (mapRes_ok_iff.mp h).length_eq.symm

theorem mapRes_congr {α β : Type} {f g : α → Res β} {l : List α} (h : ∀ x ∈ l, f x = g x) :
    mapRes f l = mapRes g l := by
  induction l with
  | nil => rfl
  | cons x xs ih =>
    simp only [mapRes]
    rw [h x (by simp), ih (fun y hy => h y (by simp [hy]))]

theorem mapRes_ok_map {α β : Type} (f : α → β) (l : List α) : mapRes (fun x => .ok (f x)) l = .ok (l.map f) := by
  induction l with
  | nil => rfl
  | cons x xs ih => simp [mapRes, ih]

theorem mapRes_getElem? {α β : Type} {f : α → Res β} {l : List α} {ys : List β} (h : mapRes f l = .ok ys)
    {i : Nat} {x : α} (hx : l[i]? = some x) : ∃ y, ys[i]? = some y ∧ f x = .ok y := by
  induction l generalizing ys i with
  | nil => simp at hx
  | cons a as ih =>
    obtain ⟨b, u, hb, hu, rfl⟩ := List.forall₂_cons_left_iff.mp (mapRes_ok_iff.mp h)
    cases i with
    | zero =>
      simp only [List.getElem?_cons_zero, Option.some.injEq] at hx
      subst hx
      exact ⟨b, by simp, hb⟩
    | succ i =>
      simp only [List.getElem?_cons_succ] at hx
      obtain ⟨y, hy, hf⟩ := ih (mapRes_ok_iff.mpr hu) hx
      exact ⟨y, by simpa using hy, hf⟩

theorem mapRes_getElem?_inv {α β : Type} {f : α → Res β} {l : List α} {ys : List β} (h : mapRes f l = .ok ys)
    {i : Nat} {y : β} (hy : ys[i]? = some y) : ∃ x, l[i]? = some x ∧ f x = .ok y := by
  obtain ⟨hi, rfl⟩ := List.getElem?_eq_some_iff.mp hy
  have hl : i < l.length := by rw [← mapRes_length h]; exact hi
  obtain ⟨y, hy', hf⟩ := mapRes_getElem? h (List.getElem?_eq_getElem hl)
  rw [hy] at hy'
  injection hy' with hy'
  exact ⟨l[i], by simp [hl], by rw [hf, hy']⟩

theorem mapRes_of_forall {α β : Type} {f : α → Res β} {l : List α} (h : ∀ x ∈ l, ∃ y, f x = .ok y) :
    ∃ ys, mapRes f l = .ok ys := by
  induction l with
  | nil => exact ⟨[], rfl⟩
  | cons x xs ih =>
    obtain ⟨y, hy⟩ := h x (by simp)
    obtain ⟨ys, hys⟩ := ih (fun z hz => h z (by simp [hz]))
    exact ⟨y :: ys, by simp [mapRes, hy, hys]⟩

theorem foldRes_append {σ α : Type} (f : σ → α → Res σ) (s : σ) (l₁ l₂ : List α) :
    foldRes f s (l₁ ++ l₂) = (foldRes f s l₁ >>= fun s' => foldRes f s' l₂) := by
  induction l₁ generalizing s with
  | nil => rfl
  | cons x xs ih =>
    simp only [List.cons_append, foldRes]
    cases f s x with
    | error e => rfl
    | ok s' => exact ih s'

theorem foldRes_cons_ok {σ α : Type} {f : σ → α → Res σ} {s s' : σ} {x : α} {xs : List α} :
    foldRes f s (x :: xs) = .ok s' ↔ ∃ t, f s x = .ok t ∧ foldRes f t xs = .ok s' := by
  simp only [foldRes]
  cases f s x with
  | error e => simp
  | ok t => simp

theorem foldRes_inv {σ α : Type} {f : σ → α → Res σ} {P : σ → Prop} {l : List α} {s s' : σ}
    (hs : P s) (step : ∀ t t' x, x ∈ l → P t → f t x = .ok t' → P t') (h : foldRes f s l = .ok s') : P s' := by
  induction l generalizing s with
  | nil => simp only [foldRes] at h; injection h with h; exact h ▸ hs
  | cons x xs ih =>
    obtain ⟨t, ht, h⟩ := foldRes_cons_ok.mp h
    exact ih (step s t x (by simp) hs ht) (fun a b y hy => step a b y (by simp [hy])) h

namespace Img
variable {α β γ : Type}

@[simp] theorem ofFn_nr (nr nc : Nat) (f : Nat → Nat → α) : (ofFn nr nc f).nr = nr := rfl
@[simp] theorem ofFn_nc (nr nc : Nat) (f : Nat → Nat → α) : (ofFn nr nc f).nc = nc := rfl

theorem ofFn_WF (nr nc : Nat) (f : Nat → Nat → α) : (ofFn nr nc f).WF := by
  simp [WF, ofFn]

@[simp] theorem ofFn_flat_length (nr nc : Nat) (f : Nat → Nat → α) : (ofFn nr nc f).flat.length = nr * nc := by
  simp [ofFn]

theorem idx_lt {i j nr nc : Nat} (hi : i < nr) (hj : j < nc) : i * nc + j < nr * nc := by
  calc i * nc + j < i * nc + nc := by omega
    _ = (i + 1) * nc := by ring
    _ ≤ nr * nc := Nat.mul_le_mul_right _ hi

theorem ofFn_get? {nr nc i j : Nat} (f : Nat → Nat → α) (hi : i < nr) (hj : j < nc) :
    (ofFn nr nc f).get? i j = some (f i j) := by
  have hn : 0 < nc := by omega
  have hk := idx_lt hi hj
  simp only [get?, ofFn, hi, hj, and_self, if_true]
  rw [List.getElem?_map, List.getElem?_range hk]
  simp only [Option.map_some, Option.some.injEq]
  rw [Nat.mul_comm i nc, Nat.mul_add_div hn, Nat.div_eq_of_lt hj, Nat.mul_add_mod, Nat.mod_eq_of_lt hj]
  simp

theorem get?_some_of_WF {im : Img α} (h : im.WF) {i j : Nat} (hi : i < im.nr) (hj : j < im.nc) :
    ∃ v, im.get? i j = some v := by
  have hk := idx_lt hi hj
  rw [← h] at hk
  exact ⟨im.flat[i * im.nc + j], by simp [get?, hi, hj, hk]⟩

theorem get?_lt {im : Img α} {i j : Nat} {v : α} (h : im.get? i j = some v) : i < im.nr ∧ j < im.nc := by
  unfold get? at h
  split at h
  · assumption
  · cases h

theorem get?_none {im : Img α} {i j : Nat} (h : ¬ (i < im.nr ∧ j < im.nc)) : im.get? i j = none := by
  unfold get?; rw [if_neg h]

/-- Two well-formed images of the same shape with the same pixels are equal. -/
theorem ext_get {a b : Img α} (ha : a.WF) (hb : b.WF) (hr : a.nr = b.nr) (hc : a.nc = b.nc)
    (h : ∀ i j, i < a.nr → j < a.nc → a.get? i j = b.get? i j) : a = b := by
  cases a with
  | mk nr nc fa =>
  cases b with
  | mk nr' nc' fb =>
  simp only at hr hc
  subst hr hc
  congr 1
  apply List.ext_getElem?
  intro k
  simp only [WF] at ha hb
  by_cases hk : k < nr * nc
  · have hn : 0 < nc := by
      rcases Nat.eq_zero_or_pos nc with h0 | h0
      · subst h0; simp at hk
      · exact h0
    have hi : k / nc < nr := by rw [Nat.div_lt_iff_lt_mul hn]; exact hk
    have hj : k % nc < nc := Nat.mod_lt _ hn
    have := h (k / nc) (k % nc) hi hj
    simp only [get?, hi, hj, and_self, if_true] at this
    have e : k / nc * nc + k % nc = k := by rw [Nat.mul_comm]; exact Nat.div_add_mod k nc
    rw [e] at this
    exact this
  · rw [List.getElem?_eq_none (by omega), List.getElem?_eq_none (by omega)]

theorem map_WF {im : Img α} (h : im.WF) (f : α → β) : (im.map f).WF := by
  simpa [WF, map] using h

theorem map_get? (im : Img α) (f : α → β) (i j : Nat) : (im.map f).get? i j = (im.get? i j).map f := by
  by_cases h : i < im.nr ∧ j < im.nc
  · rw [get?, get?, if_pos h, if_pos (show i < (im.map f).nr ∧ j < (im.map f).nc from h)]
    simp [map]
  · rw [get?, get?, if_neg h, if_neg (show ¬ (i < (im.map f).nr ∧ j < (im.map f).nc) from h)]
    rfl

theorem zipWith_WF {a : Img α} {b : Img β} (ha : a.WF) (hb : b.WF) (hr : a.nr = b.nr) (hc : a.nc = b.nc)
    (f : α → β → γ) : (zipWith f a b).WF := by
  simp only [WF, zipWith, List.length_zipWith] at *
  rw [ha, hb, hr, hc]; simp

theorem zipWith_get? {a : Img α} {b : Img β} (hr : a.nr = b.nr) (hc : a.nc = b.nc)
    (f : α → β → γ) (i j : Nat) {x : α} {y : β} (hx : a.get? i j = some x) (hy : b.get? i j = some y) :
    (zipWith f a b).get? i j = some (f x y) := by
  have h := get?_lt hx
  have h' : i < b.nr ∧ j < b.nc := by rw [← hr, ← hc]; exact h
  rw [get?, if_pos h] at hx
  rw [get?, if_pos h', ← hc] at hy
  rw [get?, if_pos (show i < (zipWith f a b).nr ∧ j < (zipWith f a b).nc from h)]
  show (List.zipWith f a.flat b.flat)[i * a.nc + j]? = _
  rw [List.getElem?_zipWith, hx, hy]

end Img

theorem reshape_ok {α : Type} {flat : List α} {r c : Int} {im : Img α} (h : reshape flat r c = .ok im) :
    0 ≤ r ∧ 0 ≤ c ∧ (flat.length : Int) = r * c ∧ im = ⟨r.toNat, c.toNat, flat⟩ := by
  unfold reshape at h
  split at h
  · rename_i hh
    injection h with h
    exact ⟨hh.1, hh.2.1, hh.2.2, h.symm⟩
  · cases h

theorem reshape_nat {α : Type} {flat : List α} {r c : Nat} (h : flat.length = r * c) :
    reshape flat (r : Int) (c : Int) = .ok ⟨r, c, flat⟩ := by
  unfold reshape
  have : (flat.length : Int) = r * c := by rw [h]; push_cast; ring
  simp [this]

end Meds
