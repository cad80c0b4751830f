import Verif.Spec.Memory
import Verif.Lemmas.Basic

/-!
# Reading and writing through views
-/

namespace Meds.Memory

variable {α : Type}

theorem Apart.symm {v w : View} (h : Apart v w) : Apart w v := by
  rcases h with h | h | h
  · exact Or.inl (Ne.symm h)
  · exact Or.inr (Or.inr h)
  · exact Or.inr (Or.inl h)

theorem read_nr (v : View) (μ : Mem α) : (v.read μ).nr = v.nr := rfl
theorem read_nc (v : View) (μ : Mem α) : (v.read μ).nc = v.nc := rfl

theorem read_length {μ : Mem α} {v : View} (h : Held μ v) : (v.read μ).flat.length = v.nr * v.nc := by
  obtain ⟨b, hb, hl⟩ := h
  simp only [View.read, List.getD_eq_getElem?_getD, hb, Option.getD_some, List.length_take, List.length_drop]
  omega

theorem read_WF {μ : Mem α} {v : View} (h : Held μ v) : (v.read μ).WF := read_length h

theorem read_getElem? (v : View) (μ : Mem α) (k : Nat) :
    (v.read μ).flat[k]? = if k < v.nr * v.nc then (μ.getD v.buf [])[v.off + k]? else none := by
  simp only [View.read, List.getElem?_take, List.getElem?_drop]

/-- Two memories that agree on the cells of a view read the same. -/
theorem read_congr {v : View} {μ μ' : Mem α} (h : ∀ k, k < v.nr * v.nc → (μ.getD v.buf [])[v.off + k]? = (μ'.getD v.buf [])[v.off + k]?) :
    v.read μ = v.read μ' := by
  have : (v.read μ).flat = (v.read μ').flat := by
    apply List.ext_getElem?
    intro k
    rw [read_getElem?, read_getElem?]
    split
    · exact h k ‹_›
    · rfl
  show Img.mk v.nr v.nc (v.read μ).flat = Img.mk v.nr v.nc (v.read μ').flat
  rw [this]

theorem write_length (v : View) (μ : Mem α) (xs : List α) : (v.write μ xs).length = μ.length := by
  simp [View.write]

theorem write_getElem?_ne (v : View) (μ : Mem α) (xs : List α) {n : Nat} (h : n ≠ v.buf) : (v.write μ xs)[n]? = μ[n]? := by
  simp [View.write, List.getElem?_modify, Ne.symm h]

theorem write_getElem? (v : View) {μ : Mem α} (xs : List α) {b : List α} (hb : μ[v.buf]? = some b) :
    (v.write μ xs)[v.buf]? = some (b.take v.off ++ xs ++ b.drop (v.off + xs.length)) := by
  simp [View.write, List.getElem?_modify, hb]

theorem splice_length {b xs : List α} {off : Nat} (h : off + xs.length ≤ b.length) : (b.take off ++ xs ++ b.drop (off + xs.length)).length = b.length := by
  simp only [List.length_append, List.length_take, List.length_drop]
  omega

theorem splice_getElem? {b xs : List α} {off : Nat} (h : off + xs.length ≤ b.length) (p : Nat) :
    (b.take off ++ xs ++ b.drop (off + xs.length))[p]? = if off ≤ p ∧ p < off + xs.length then xs[p - off]? else b[p]? := by
  have h1 : (b.take off).length = off := by rw [List.length_take]; omega
  have h2 : (b.take off ++ xs).length = off + xs.length := by rw [List.length_append, h1]
  by_cases h3 : p < off
  · rw [List.append_assoc, List.getElem?_append_left (by omega), List.getElem?_take, if_pos h3, if_neg (by omega)]
  · by_cases h4 : p < off + xs.length
    · rw [List.getElem?_append_left (by omega), List.getElem?_append_right (by omega), h1, if_pos ⟨by omega, h4⟩]
    · rw [List.getElem?_append_right (by omega), h2, List.getElem?_drop, if_neg (by omega)]
      congr 1
      omega

/-- Writing leaves every buffer as long as it was. -/
theorem Held.write {μ : Mem α} {v w : View} (hv : Held μ v) (hw : Held μ w) {xs : List α} (hx : xs.length = v.nr * v.nc) : Held (v.write μ xs) w := by
  obtain ⟨b, hb, hl⟩ := hv
  obtain ⟨c, hc, hl'⟩ := hw
  by_cases h : w.buf = v.buf
  · rw [h, hb] at hc
    injection hc with hc
    subst hc
    exact ⟨_, by rw [h]; exact write_getElem? v xs hb, by rw [splice_length (by omega)]; exact hl'⟩
  · exact ⟨c, by rw [write_getElem?_ne v μ xs h]; exact hc, hl'⟩

theorem read_write_self {μ : Mem α} {v : View} (hv : Held μ v) {xs : List α} (hx : xs.length = v.nr * v.nc) : v.read (v.write μ xs) = ⟨v.nr, v.nc, xs⟩ := by
  obtain ⟨b, hb, hl⟩ := hv
  have : (v.read (v.write μ xs)).flat = xs := by
    apply List.ext_getElem?
    intro k
    rw [read_getElem?, List.getD_eq_getElem?_getD, write_getElem? v xs hb, Option.getD_some, splice_getElem? (by omega)]
    split
    · rw [if_pos (by omega)]
      congr 1
      omega
    · rw [List.getElem?_eq_none (by omega)]
  show Img.mk v.nr v.nc (v.read (v.write μ xs)).flat = _
  rw [this]

theorem read_write_apart {μ : Mem α} {v w : View} (hv : Held μ v) {xs : List α} (hx : xs.length = v.nr * v.nc) (ha : Apart v w) :
    w.read (v.write μ xs) = w.read μ := by
  obtain ⟨b, hb, hl⟩ := hv
  apply read_congr
  intro k hk
  rw [List.getD_eq_getElem?_getD, List.getD_eq_getElem?_getD]
  by_cases h : w.buf = v.buf
  · rw [h, write_getElem? v xs hb, hb, Option.getD_some, Option.getD_some, splice_getElem? (by omega), if_neg]
    rcases ha with ha | ha | ha
    · exact absurd h.symm ha
    · omega
    · omega
  · rw [write_getElem?_ne v μ xs h]

/-- Storing one element is writing the whole array with that element changed. -/
theorem set_eq_write {μ : Mem α} {v : View} (hv : Held μ v) {i j : Nat} (hi : i < v.nr) (hj : j < v.nc) (x : α) :
    v.set μ i j x = v.write μ ((v.read μ).flat.set (i * v.nc + j) x) := by
  have hlt : i * v.nc + j < v.nr * v.nc := by
    have : (i + 1) * v.nc ≤ v.nr * v.nc := Nat.mul_le_mul_right _ hi
    rw [Nat.add_mul] at this
    omega
  have hlen := read_length hv
  obtain ⟨b, hb, hl⟩ := hv
  apply List.ext_getElem?
  intro n
  by_cases h : n = v.buf
  · subst h
    rw [write_getElem? v _ hb]
    simp only [View.set, List.getElem?_modify, hb, if_true, Option.map_eq_map, Option.map_some]
    congr 1
    apply List.ext_getElem?
    intro p
    rw [splice_getElem? (by rw [List.length_set, hlen]; omega), List.length_set, hlen, List.getElem?_set, List.getElem?_set]
    have hrd : ∀ k, k < v.nr * v.nc → (v.read μ).flat[k]? = b[v.off + k]? := by
      intro k hk
      rw [read_getElem?, if_pos hk, List.getD_eq_getElem?_getD, hb, Option.getD_some]
    by_cases h1 : v.off + (i * v.nc + j) = p
    · rw [if_pos h1, if_pos (by omega), if_pos (by omega), if_pos (by omega), if_pos (by omega)]
    · rw [if_neg h1]
      by_cases h2 : v.off ≤ p ∧ p < v.off + v.nr * v.nc
      · rw [if_pos h2, if_neg (by omega), hrd _ (by omega)]
        congr 1
        omega
      · rw [if_neg h2]
  · rw [write_getElem?_ne v μ _ h]
    simp [View.set, List.getElem?_modify, Ne.symm h]

/-! ### New arrays -/

theorem read_append_old {μ : Mem α} {v : View} (h : Held μ v) (ν : Mem α) : v.read (μ ++ ν) = v.read μ := by
  obtain ⟨b, hb, _⟩ := h
  have hlt := (List.getElem?_eq_some_iff.mp hb).1
  apply read_congr
  intro k _
  rw [List.getD_eq_getElem?_getD, List.getD_eq_getElem?_getD, List.getElem?_append_left hlt]

theorem Held.append {μ : Mem α} {v : View} (h : Held μ v) (ν : Mem α) : Held (μ ++ ν) v := by
  obtain ⟨b, hb, hl⟩ := h
  exact ⟨b, by rw [List.getElem?_append_left (List.getElem?_eq_some_iff.mp hb).1]; exact hb, hl⟩

theorem Held.lt {μ : Mem α} {v : View} (h : Held μ v) : v.buf < μ.length := by
  obtain ⟨b, hb, _⟩ := h
  exact (List.getElem?_eq_some_iff.mp hb).1

theorem held_alloc (μ : Mem α) {im : Img α} (hw : im.WF) : Held (alloc μ im).1 (alloc μ im).2 := by
  have hw' : im.flat.length = im.nr * im.nc := hw
  exact ⟨im.flat, by simp [alloc], by simp [alloc, hw']⟩

theorem read_alloc (μ : Mem α) {im : Img α} (hw : im.WF) : (alloc μ im).2.read (alloc μ im).1 = im := by
  have hw' : im.flat.length = im.nr * im.nc := hw
  simp [alloc, View.read, List.getD_eq_getElem?_getD, ← hw']

/-! ### Rows of a view -/

theorem read_rows (v : View) (μ : Mem α) {r1 r2 : Nat} (h : r1 ≤ r2) (h' : r2 ≤ v.nr) : (v.rows r1 r2).read μ = (v.read μ).rowSlice r1 r2 := by
  have hm : min r2 v.nr = r2 := Nat.min_eq_left h'
  unfold View.rows View.read Img.rowSlice
  dsimp only
  rw [hm]
  congr 1
  have h1 : r2 * v.nc ≤ v.nr * v.nc := Nat.mul_le_mul_right _ h'
  have h2 : r1 * v.nc ≤ r2 * v.nc := Nat.mul_le_mul_right _ h
  rw [List.take_take, Nat.min_eq_left h1, List.drop_take, List.drop_drop, Nat.sub_mul]

theorem Held.rows {μ : Mem α} {v : View} (hv : Held μ v) {r1 r2 : Nat} (h : r1 ≤ r2) (h' : r2 ≤ v.nr) : Held μ (v.rows r1 r2) := by
  obtain ⟨b, hb, hl⟩ := hv
  have hm : min r2 v.nr = r2 := Nat.min_eq_left h'
  refine ⟨b, hb, ?_⟩
  show v.off + r1 * v.nc + (min r2 v.nr - r1) * v.nc ≤ b.length
  have h1 : r2 * v.nc ≤ v.nr * v.nc := Nat.mul_le_mul_right _ h'
  have h2 : r1 * v.nc ≤ r2 * v.nc := Nat.mul_le_mul_right _ h
  rw [hm, Nat.sub_mul]
  omega

theorem rows_apart (v : View) {r1 r2 r3 r4 : Nat} (h1 : r1 ≤ r2) (h2 : r2 ≤ r3) : Apart (v.rows r1 r2) (v.rows r3 r4) := by
  refine Or.inr (Or.inl ?_)
  show v.off + r1 * v.nc + (min r2 v.nr - r1) * v.nc ≤ v.off + r3 * v.nc
  have h3 : (r1 + (min r2 v.nr - r1)) * v.nc ≤ r3 * v.nc := Nat.mul_le_mul_right _ (by omega)
  rw [Nat.add_mul] at h3
  omega

/-! ### The parts of a mosaic -/

theorem splitMosaic_ok {v : View} {vs : List View} (h : splitMosaic v = .ok vs) :
    0 < v.nc ∧ vs = (List.range (v.nr / v.nc)).map (fun i => v.rows (i * v.nc) ((i + 1) * v.nc)) := by
  unfold splitMosaic at h
  split at h
  · cases h
  · injection h with h
    exact ⟨by omega, h.symm⟩

theorem part_le {v : View} {i : Nat} (hi : i < v.nr / v.nc) : (i + 1) * v.nc ≤ v.nr :=
  le_trans (Nat.mul_le_mul_right _ hi) (Nat.div_mul_le_self _ _)

/-- The parts of a view of a mosaic are views of the parts of the mosaic. -/
theorem splitMosaic_read (v : View) (μ : Mem α) : Meds.splitMosaic (v.read μ) = (splitMosaic v).map (List.map (·.read μ)) := by
  unfold Meds.splitMosaic splitMosaic
  dsimp only
  rw [read_nc]
  split
  · rfl
  · show _ = Except.ok _
    congr 1
    rw [List.map_map, read_nr]
    apply List.map_congr_left
    intro i hi
    rw [List.mem_range] at hi
    exact (read_rows v μ (Nat.mul_le_mul_right _ (Nat.le_succ i)) (part_le hi)).symm

theorem splitMosaic_held {μ : Mem α} {v : View} (hv : Held μ v) {vs : List View} (h : splitMosaic v = .ok vs) : ∀ w ∈ vs, Held μ w := by
  obtain ⟨_, rfl⟩ := splitMosaic_ok h
  intro w hw
  obtain ⟨i, hi, rfl⟩ := List.mem_map.mp hw
  exact hv.rows (Nat.mul_le_mul_right _ (Nat.le_succ i)) (part_le (List.mem_range.mp hi))

theorem splitMosaic_apart {v : View} {vs : List View} (h : splitMosaic v = .ok vs) : vs.Pairwise Apart := by
  obtain ⟨_, rfl⟩ := splitMosaic_ok h
  rw [List.pairwise_map]
  refine List.Pairwise.imp ?_ (List.pairwise_lt_range)
  intro i j hij
  exact rows_apart v (Nat.mul_le_mul_right _ (Nat.le_succ i)) (Nat.mul_le_mul_right _ hij)

theorem splitMosaic_buf {v : View} {vs : List View} (h : splitMosaic v = .ok vs) : ∀ w ∈ vs, w.buf = v.buf := by
  obtain ⟨_, rfl⟩ := splitMosaic_ok h
  intro w hw
  obtain ⟨i, _, rfl⟩ := List.mem_map.mp hw
  rfl

theorem zipIdx_map_range {β : Type} (g : Nat → β) (n : Nat) : ((List.range n).map g).zipIdx = (List.range n).map (fun i => (g i, i)) := by
  apply List.ext_getElem?
  intro k
  rw [List.getElem?_zipIdx, List.getElem?_map, List.getElem?_map]
  by_cases h : k < n
  · rw [List.getElem?_range h]; simp
  · rw [List.getElem?_eq_none (by simpa using h)]; simp

theorem mapRes_map {β γ δ : Type} (f : γ → Res δ) (g : β → γ) (l : List β) : mapRes f (l.map g) = mapRes (fun x => f (g x)) l := by
  induction l with
  | nil => rfl
  | cons x xs ih => rw [List.map_cons, mapRes, mapRes, ih]

theorem modify_last {β : Type} (μ : List β) (x : β) (g : β → β) : (μ ++ [x]).modify μ.length g = μ ++ [g x] := by
  induction μ with
  | nil => rfl
  | cons y t ih => simp [ih]

/-- The loop that replaces the parts of a new array one after the other: what is in memory when it has gone through parts `k` to `k + n`. -/
theorem replace_loop (f : Nat → Img ℚ → Res (Img ℚ)) (μ : Mem ℚ) (orig : List ℚ) (nr nc : Nat)
    (hf : ∀ i x c, x.nr = nc → x.nc = nc → x.WF → f i x = .ok c → c.nr = nc ∧ c.nc = nc ∧ c.WF) (hlen : orig.length = nr * nc) :
    ∀ (n k : Nat) (A : List ℚ), A.length = k * (nc * nc) → (k + n) * nc ≤ nr →
    foldRes (replaceStep f) (μ ++ [A ++ orig.drop (k * (nc * nc))])
        ((List.range' k n).map (fun i => (View.rows ⟨μ.length, 0, nr, nc⟩ (i * nc) ((i + 1) * nc), i))) =
      (mapRes (fun i => f i ((Img.mk nr nc orig).rowSlice (i * nc) ((i + 1) * nc))) (List.range' k n)).map
        (fun parts => μ ++ [A ++ (parts.map (·.flat)).flatten ++ orig.drop ((k + n) * (nc * nc))]) := by
  intro n
  induction n with
  | zero =>
    intro k A hA _
    simp [foldRes, mapRes, Except.map]
  | succ n ih =>
    intro k A hA hk
    have hk1 : (k + 1) * nc ≤ nr := le_trans (Nat.mul_le_mul_right _ (by omega)) hk
    have hbox : (k + 1) * (nc * nc) ≤ orig.length := by
      rw [hlen, ← Nat.mul_assoc]
      exact Nat.mul_le_mul_right _ hk1
    have hkk : (k + 1) * (nc * nc) = k * (nc * nc) + nc * nc := by ring
    rw [List.range'_succ, List.map_cons]
    have hread : (View.rows ⟨μ.length, 0, nr, nc⟩ (k * nc) ((k + 1) * nc)).read (μ ++ [A ++ orig.drop (k * (nc * nc))]) =
        (Img.mk nr nc orig).rowSlice (k * nc) ((k + 1) * nc) := by
      have hm : min ((k + 1) * nc) nr = (k + 1) * nc := Nat.min_eq_left hk1
      unfold View.rows View.read Img.rowSlice
      dsimp only
      rw [hm]
      congr 1
      have e1 : (k + 1) * nc - k * nc = nc := by rw [Nat.add_mul]; omega
      have e2 : 0 + k * nc * nc = A.length := by rw [hA]; ring
      have e3 : (k + 1) * nc * nc = k * (nc * nc) + nc * nc := by ring
      rw [e1, e2, List.getD_eq_getElem?_getD, List.getElem?_append_right (le_refl _), Nat.sub_self, List.getElem?_cons_zero, Option.getD_some,
        List.drop_left, List.drop_take, e3, Nat.mul_assoc]
      congr 1
      omega
    have hsl : ((Img.mk nr nc orig).rowSlice (k * nc) ((k + 1) * nc)).nr = nc ∧ ((Img.mk nr nc orig).rowSlice (k * nc) ((k + 1) * nc)).nc = nc ∧
        ((Img.mk nr nc orig).rowSlice (k * nc) ((k + 1) * nc)).WF := by
      have hm : min ((k + 1) * nc) nr = (k + 1) * nc := Nat.min_eq_left hk1
      have e1 : (k + 1) * nc - k * nc = nc := by rw [Nat.add_mul]; omega
      refine ⟨?_, rfl, ?_⟩
      · show min ((k + 1) * nc) nr - k * nc = nc
        rw [hm, e1]
      · show ((orig.take (min ((k + 1) * nc) nr * nc)).drop (k * nc * nc)).length = (min ((k + 1) * nc) nr - k * nc) * nc
        rw [hm, e1, List.length_drop, List.length_take]
        have e3 : (k + 1) * nc * nc = k * (nc * nc) + nc * nc := by ring
        have e4 : k * nc * nc = k * (nc * nc) := by ring
        rw [e3, e4]
        omega
    unfold foldRes mapRes
    unfold replaceStep
    dsimp only
    rw [hread]
    cases hc : f k ((Img.mk nr nc orig).rowSlice (k * nc) ((k + 1) * nc)) with
    | error e => rfl
    | ok c =>
      obtain ⟨c1, c2, c3⟩ := hf k _ c hsl.1 hsl.2.1 hsl.2.2 hc
      have c3' : c.flat.length = nc * nc := by
        have : c.flat.length = c.nr * c.nc := c3
        rw [this, c1, c2]
      have hass : (View.rows ⟨μ.length, 0, nr, nc⟩ (k * nc) ((k + 1) * nc)).assign (μ ++ [A ++ orig.drop (k * (nc * nc))]) c =
          .ok (μ ++ [(A ++ c.flat) ++ orig.drop ((k + 1) * (nc * nc))]) := by
        have hm : min ((k + 1) * nc) nr = (k + 1) * nc := Nat.min_eq_left hk1
        have e1 : (k + 1) * nc - k * nc = nc := by rw [Nat.add_mul]; omega
        have e2 : 0 + k * nc * nc = A.length := by rw [hA]; ring
        unfold View.assign View.rows View.write
        dsimp only
        rw [hm, e1, if_pos ⟨c1, c2⟩, e2]
        congr 1
        rw [modify_last]
        congr 2
        have hd : (A ++ orig.drop (k * (nc * nc))).drop (A.length + c.flat.length) = orig.drop ((k + 1) * (nc * nc)) := by
          rw [← List.drop_drop, List.drop_left, List.drop_drop, hkk, c3']
        rw [List.take_left, hd]
      simp only [Res.ok_bind]
      rw [hass]
      dsimp only
      have := ih (k + 1) (A ++ c.flat) (by rw [List.length_append, hA, c3', hkk]) (by rw [show k + 1 + n = k + (n + 1) by omega]; exact hk)
      unfold replaceStep at this
      rw [this]
      cases mapRes (fun i => f i ((Img.mk nr nc orig).rowSlice (i * nc) ((i + 1) * nc))) (List.range' (k + 1) n) with
      | error e => rfl
      | ok ps =>
        simp only [Except.map, List.map_cons, List.flatten_cons]
        rw [show k + 1 + n = k + (n + 1) by omega, List.append_assoc A]

end Meds.Memory
