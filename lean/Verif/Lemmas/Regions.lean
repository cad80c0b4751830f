import Verif.Model.Fits
import Verif.Lemmas.Basic

/-! Helper lemmas about writing pieces into a flat buffer and reading them back. -/

namespace Meds

/-- The pieces `(start, length)` follow each other without gap from `s` to `e`. -/
def Consec : Int → List (Int × Int) → Int → Prop
  | s, [], e => s = e
  | s, r :: t, e => r.1 = s ∧ 0 ≤ r.2 ∧ Consec (s + r.2) t e

theorem Consec.append {s m e : Int} {l₁ l₂ : List (Int × Int)} (h₁ : Consec s l₁ m) (h₂ : Consec m l₂ e) :
    Consec s (l₁ ++ l₂) e := by
  induction l₁ generalizing s with
  | nil => simp only [Consec] at h₁; subst h₁; exact h₂
  | cons r t ih => exact ⟨h₁.1, h₁.2.1, ih h₁.2.2⟩

theorem Consec.le {s e : Int} {l : List (Int × Int)} (h : Consec s l e) : s ≤ e := by
  induction l generalizing s with
  | nil => simp only [Consec] at h; omega
  | cons r t ih => have := ih h.2.2; have := h.2.1; omega

theorem Consec.bounds {s e : Int} {l : List (Int × Int)} (h : Consec s l e) {r : Int × Int} (hr : r ∈ l) :
    s ≤ r.1 ∧ 0 ≤ r.2 ∧ r.1 + r.2 ≤ e := by
  induction l generalizing s with
  | nil => cases hr
  | cons q t ih =>
    rcases List.mem_cons.mp hr with rfl | hr
    · have := Consec.le h.2.2
      have := h.1
      have := h.2.1
      omega
    · have := ih h.2.2 hr
      have := h.2.1
      omega

/-- Pieces at different places of the list do not overlap. -/
theorem Consec.pairwise {s e : Int} {l : List (Int × Int)} (h : Consec s l e) :
    l.Pairwise (fun a b => a.1 + a.2 ≤ b.1) := by
  induction l generalizing s with
  | nil => exact List.Pairwise.nil
  | cons q t ih =>
    refine List.Pairwise.cons ?_ (ih h.2.2)
    intro b hb
    have := Consec.bounds h.2.2 hb
    have := h.1
    omega

/-- Every position of the whole range belongs to some piece. -/
theorem Consec.cover {s e : Int} {l : List (Int × Int)} (h : Consec s l e) {p : Int} (hp : s ≤ p) (hp' : p < e) :
    ∃ r ∈ l, r.1 ≤ p ∧ p < r.1 + r.2 := by
  induction l generalizing s with
  | nil => simp only [Consec] at h; omega
  | cons q t ih =>
    have h1 := h.1
    by_cases hq : p < q.1 + q.2
    · exact ⟨q, by simp, by omega, hq⟩
    · obtain ⟨r, hr, h'⟩ := ih h.2.2 (by omega)
      exact ⟨r, by simp [hr], h'⟩

/-- Position `p` of a flattened list of blocks: with consecutive pieces whose lengths are the block lengths,
piece `i` starting at `a` has its block at `[a, a + length)`. -/
theorem flatten_getElem? {α : Type} {s e : Int} {rs : List (Int × Int)} {bs : List (List α)}
    (hc : Consec s rs e) (hlen : List.Forall₂ (fun r b => (b.length : Int) = r.2) rs bs)
    {i : Nat} {r : Int × Int} {b : List α} (hr : rs[i]? = some r) (hb : bs[i]? = some b)
    {j : Nat} (hj : j < b.length) :
    bs.flatten[(r.1 - s).toNat + j]? = b[j]? := by
  induction rs generalizing s bs i with
  | nil => simp at hr
  | cons q t ih =>
    cases bs with
    | nil => simp at hb
    | cons c cs =>
      obtain ⟨hqc, hlen'⟩ := List.forall₂_cons.mp hlen
      cases i with
      | zero =>
        simp only [List.getElem?_cons_zero, Option.some.injEq] at hr hb
        subst hr hb
        have : (q.1 - s).toNat = 0 := by have := hc.1; omega
        rw [this, List.flatten_cons, List.getElem?_append_left (by omega)]
        simp
      | succ i =>
        simp only [List.getElem?_cons_succ] at hr hb
        have h1 := ih hc.2.2 hlen' hr hb
        have hbd := Consec.bounds hc.2.2 (List.mem_of_getElem? hr)
        have hq2 := hc.2.1
        rw [List.flatten_cons, List.getElem?_append_right (by omega)]
        rw [show (r.1 - s).toNat + j - c.length = (r.1 - (s + q.2)).toNat + j by omega]
        exact h1

theorem flatten_length {α : Type} {s e : Int} {rs : List (Int × Int)} {bs : List (List α)}
    (hc : Consec s rs e) (hlen : List.Forall₂ (fun r b => (b.length : Int) = r.2) rs bs) :
    (bs.flatten.length : Int) = e - s := by
  induction rs generalizing s bs with
  | nil =>
    rw [List.forall₂_nil_left_iff] at hlen
    subst hlen
    simp only [Consec] at hc
    simp; omega
  | cons q t ih =>
    cases bs with
    | nil => cases hlen
    | cons c cs =>
      obtain ⟨hqc, hlen'⟩ := List.forall₂_cons.mp hlen
      have := ih hc.2.2 hlen'
      rw [List.flatten_cons, List.length_append]
      push_cast
      omega

/-- Slice of a list as `take`/`drop`, elementwise. -/
theorem slice_getElem? {α : Type} (l : List α) (a n j : Nat) (hj : j < n) :
    ((l.take (a + n)).drop a)[j]? = l[a + j]? := by
  rw [List.getElem?_drop, List.getElem?_take]
  simp [hj]

theorem slice_length {α : Type} (l : List α) (a n : Nat) (h : a + n ≤ l.length) :
    ((l.take (a + n)).drop a).length = n := by
  simp; omega

theorem slice_eq {α : Type} {l b : List α} {a : Nat} (h : a + b.length ≤ l.length)
    (hb : ∀ j, j < b.length → l[a + j]? = b[j]?) : (l.take (a + b.length)).drop a = b := by
  apply List.ext_getElem?
  intro j
  by_cases hj : j < b.length
  · rw [slice_getElem? _ _ _ _ hj, hb j hj]
  · rw [List.getElem?_eq_none (by rw [slice_length _ _ _ h]; omega), List.getElem?_eq_none (by omega)]

theorem readSlice_eq {α : Type} {l b : List α} {a : Nat} (hpos : 0 < b.length) (h : a + b.length ≤ l.length)
    (hb : ∀ j, j < b.length → l[a + j]? = b[j]?) :
    readSlice l (a : Int) ((a : Int) + (b.length : Int)) = .ok b := by
  unfold readSlice
  rw [if_neg (by omega), if_neg (by omega)]
  congr 1
  have := slice_eq h hb
  rw [show ((a : Int) + (b.length : Int)).toNat = a + b.length by omega]
  simpa using this

theorem overwrite_ok {α : Type} {buf xs buf' : List α} {s : Int} (h : overwrite buf s xs = .ok buf') :
    0 ≤ s ∧ s + xs.length ≤ buf.length ∧ buf'.length = buf.length ∧
    ∀ p : Nat, buf'[p]? = if s.toNat ≤ p ∧ p < s.toNat + xs.length then xs[p - s.toNat]? else buf[p]? := by
  unfold overwrite at h
  split at h
  · rename_i hh
    injection h with h
    subst h
    refine ⟨hh.1, hh.2, ?_, ?_⟩
    · simp; omega
    · intro p
      by_cases h1 : p < s.toNat
      · rw [if_neg (by omega), List.append_assoc, List.getElem?_append_left (by simp; omega), List.getElem?_take, if_pos h1]
      · by_cases h2 : p < s.toNat + xs.length
        · rw [if_pos (by omega), List.append_assoc, List.getElem?_append_right (by simp; omega),
            List.getElem?_append_left (by simp; omega)]
          congr 1
          simp; omega
        · rw [if_neg (by omega), List.getElem?_append_right (by simp; omega), List.getElem?_drop]
          congr 1
          simp; omega
  · cases h

theorem overwrite_isOk {α : Type} {buf xs : List α} {s : Int} (h0 : 0 ≤ s) (h1 : s + xs.length ≤ buf.length) :
    ∃ buf', overwrite buf s xs = .ok buf' := by
  unfold overwrite
  rw [if_pos ⟨h0, h1⟩]
  exact ⟨_, rfl⟩

/-- Pieces agree with a target buffer. -/
def AgreesWith {α : Type} (T : List α) (s : Int) (xs : List α) : Prop :=
  ∀ j, j < xs.length → T[s.toNat + j]? = xs[j]?

/-- Every pixel of `buf` is either the reserved fill or the final value in `T`. -/
def Partial {α : Type} (z : α) (T buf : List α) : Prop :=
  buf.length = T.length ∧ ∀ p, p < T.length → buf[p]? = some z ∨ buf[p]? = T[p]?

theorem Partial.refl {α : Type} (z : α) (T : List α) : Partial z T T := ⟨rfl, fun _ _ => .inr rfl⟩

theorem Partial.replicate {α : Type} (z : α) (T : List α) (n : Nat) (h : n = T.length) :
    Partial z T (List.replicate n z) := by
  refine ⟨by simp [h], fun p hp => .inl ?_⟩
  rw [List.getElem?_replicate, if_pos (by omega)]

theorem Partial.overwrite {α : Type} {z : α} {T buf xs buf' : List α} {s : Int} (hp : Partial z T buf)
    (ha : AgreesWith T s xs) (h : overwrite buf s xs = .ok buf') : Partial z T buf' := by
  obtain ⟨h0, h1, hl, hv⟩ := overwrite_ok h
  refine ⟨by rw [hl, hp.1], fun p hp' => ?_⟩
  rw [hv p]
  split
  · rename_i hh
    right
    have := ha (p - s.toNat) (by omega)
    rw [← this]
    congr 1; omega
  · exact hp.2 p hp'

/-- Once a position has its final value it keeps it. -/
theorem final_mono {α : Type} {T buf xs buf' : List α} {s : Int}
    (ha : AgreesWith T s xs) (h : overwrite buf s xs = .ok buf') {p : Nat} (hp : buf[p]? = T[p]?) :
    buf'[p]? = T[p]? := by
  obtain ⟨_, _, _, hv⟩ := overwrite_ok h
  rw [hv p]
  split
  · rename_i hh
    have := ha (p - s.toNat) (by omega)
    rw [← this]
    congr 1; omega
  · exact hp

theorem final_new {α : Type} {T buf xs buf' : List α} {s : Int}
    (ha : AgreesWith T s xs) (h : overwrite buf s xs = .ok buf') {p : Nat}
    (hp : s.toNat ≤ p) (hp' : p < s.toNat + xs.length) : buf'[p]? = T[p]? := by
  obtain ⟨_, _, _, hv⟩ := overwrite_ok h
  rw [hv p, if_pos ⟨hp, hp'⟩]
  have := ha (p - s.toNat) (by omega)
  rw [← this]
  congr 1; omega

end Meds
