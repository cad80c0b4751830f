import Verif.Spec.Contig
import Verif.Lemmas.Extract
import Mathlib.Algebra.BigOperators.Group.List.Basic
import Mathlib.Algebra.Order.BigOperators.Group.List

/-! Lemmas on the number extractor: merged ranges, and storage of the chosen objects one behind the other. -/

namespace Meds
namespace Extract
open Spec

/-- Pixels `a .. b`, as a total function. -/
def cut {α : Type} (pix : List α) (a b : Int) : List α := (pix.take b.toNat).drop a.toNat

theorem cut_append {α : Type} (pix : List α) {a m b : Int} (h0 : 0 ≤ a) (h1 : a ≤ m) (h2 : m ≤ b) : cut pix a m ++ cut pix m b = cut pix a b := by
  unfold cut
  rw [List.drop_take, List.drop_take, List.drop_take]
  have e : m.toNat = a.toNat + (m.toNat - a.toNat) := by omega
  have e2 : b.toNat - a.toNat = (m.toNat - a.toNat) + (b.toNat - m.toNat) := by omega
  rw [e2, List.take_add, List.drop_drop, ← e]

theorem cut_length {α : Type} (pix : List α) {a b : Int} (h0 : 0 ≤ a) (h1 : a ≤ b) (h2 : b ≤ pix.length) :
    ((cut pix a b).length : Int) = b - a := by
  unfold cut
  rw [List.length_drop, List.length_take]
  omega

theorem cut_self {α : Type} (pix : List α) (a : Int) : cut pix a a = [] := by
  unfold cut
  rw [List.drop_eq_nil_iff, List.length_take]
  omega

theorem readSlice_cut {α : Type} {pix l : List α} {a b : Int} (h : readSlice pix a b = .ok l) : l = cut pix a b := by
  unfold readSlice at h
  split at h
  · cases h
  split at h
  · cases h
  injection h with h
  exact h.symm

/-- All the pixels of some ranges. -/
def cutAll (pix : List ℚ) (rs : List (Int × Int)) : List ℚ := (rs.map (fun r => cut pix r.1 r.2)).flatten

theorem cutAll_append (pix : List ℚ) (a b : List (Int × Int)) : cutAll pix (a ++ b) = cutAll pix a ++ cutAll pix b := by
  simp [cutAll]

/-- Merging back-to-back ranges does not change the pixels. -/
theorem pushRange_cut (pix : List ℚ) {acc : List (Int × Int)} {r : Int × Int} (hacc : ∀ x ∈ acc, 0 ≤ x.1 ∧ x.1 ≤ x.2) (hr : 0 ≤ r.1 ∧ r.1 ≤ r.2) :
    cutAll pix (pushRange acc r).reverse = cutAll pix acc.reverse ++ cut pix r.1 r.2 ∧
    ∀ x ∈ pushRange acc r, 0 ≤ x.1 ∧ x.1 ≤ x.2 := by
  cases acc with
  | nil =>
    constructor
    · simp [pushRange, cutAll]
    · intro x hx
      simp only [pushRange, List.mem_cons, List.not_mem_nil, or_false] at hx
      subst hx; exact hr
  | cons l ls =>
    unfold pushRange
    dsimp only
    have hl := hacc l List.mem_cons_self
    by_cases h : r.1 ≠ l.2
    · rw [if_pos h]
      constructor
      · simp [cutAll]
      · intro x hx
        rcases List.mem_cons.mp hx with rfl | hx
        · exact hr
        · exact hacc x hx
    · rw [if_neg h]
      simp only [ne_eq, not_not] at h
      constructor
      · simp only [List.reverse_cons, cutAll_append, List.append_assoc]
        congr 1
        simp only [cutAll, List.map_cons, List.map_nil, List.flatten_cons, List.flatten_nil, List.append_nil]
        rw [h, cut_append pix hl.1 hl.2 (by omega)]
      · intro x hx
        rcases List.mem_cons.mp hx with rfl | hx
        · dsimp only; omega
        · exact hacc x (List.mem_cons_of_mem _ hx)

theorem foldl_pushRange_cut (pix : List ℚ) {rs : List (Int × Int)} (hrs : ∀ x ∈ rs, 0 ≤ x.1 ∧ x.1 ≤ x.2) :
    ∀ acc : List (Int × Int), (∀ x ∈ acc, 0 ≤ x.1 ∧ x.1 ≤ x.2) →
      cutAll pix (rs.foldl pushRange acc).reverse = cutAll pix acc.reverse ++ cutAll pix rs := by
  induction rs with
  | nil => intro acc _; simp [cutAll]
  | cons r t ih =>
    intro acc hacc
    obtain ⟨e1, e2⟩ := pushRange_cut pix hacc (hrs r List.mem_cons_self)
    rw [List.foldl_cons, ih (fun x hx => hrs x (List.mem_cons_of_mem _ hx)) _ e2, e1]
    simp [cutAll]

theorem pushRange_start {acc : List (Int × Int)} {r : Int × Int} (h : acc ≠ []) :
    pushRange acc r ≠ [] ∧ (pushRange acc r).getLast?.map (·.1) = acc.getLast?.map (·.1) := by
  cases acc with
  | nil => exact absurd rfl h
  | cons l ls =>
    unfold pushRange
    dsimp only
    split
    · exact ⟨by simp, by simp [List.getLast?_cons]⟩
    · refine ⟨by simp, ?_⟩
      cases ls with
      | nil => rfl
      | cons x t => simp [List.getLast?_cons]

theorem foldl_pushRange_start : ∀ (rs acc : List (Int × Int)), acc ≠ [] →
    rs.foldl pushRange acc ≠ [] ∧ (rs.foldl pushRange acc).getLast?.map (·.1) = acc.getLast?.map (·.1) := by
  intro rs
  induction rs with
  | nil => intro acc h; exact ⟨h, rfl⟩
  | cons r t ih =>
    intro acc h
    obtain ⟨e1, e2⟩ := pushRange_start (r := r) h
    obtain ⟨e3, e4⟩ := ih _ e1
    exact ⟨e3, e4.trans e2⟩

/-- The first merged range starts where the first range starts. -/
theorem merged_firstStart (r : Int × Int) (rs : List (Int × Int)) : firstStart ((r :: rs).foldl pushRange []).reverse = r.1 ∧
    ((r :: rs).foldl pushRange []).reverse ≠ [] := by
  rw [List.foldl_cons]
  have : pushRange [] r = [r] := rfl
  rw [this]
  obtain ⟨e1, e2⟩ := foldl_pushRange_start rs [r] (by simp)
  refine ⟨?_, by simpa using e1⟩
  rw [← List.head?_reverse] at e2
  cases hc : (rs.foldl pushRange [r]).reverse with
  | nil => simp at hc; exact absurd hc e1
  | cons x t =>
    rw [hc] at e2
    simpa [firstStart] using e2

theorem dataFromRanges_ok {f : Fits} {n : String} {rs : List (Int × Int)} {p : List ℚ} (hne : rs ≠ []) (h : dataFromRanges f n rs = .ok p) :
    ∃ pix, f.find n = some (.image pix) ∧ p = cutAll pix rs := by
  unfold dataFromRanges at h
  obtain ⟨parts, hp, h'⟩ := Res.bind_eq_ok.mp h
  injection h' with h'
  obtain ⟨pix, hpix⟩ : ∃ pix, f.find n = some (.image pix) := by
    cases rs with
    | nil => exact absurd rfl hne
    | cons r t =>
      have := mapRes_ok_iff.mp hp
      obtain ⟨y, ys, h1, _, _⟩ := List.forall₂_cons_left_iff.mp this
      unfold Fits.imageSlice at h1
      split at h1
      · exact ⟨_, by assumption⟩
      · cases h1
  refine ⟨pix, hpix, ?_⟩
  have h2 := mapRes_ok_iff.mp hp
  have : parts = rs.map (fun r => cut pix r.1 r.2) := by
    clear h h' hne hp
    induction h2 with
    | nil => rfl
    | cons h1 _ ih =>
      rw [List.map_cons, ← ih]
      congr 1
      unfold Fits.imageSlice at h1
      rw [hpix] at h1
      exact readSlice_cut h1
  rw [← h', this]
  rfl

/-! ### Pieces one behind the other -/

/-- Total length of the first `i` pieces. -/
def sumTo (len : ObjRow → Int) (rows : List ObjRow) (i : Nat) : Int := ((rows.take i).map len).sum

theorem sumTo_zero (len : ObjRow → Int) (rows : List ObjRow) : sumTo len rows 0 = 0 := by simp [sumTo]

theorem sumTo_cons (len : ObjRow → Int) (o : ObjRow) (rows : List ObjRow) (i : Nat) :
    sumTo len (o :: rows) (i + 1) = len o + sumTo len rows i := by simp [sumTo]

theorem flatten_length {piece : ObjRow → List ℚ} {len : ObjRow → Int} {rows : List ObjRow} (h : ∀ o ∈ rows, ((piece o).length : Int) = len o) (i : Nat) :
    ((((rows.take i).map piece).flatten).length : Int) = sumTo len rows i := by
  induction rows generalizing i with
  | nil => simp [sumTo]
  | cons o t ih =>
    cases i with
    | zero => simp [sumTo]
    | succ i =>
      rw [sumTo_cons, List.take_succ_cons, List.map_cons, List.flatten_cons, List.length_append]
      push_cast
      rw [h o List.mem_cons_self, ih (fun o ho => h o (List.mem_cons_of_mem _ ho))]

/-- Reading inside one piece of a concatenation. -/
theorem readSlice_flatten {piece : ObjRow → List ℚ} {len : ObjRow → Int} {rows : List ObjRow}
    (h : ∀ o ∈ rows, ((piece o).length : Int) = len o) {i : Nat} {o : ObjRow} (hi : rows[i]? = some o) {u v : Int} (hu : 0 ≤ u) (hv : v ≤ len o) :
    readSlice ((rows.map piece).flatten) (sumTo len rows i + u) (sumTo len rows i + v) = readSlice (piece o) u v := by
  have hl := flatten_length h i
  have hil : i < rows.length := (List.getElem?_eq_some_iff.mp hi).1
  have hsplit : (rows.map piece).flatten = ((rows.take i).map piece).flatten ++ (piece o ++ ((rows.drop (i + 1)).map piece).flatten) := by
    conv_lhs => rw [← List.take_append_drop i rows, List.drop_eq_getElem_cons hil]
    have : rows[i] = o := (List.getElem?_eq_some_iff.mp hi).2
    simp [this]
  rw [hsplit, ← hl]
  generalize ((rows.take i).map piece).flatten = A
  generalize ((rows.drop (i + 1)).map piece).flatten = B
  have hlo := h o (List.mem_of_getElem? hi)
  unfold readSlice
  rw [if_neg (show ¬ ((A.length : Int) + u < 0) by omega), if_neg (show ¬ u < 0 by omega)]
  by_cases hle : v ≤ u
  · rw [if_pos (by omega), if_pos hle]
  · rw [if_neg (by omega), if_neg hle]
    congr 1
    rw [show ((A.length : Int) + v).toNat = A.length + v.toNat by omega, show ((A.length : Int) + u).toNat = A.length + u.toNat by omega,
      List.take_length_add_append, List.drop_length_add_append, List.take_append_of_le_length (by omega)]

theorem readSlice_of_cut (pix : List ℚ) {a b u v : Int} (ha : 0 ≤ a) (hu : 0 ≤ u) (hv : v ≤ b - a) :
    readSlice (cut pix a b) u v = readSlice pix (a + u) (a + v) := by
  by_cases hlt : a < b
  · have h : readSlice pix a b = .ok (cut pix a b) := by
      unfold readSlice
      rw [if_neg (by omega), if_neg (by omega)]
      rfl
    have := readSlice_shift h (x := a + u) (y := a + v) (by omega) (by omega)
    rw [← this]
    congr 1 <;> ring
  · unfold readSlice
    rw [if_neg (show ¬ u < 0 by omega), if_neg (show ¬ a + u < 0 by omega), if_pos (show v ≤ u by omega), if_pos (show a + v ≤ a + u by omega)]

/-! ### New start rows -/

theorem relaySlots_ok {npix : Int} : ∀ {n : Nat} {loc : Int} {ss : List Slot} {r : List Slot × Int}, relaySlots npix n loc ss = .ok r →
    r.2 = loc + n * npix ∧ n ≤ ss.length ∧
    List.Forall₂ (fun s s' : Slot => s' = { s with startRow := s'.startRow }) ss r.1 ∧
    ∀ (k : Nat) (s' : Slot), k < n → r.1[k]? = some s' → s'.startRow = loc + k * npix := by
  intro n
  induction n with
  | zero =>
    intro loc ss r h
    injection h with h
    subst h
    exact ⟨by simp, by simp, List.forall₂_same.mpr (fun _ _ => rfl), fun k _ hk => by omega⟩
  | succ n ih =>
    intro loc ss r h
    cases ss with
    | nil => cases h
    | cons s t =>
      unfold relaySlots at h
      obtain ⟨q, hq, h⟩ := Res.bind_eq_ok.mp h
      injection h with h
      subst h
      obtain ⟨h1, h2, h3, h4⟩ := ih hq
      refine ⟨by rw [h1]; push_cast; ring, by simp; omega, List.Forall₂.cons rfl h3, ?_⟩
      intro k s' hk hs
      cases k with
      | zero =>
        simp only [List.getElem?_cons_zero, Option.some.injEq] at hs
        rw [← hs]; simp
      | succ k =>
        rw [List.getElem?_cons_succ] at hs
        rw [h4 k s' (by omega) hs]; push_cast; ring

/-- Row `o'` is row `o` with new start rows, the first at `loc`. -/
structure Relaid (loc : Int) (o o' : ObjRow) : Prop where
  rest : ∃ ss, o' = { o with slots := ss } ∧ List.Forall₂ (fun s s' : Slot => s' = { s with startRow := s'.startRow }) o.slots ss
  start : ∀ (k : Nat) (s' : Slot), (k : Int) < o.ncutout → o'.slots[k]? = some s' → s'.startRow = loc + k * o.boxSize ^ 2

theorem relay_ok : ∀ {rows : List ObjRow} {loc : Int} {rows' : List ObjRow}, relay loc rows = .ok rows' →
    rows'.length = rows.length ∧ ∀ (i : Nat) (o o' : ObjRow), rows[i]? = some o → rows'[i]? = some o' →
      Relaid (loc + sumTo (fun o => o.ncutout.toNat * o.boxSize ^ 2) rows i) o o' := by
  intro rows
  induction rows with
  | nil =>
    intro loc rows' h
    injection h with h
    subst h
    exact ⟨rfl, fun i o o' h => by cases h⟩
  | cons x t ih =>
    intro loc rows' h
    unfold relay at h
    obtain ⟨r, hr, h⟩ := Res.bind_eq_ok.mp h
    obtain ⟨rest, hrest, h⟩ := Res.bind_eq_ok.mp h
    injection h with h
    subst h
    obtain ⟨h1, h2, h3, h4⟩ := relaySlots_ok hr
    obtain ⟨e1, e2⟩ := ih hrest
    refine ⟨by simp [e1], ?_⟩
    intro i o o' ho ho'
    cases i with
    | zero =>
      simp only [List.getElem?_cons_zero, Option.some.injEq] at ho ho'
      subst ho ho'
      refine ⟨⟨_, rfl, h3⟩, ?_⟩
      intro k s' hk hs
      rw [sumTo_zero, h4 k s' (by omega) hs]; ring
    | succ i =>
      rw [List.getElem?_cons_succ] at ho ho'
      have := e2 i o o' ho ho'
      rw [sumTo_cons, h1] at *
      rw [← add_assoc]
      exact this

theorem psfSum_zero (ss : List Slot) : psfSum ss 0 = 0 := by simp [psfSum]
theorem psfSum_cons (s : Slot) (ss : List Slot) (k : Nat) : psfSum (s :: ss) (k + 1) = s.psfRowSize * s.psfColSize + psfSum ss k := by simp [psfSum]

theorem psfSum_succ {ss : List Slot} {k : Nat} {s : Slot} (h : ss[k]? = some s) : psfSum ss (k + 1) = psfSum ss k + s.psfRowSize * s.psfColSize := by
  induction ss generalizing k with
  | nil => cases h
  | cons x t ih =>
    cases k with
    | zero =>
      simp only [List.getElem?_cons_zero, Option.some.injEq] at h
      subst h
      simp [psfSum]
    | succ k =>
      rw [List.getElem?_cons_succ] at h
      rw [psfSum_cons, psfSum_cons, ih h]; ring

theorem relayPsfSlots_ok : ∀ {n : Nat} {loc : Int} {ss : List Slot} {r : List Slot × Int}, relayPsfSlots n loc ss = .ok r →
    r.2 = loc + psfSum ss n ∧ n ≤ ss.length ∧
    List.Forall₂ (fun s s' : Slot => s' = { s with psfStartRow := s'.psfStartRow }) ss r.1 ∧
    ∀ (k : Nat) (s' : Slot), k < n → r.1[k]? = some s' → s'.psfStartRow = loc + psfSum ss k := by
  intro n
  induction n with
  | zero =>
    intro loc ss r h
    injection h with h
    subst h
    exact ⟨by simp [psfSum], by simp, List.forall₂_same.mpr (fun _ _ => rfl), fun k _ hk => by omega⟩
  | succ n ih =>
    intro loc ss r h
    cases ss with
    | nil => cases h
    | cons s t =>
      unfold relayPsfSlots at h
      obtain ⟨q, hq, h⟩ := Res.bind_eq_ok.mp h
      injection h with h
      subst h
      obtain ⟨h1, h2, h3, h4⟩ := ih hq
      refine ⟨by rw [h1, psfSum_cons]; ring, by simp; omega, List.Forall₂.cons rfl h3, ?_⟩
      intro k s' hk hs
      cases k with
      | zero =>
        simp only [List.getElem?_cons_zero, Option.some.injEq] at hs
        rw [← hs]; simp [psfSum]
      | succ k =>
        rw [List.getElem?_cons_succ] at hs
        rw [h4 k s' (by omega) hs, psfSum_cons]; ring

/-- Row `o'` is row `o` with new PSF start rows, the first at `loc`. -/
structure RelaidPsf (loc : Int) (o o' : ObjRow) : Prop where
  rest : ∃ ss, o' = { o with slots := ss } ∧ List.Forall₂ (fun s s' : Slot => s' = { s with psfStartRow := s'.psfStartRow }) o.slots ss
  start : ∀ (k : Nat) (s' : Slot), (k : Int) < o.ncutout → o'.slots[k]? = some s' → s'.psfStartRow = loc + psfSum o.slots k

theorem relayPsf_ok : ∀ {rows : List ObjRow} {loc : Int} {rows' : List ObjRow}, relayPsf loc rows = .ok rows' →
    rows'.length = rows.length ∧ ∀ (i : Nat) (o o' : ObjRow), rows[i]? = some o → rows'[i]? = some o' →
      RelaidPsf (loc + sumTo (fun o => psfSum o.slots o.ncutout.toNat) rows i) o o' := by
  intro rows
  induction rows with
  | nil =>
    intro loc rows' h
    injection h with h
    subst h
    exact ⟨rfl, fun i o o' h => by cases h⟩
  | cons x t ih =>
    intro loc rows' h
    unfold relayPsf at h
    obtain ⟨r, hr, h⟩ := Res.bind_eq_ok.mp h
    obtain ⟨rest, hrest, h⟩ := Res.bind_eq_ok.mp h
    injection h with h
    subst h
    obtain ⟨h1, h2, h3, h4⟩ := relayPsfSlots_ok hr
    obtain ⟨e1, e2⟩ := ih hrest
    refine ⟨by simp [e1], ?_⟩
    intro i o o' ho ho'
    cases i with
    | zero =>
      simp only [List.getElem?_cons_zero, Option.some.injEq] at ho ho'
      subst ho ho'
      refine ⟨⟨_, rfl, h3⟩, ?_⟩
      intro k s' hk hs
      rw [sumTo_zero, h4 k s' (by omega) hs]; ring
    | succ i =>
      rw [List.getElem?_cons_succ] at ho ho'
      have := e2 i o o' ho ho'
      rw [sumTo_cons, h1] at *
      rw [← add_assoc]
      exact this

end Extract
end Meds
