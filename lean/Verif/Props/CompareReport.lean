import Verif.Model.CompareReport
import Verif.Props.CompareScript
import Mathlib.Algebra.Order.BigOperators.Group.List
import Mathlib.Tactic.FieldSimp
import Mathlib.Tactic.Linarith

/-!
# What a comparison prints (C101)
-/

namespace Meds.Spec
open Meds.Compare

/-- Two numbers that `numpy.allclose` counts as equal: finite and near, relative to the second, or the same infinity. -/
def Close : Flt → Flt → Prop
  | .num a, .num b => |a - b| ≤ 1 / 10 ^ 8 + 1 / 10 ^ 5 * |b|
  | .inf s, .inf t => s = t
  | _, _ => False

/-- Two weights within the tolerance: both finite numbers, less than 1e-4 apart. -/
def WeightAgrees (a b : Flt) : Prop := ∃ x y, a = .num x ∧ b = .num y ∧ |x - y| < 1 / 10000

/-- Both objects have an epoch `k`. -/
def BothHave (m1 m2 : MEDS) (i1 i2 k : Nat) : Prop := ∃ n1 n2, HasNcutout m1 i1 n1 ∧ HasNcutout m2 i2 n2 ∧ (k : Int) < n1 ∧ (k : Int) < n2

end Meds.Spec

namespace Meds.Compare
open Spec

theorem isclose_iff (a b : Flt) : a.isclose b = true ↔ Close a b := by
  cases a <;> cases b <;> simp [Flt.isclose, Close]

theorem absLt_sub_iff (a b : Flt) : (a.sub b).absLt (1 / 10000) = true ↔ WeightAgrees a b := by
  unfold WeightAgrees
  rcases a with _ | _ | s <;> rcases b with _ | _ | t <;> simp [Flt.sub, Flt.absLt]
  by_cases h : s = t <;> simp [h]

theorem sameShapeF_eq {im1 im2 : Img Flt} (hr : im1.nr = im2.nr) (hc : im1.nc = im2.nc) : sameShapeF im1 im2 = .ok () := by
  unfold sameShapeF
  rw [if_neg (by simp [hr, hc])]

theorem mapM_num (l : List ℚ) : (l.map Flt.num).mapM Flt.num? = some l := by
  induction l with
  | nil => rfl
  | cons a l ih => simp [List.mapM_cons, Flt.num?, ih]

theorem mapM_none {l : List Flt} {x : Flt} (hx : x ∈ l) (h : x.num? = none) : l.mapM Flt.num? = none := by
  induction l with
  | nil => cases hx
  | cons a l ih =>
    rw [List.mapM_cons]
    rcases List.mem_cons.mp hx with rfl | hx
    · rw [h]; rfl
    · rw [ih hx]
      cases a.num? <;> rfl

theorem diffs_num (a b : Img ℚ) : diffs (a.map Flt.num) (b.map Flt.num) = (List.zipWith (· - ·) a.flat b.flat).map Flt.num := by
  unfold diffs Img.map
  simp only
  generalize a.flat = l
  generalize b.flat = l'
  induction l generalizing l' with
  | nil => simp
  | cons x l ih =>
    cases l' with
    | nil => simp
    | cons y l' => simp [Flt.sub, ih]

theorem sum_sq_dev (l : List ℚ) (m : ℚ) : (l.map (fun x => (x - m) ^ 2)).sum = (l.map (fun x => x * x)).sum - 2 * m * l.sum + l.length * m ^ 2 := by
  induction l with
  | nil => simp
  | cons a l ih =>
    simp only [List.map_cons, List.sum_cons, ih, List.length_cons]
    push_cast
    ring

/-- The two ways to write the variance. -/
theorem var_eq (l : List ℚ) : (l.map (fun x => (x - l.sum / (l.length : ℚ)) ^ 2)).sum / (l.length : ℚ) =
    (l.map (fun x => x * x)).sum / l.length - (l.sum / l.length) * (l.sum / l.length) := by
  rcases Nat.eq_zero_or_pos l.length with h | h
  · simp [h]
  have hn : (l.length : ℚ) ≠ 0 := by exact_mod_cast h.ne'
  rw [sum_sq_dev]
  field_simp
  ring

theorem stdAbove_num {tol : ℚ} {l : List ℚ} (ht : 0 ≤ tol) : stdAbove tol (l.map Flt.num) = true ↔
    tol ^ 2 < (l.map (fun x => x * x)).sum / l.length - (l.sum / l.length) * (l.sum / l.length) := by
  unfold stdAbove
  rw [mapM_num]
  simp only [Bool.and_eq_true, decide_eq_true_eq]
  rw [var_eq]
  constructor
  · rintro ⟨_, h | h⟩
    · linarith
    · exact h
  · intro h
    refine ⟨?_, .inr h⟩
    rintro rfl
    simp at h
    nlinarith [sq_nonneg tol]

theorem map_shape {a b : Img ℚ} (hr : a.nr = b.nr) (hc : a.nc = b.nc) : sameShapeF (a.map Flt.num) (b.map Flt.num) = .ok () := sameShapeF_eq hr hc

/-- **C101** Two images of finite pixels: the message is printed exactly when the variance of the difference is above the square of the tolerance. -/
theorem C101_image_partial {tol : ℚ} (ht : 0 ≤ tol) {a b : Img ℚ} (hr : a.nr = b.nr) (hc : a.nc = b.nc) :
    ∃ bad, imageOff tol (a.map Flt.num) (b.map Flt.num) = .ok bad ∧ (bad = true ↔ tol ^ 2 < diffVar a b) := by
  refine ⟨stdAbove tol (diffs (a.map Flt.num) (b.map Flt.num)), ?_, ?_⟩
  · unfold imageOff
    rw [map_shape hr hc]
    rfl
  · rw [diffs_num, stdAbove_num ht]
    rfl

/-- **C101** Without a message no pixel of the difference is further from the mean difference than the tolerance times the square root of the number of pixels. -/
theorem C101_silent_bound {tol : ℚ} (ht : 0 ≤ tol) {a b : Img ℚ} (h : imageOff tol (a.map Flt.num) (b.map Flt.num) = .ok false)
    {d : ℚ} (hd : d ∈ List.zipWith (· - ·) a.flat b.flat) :
    (d - (List.zipWith (· - ·) a.flat b.flat).sum / ((List.zipWith (· - ·) a.flat b.flat).length : ℚ)) ^ 2 ≤
      ((List.zipWith (· - ·) a.flat b.flat).length : ℚ) * tol ^ 2 := by
  unfold imageOff at h
  obtain ⟨_, _, h⟩ := Res.bind_eq_ok.mp h
  injection h with h
  rw [diffs_num] at h
  generalize List.zipWith (· - ·) a.flat b.flat = l at *
  have h' : ¬ tol ^ 2 < (l.map (fun x => x * x)).sum / l.length - (l.sum / l.length) * (l.sum / l.length) := by
    rw [← stdAbove_num ht, h]
    decide
  rw [← var_eq, not_lt] at h'
  have hpos : (0 : ℚ) < l.length := by exact_mod_cast List.length_pos_of_mem hd
  rw [div_le_iff₀ hpos] at h'
  have hle : (d - l.sum / (l.length : ℚ)) ^ 2 ≤ (l.map (fun x => (x - l.sum / (l.length : ℚ)) ^ 2)).sum := by
    refine List.single_le_sum ?_ _ (List.mem_map.mpr ⟨d, hd, rfl⟩)
    intro x hx
    obtain ⟨y, _, rfl⟩ := List.mem_map.mp hx
    exact sq_nonneg _
  linarith

/-- **C101** An image and the same image with any constant added: never a message. -/
theorem C101_offset_silent {tol : ℚ} (ht : 0 ≤ tol) (a : Img ℚ) (c : ℚ) : imageOff tol (a.map Flt.num) ((a.map (· + c)).map Flt.num) = .ok false := by
  obtain ⟨bad, h1, h2⟩ := C101_image_partial (a := a) (b := a.map (· + c)) ht rfl rfl
  rw [h1]
  cases bad with
  | false => rfl
  | true =>
    exfalso
    have h := h2.mp rfl
    have e : List.zipWith (· - ·) a.flat (a.map (· + c)).flat = List.replicate a.flat.length (-c) := by
      unfold Img.map
      simp only
      generalize a.flat = l
      induction l with
      | nil => rfl
      | cons x l ih => simp [List.replicate_succ, ih]
    unfold diffVar at h
    rw [e] at h
    simp only [List.map_replicate, List.sum_replicate, List.length_replicate, nsmul_eq_mul] at h
    rcases Nat.eq_zero_or_pos a.flat.length with h0 | h0
    · rw [h0] at h
      simp at h
      nlinarith [sq_nonneg tol]
    · have hn : (a.flat.length : ℚ) ≠ 0 := by exact_mod_cast h0.ne'
      field_simp at h
      nlinarith [sq_nonneg tol]

theorem diffs_getElem? {a b : Img Flt} {p : Nat} {x y : Flt} (hx : a.flat[p]? = some x) (hy : b.flat[p]? = some y) : x.sub y ∈ diffs a b := by
  refine List.mem_of_getElem? (i := p) ?_
  unfold diffs
  rw [List.getElem?_zipWith, hx, hy]

theorem get?_flat {a : Img Flt} {i j : Nat} {x : Flt} (h : a.get? i j = some x) : a.flat[i * a.nc + j]? = some x := by
  unfold Img.get? at h
  split at h
  · exact h
  · cases h

/-- **C101** One pixel that is not a finite number, in either image, and no message about the image is printed, whatever the other pixels are. -/
theorem C101_nonfinite_silent {tol : ℚ} {a b : Img Flt} (hr : a.nr = b.nr) (hc : a.nc = b.nc) {i j : Nat} {x y : Flt}
    (hx : a.get? i j = some x) (hy : b.get? i j = some y) (hn : x.num? = none ∨ y.num? = none) : imageOff tol a b = .ok false := by
  unfold imageOff
  rw [sameShapeF_eq hr hc]
  simp only [Res.ok_bind]
  have hy' := get?_flat hy
  rw [← hc] at hy'
  have hm := diffs_getElem? (get?_flat hx) hy'
  unfold stdAbove
  rw [mapM_none hm]
  rcases x with _ | _ | s <;> rcases y with _ | _ | t <;> simp [Flt.num?, Flt.sub] at hn ⊢
  by_cases h : s = t <;> simp [h]

/-- **C101** Weights: a message is printed exactly when some pixel differs by 1e-4 or more or is not a finite number, with the number of these pixels. -/
theorem C101_weights {a b : Img Flt} (ha : a.WF) (hr : a.nr = b.nr) (hc : a.nc = b.nc) :
    ∃ n, weightsOff a b = .ok n ∧ (0 < n ↔ ∃ i j x y, a.get? i j = some x ∧ b.get? i j = some y ∧ ¬ WeightAgrees x y) ∧
      ∃ ps : List (Nat × Nat), ps.Nodup ∧ n = ps.length ∧ ∀ i j, (i, j) ∈ ps ↔ ∃ x y, a.get? i j = some x ∧ b.get? i j = some y ∧ ¬ WeightAgrees x y := by
  have hw : a.flat.length = a.nr * a.nc := ha
  have key : ∃ ps : List (Nat × Nat), ps.Nodup ∧ ((diffs a b).filter (fun d => !d.absLt (1 / 10000))).length = ps.length ∧
      ∀ i j, (i, j) ∈ ps ↔ ∃ x y, a.get? i j = some x ∧ b.get? i j = some y ∧ ¬ WeightAgrees x y := by
    refine ⟨((List.range (diffs a b).length).filter (fun k => !((diffs a b)[k]?.getD .nan).absLt (1 / 10000))).map (fun k => (k / a.nc, k % a.nc)), ?_, ?_, ?_⟩
    · refine List.Nodup.map_on ?_ (List.nodup_range.filter _)
      intro x _ y _ hxy
      injection hxy with h1 h2
      rw [← Nat.div_add_mod x a.nc, ← Nat.div_add_mod y a.nc, h1, h2]
    · rw [List.length_map]
      have : diffs a b = (List.range (diffs a b).length).map (fun k => (diffs a b)[k]?.getD .nan) := by
        apply List.ext_getElem?
        intro i
        rw [List.getElem?_map]
        by_cases hi : i < (diffs a b).length
        · rw [List.getElem?_range hi]; simp [hi]
        · rw [List.getElem?_eq_none (by simpa using hi), List.getElem?_eq_none (by simpa using hi)]; rfl
      conv_lhs => rw [this, List.filter_map, List.length_map]
      rfl
    · intro i j
      rw [List.mem_map]
      constructor
      · rintro ⟨p, hp, e⟩
        injection e with e1 e2
        obtain ⟨hp, hbad⟩ := List.mem_filter.mp hp
        rw [List.mem_range] at hp
        obtain ⟨d, hd⟩ : ∃ d, (diffs a b)[p]? = some d := ⟨_, List.getElem?_eq_getElem hp⟩
        rw [hd] at hbad
        unfold diffs at hd
        rw [List.getElem?_zipWith_eq_some] at hd
        obtain ⟨x, y, hx, hy, rfl⟩ := hd
        have hlt := (List.getElem?_eq_some_iff.mp hx).1
        have hpos : 0 < a.nc := by
          rcases Nat.eq_zero_or_pos a.nc with h | h
          · rw [h] at hw; omega
          · exact h
        have hi : p / a.nc < a.nr := by
          rw [Nat.div_lt_iff_lt_mul hpos]; omega
        have hj : p % a.nc < a.nc := Nat.mod_lt _ hpos
        have hpe : p / a.nc * a.nc + p % a.nc = p := by rw [Nat.mul_comm]; exact Nat.div_add_mod p a.nc
        refine ⟨x, y, ?_, ?_, ?_⟩
        · unfold Img.get?
          rw [← e1, ← e2, if_pos ⟨hi, hj⟩, hpe, hx]
        · unfold Img.get?
          rw [← e1, ← e2, ← hr, ← hc, if_pos ⟨hi, hj⟩, hpe, hy]
        · rw [← absLt_sub_iff]
          simpa using hbad
      · rintro ⟨x, y, hx, hy, hn⟩
        have hy' := get?_flat hy
        rw [← hc] at hy'
        have hd : (diffs a b)[i * a.nc + j]? = some (x.sub y) := by
          unfold diffs
          rw [List.getElem?_zipWith_eq_some]
          exact ⟨x, y, get?_flat hx, hy', rfl⟩
        obtain ⟨hi, hj⟩ := Img.get?_lt hx
        refine ⟨i * a.nc + j, List.mem_filter.mpr ⟨List.mem_range.mpr ?_, ?_⟩, ?_⟩
        · exact (List.getElem?_eq_some_iff.mp hd).1
        · rw [← absLt_sub_iff] at hn
          rw [hd]
          simpa using hn
        · rw [Nat.mul_comm, Nat.mul_add_div (by omega), Nat.div_eq_of_lt hj, Nat.mul_add_mod, Nat.mod_eq_of_lt hj, Nat.add_zero]
  obtain ⟨ps, h1, h2, h3⟩ := key
  refine ⟨((diffs a b).filter (fun d => !d.absLt (1 / 10000))).length, ?_, ?_, ps, h1, h2, h3⟩
  · unfold weightsOff
    rw [sameShapeF_eq hr hc]
    rfl
  · rw [h2, List.length_pos_iff_exists_mem]
    constructor
    · rintro ⟨⟨i, j⟩, hp⟩
      exact ⟨i, j, (h3 i j).mp hp⟩
    · rintro ⟨i, j, h⟩
      exact ⟨(i, j), (h3 i j).mpr h⟩

/-- **C101** Columns of numbers of the same width: a message is printed exactly when there is a pair of objects with the same id and a position where the numbers are not
close.  (NaN is close to nothing, also not to NaN.) -/
theorem C101_column {pairs : List (Nat × Nat)} {name : String} {w : Option Nat} {r1 r2 : List (List Flt)}
    (h1 : ∀ r ∈ r1, r.length = w.getD 1) (h2 : ∀ r ∈ r2, r.length = w.getD 1) :
    ∃ ms, columnMsg pairs name (.numbers w r1) (.numbers w r2) = .ok ms ∧ (∀ m ∈ ms, m = .column name) ∧
      (Msg.column name ∈ ms ↔ ∃ p ∈ pairs, ∃ (v1 v2 : List Flt) (k : Nat) (x y : Flt), r1[p.1]? = some v1 ∧ r2[p.2]? = some v2 ∧ v1[k]? = some x ∧ v2[k]? = some y ∧ ¬ Close x y) := by
  have hexp : ∀ v : List Flt, v.length = w.getD 1 ∨ v = [] → expand (w.getD 1) v = v := by
    intro v hv
    unfold expand
    split
    · rename_i hl
      rcases hv with hv | hv
      · rw [← hv, hl]; simp
      · subst hv; cases hl
    · rfl
  have hrow : ∀ (r : List (List Flt)), (∀ v ∈ r, v.length = w.getD 1) → ∀ i : Nat, (r[i]?.getD []).length = w.getD 1 ∨ r[i]?.getD [] = [] := by
    intro r hr i
    cases e : r[i]? with
    | none => exact .inr rfl
    | some v => exact .inl (hr v (List.mem_of_getElem? e))
  refine ⟨if pairs.all (fun p => (List.zipWith Flt.isclose (r1[p.1]?.getD []) (r2[p.2]?.getD [])).all id) then [] else [.column name], ?_, ?_, ?_⟩
  · unfold columnMsg
    simp only [ne_eq, not_true_eq_false, if_false, true_or, if_true, ite_self]
    simp only [hexp _ (hrow r1 h1 _), hexp _ (hrow r2 h2 _)]
  · intro m hm
    split at hm
    · cases hm
    · simpa using hm
  · have : ∀ b : Bool, (Msg.column name ∈ (if b then [] else [Msg.column name])) ↔ b = false := by
      intro b; cases b <;> simp
    rw [this, List.all_eq_false]
    constructor
    · rintro ⟨p, hp, hb⟩
      rw [Bool.not_eq_true, List.all_eq_false] at hb
      obtain ⟨q, hq, hf⟩ := hb
      obtain ⟨k, hk⟩ := List.mem_iff_getElem?.mp hq
      rw [List.getElem?_zipWith_eq_some] at hk
      obtain ⟨x, y, hx, hy, rfl⟩ := hk
      have hc : ¬ Close x y := by rw [← isclose_iff]; simpa using hf
      cases e1 : r1[p.1]? with
      | none => rw [e1] at hx; simp at hx
      | some v1 =>
        cases e2 : r2[p.2]? with
        | none => rw [e2] at hy; simp at hy
        | some v2 =>
          rw [e1] at hx
          rw [e2] at hy
          exact ⟨p, hp, v1, v2, k, x, y, e1, e2, hx, hy, hc⟩
    · rintro ⟨p, hp, v1, v2, k, x, y, e1, e2, hx, hy, hc⟩
      refine ⟨p, hp, ?_⟩
      rw [Bool.not_eq_true, List.all_eq_false, e1, e2]
      refine ⟨x.isclose y, ?_, ?_⟩
      · refine List.mem_of_getElem? (i := k) ?_
        rw [List.getElem?_zipWith, Option.getD_some, Option.getD_some, hx, hy]
      · rw [← isclose_iff] at hc
        simpa using hc

theorem expand_getElem? (n : Nat) (v : List Flt) (k : Nat) :
    (expand n v)[k]? = if v.length = 1 then (if k < n then v[0]? else none) else v[k]? := by
  unfold expand
  split
  · rename_i h
    obtain ⟨x, rfl⟩ := List.length_eq_one_iff.mp h
    rw [List.flatten_replicate_singleton, List.getElem?_replicate]
    simp
  · rfl

/-- **C101** Columns of sub-arrays of different widths.  If neither width is one, the message is that the shapes differ.  If one of the widths is one, no such message is
printed: the only number of an object in the one file is compared with every number of the object in the other. -/
theorem C101_column_widths {pairs : List (Nat × Nat)} {name : String} {n1 n2 : Nat} {r1 r2 : List (List Flt)} (hne : n1 ≠ n2)
    (h1 : ∀ r ∈ r1, r.length = n1) (h2 : ∀ r ∈ r2, r.length = n2) :
    (n1 ≠ 1 → n2 ≠ 1 → columnMsg pairs name (.numbers (some n1) r1) (.numbers (some n2) r2) = .ok [.columnShape name]) ∧
    (n1 = 1 ∨ n2 = 1 → ∃ ms, columnMsg pairs name (.numbers (some n1) r1) (.numbers (some n2) r2) = .ok ms ∧ (∀ m ∈ ms, m = .column name) ∧
      (Msg.column name ∈ ms ↔ ∃ p ∈ pairs, ∃ (v1 v2 : List Flt) (k : Nat) (x y : Flt), r1[p.1]? = some v1 ∧ r2[p.2]? = some v2 ∧
        v1[if n1 = 1 then 0 else k]? = some x ∧ v2[if n2 = 1 then 0 else k]? = some y ∧ ¬ Close x y)) := by
  constructor
  · intro a b
    unfold columnMsg
    simp [hne, a, b]
  intro h
  have hn : n1 = n2 ∨ n1 = 1 ∨ n2 = 1 := .inr h
  refine ⟨if pairs.all (fun p => (List.zipWith Flt.isclose (expand (if n1 = 1 then n2 else n1) (r1[p.1]?.getD []))
    (expand (if n1 = 1 then n2 else n1) (r2[p.2]?.getD []))).all id) then [] else [.column name], ?_, ?_, ?_⟩
  · unfold columnMsg
    simp only [Option.isSome_some, ne_eq, not_true_eq_false, if_false, Option.getD_some, if_pos hn]
  · intro m hm
    have : ∀ b : Bool, m ∈ (if b then [] else [Msg.column name]) → m = .column name := by
      intro b; cases b <;> simp
    exact this _ hm
  · have : ∀ b : Bool, (Msg.column name ∈ (if b then [] else [Msg.column name])) ↔ b = false := by
      intro b; cases b <;> simp
    rw [this, List.all_eq_false]
    constructor
    · rintro ⟨p, hp, hb⟩
      rw [Bool.not_eq_true, List.all_eq_false] at hb
      obtain ⟨q, hq, hf⟩ := hb
      obtain ⟨k, hk⟩ := List.mem_iff_getElem?.mp hq
      rw [List.getElem?_zipWith_eq_some] at hk
      obtain ⟨x, y, hx, hy, rfl⟩ := hk
      have hc : ¬ Close x y := by rw [← isclose_iff]; simpa using hf
      rw [expand_getElem?] at hx hy
      cases e1 : r1[p.1]? with
      | none => rw [e1] at hx; simp at hx
      | some v1 =>
        cases e2 : r2[p.2]? with
        | none => rw [e2] at hy; simp at hy
        | some v2 =>
          rw [e1, Option.getD_some, h1 v1 (List.mem_of_getElem? e1)] at hx
          rw [e2, Option.getD_some, h2 v2 (List.mem_of_getElem? e2)] at hy
          refine ⟨p, hp, v1, v2, k, x, y, e1, e2, ?_, ?_, hc⟩
          · by_cases q : n1 = 1
            · rw [if_pos q] at hx ⊢
              by_cases q' : k < if n1 = 1 then n2 else n1
              · rw [if_pos q'] at hx; exact hx
              · rw [if_neg q'] at hx; cases hx
            · rw [if_neg q] at hx ⊢; exact hx
          · by_cases q : n2 = 1
            · rw [if_pos q] at hy ⊢
              by_cases q' : k < if n1 = 1 then n2 else n1
              · rw [if_pos q'] at hy; exact hy
              · rw [if_neg q'] at hy; cases hy
            · rw [if_neg q] at hy ⊢; exact hy
    · rintro ⟨p, hp, v1, v2, k, x, y, e1, e2, hx, hy, hc⟩
      refine ⟨p, hp, ?_⟩
      have l1 := h1 v1 (List.mem_of_getElem? e1)
      have l2 := h2 v2 (List.mem_of_getElem? e2)
      rw [Bool.not_eq_true, List.all_eq_false, e1, e2]
      refine ⟨x.isclose y, ?_, ?_⟩
      · refine List.mem_of_getElem? (i := k) ?_
        have gx : (expand (if n1 = 1 then n2 else n1) v1)[k]? = some x := by
          rw [expand_getElem?, l1]
          by_cases q : n1 = 1
          · rw [if_pos q] at hx
            rw [if_pos q, if_pos q, if_pos ?_]
            · exact hx
            · rw [if_neg (by omega)] at hy
              have := (List.getElem?_eq_some_iff.mp hy).1
              omega
          · rw [if_neg q] at hx
            rw [if_neg q]; exact hx
        have gy : (expand (if n1 = 1 then n2 else n1) v2)[k]? = some y := by
          rw [expand_getElem?, l2]
          by_cases q : n2 = 1
          · rw [if_pos q] at hy
            rw [if_pos q, if_neg (show ¬ n1 = 1 by omega), if_pos ?_]
            · exact hy
            · rw [if_neg (by omega)] at hx
              have := (List.getElem?_eq_some_iff.mp hx).1
              omega
          · rw [if_neg q] at hy
            rw [if_neg q]; exact hy
        rw [List.getElem?_zipWith, Option.getD_some, Option.getD_some, gx, gy]
      · rw [← isclose_iff] at hc
        simpa using hc

/-- **C101** Integers of less than six digits in the second file are close only if they are equal. -/
theorem C101_small_integers {a b : Int} (hb : |b| ≤ 99999) : Close (.num a) (.num b) ↔ a = b := by
  unfold Close
  simp only
  have e1 : |(a : ℚ) - b| = ((|a - b| : Int) : ℚ) := by push_cast; rfl
  have e2 : |(b : ℚ)| = ((|b| : Int) : ℚ) := by push_cast; rfl
  rw [e1, e2]
  constructor
  · intro h
    by_contra hne
    have hpos : (1 : Int) ≤ |a - b| := Int.one_le_abs (sub_ne_zero.mpr hne)
    have h1 : (1 : ℚ) ≤ ((|a - b| : Int) : ℚ) := by exact_mod_cast hpos
    have h2 : ((|b| : Int) : ℚ) ≤ 99999 := by exact_mod_cast hb
    norm_num at h
    linarith
  · rintro rfl
    simp
    positivity

/-- **C101** Integers of six digits or more are close to others: a difference by one is not reported, for any such column. -/
theorem C101_large_integers {b : Int} (hb : 100000 ≤ |b|) : Close (.num ((b + 1 : Int) : ℚ)) (.num b) := by
  unfold Close
  simp only
  have e2 : |(b : ℚ)| = ((|b| : Int) : ℚ) := by push_cast; rfl
  have h2 : (100000 : ℚ) ≤ ((|b| : Int) : ℚ) := by exact_mod_cast hb
  rw [e2]
  push_cast
  norm_num at h2 ⊢
  linarith

/-- **C101** A column of text ends the comparison with an error, whatever it contains. -/
theorem C101_text_column {c : Comparator} {cols1 cols2 : List (String × Column)} {tol : ℚ} {name : String} {rows : List String}
    (hmem : (name, Column.texts rows) ∈ cols1) : ∀ ms, c.report cols1 cols2 tol ≠ .ok ms := by
  intro ms h
  unfold Comparator.report at h
  obtain ⟨pairs, _, h⟩ := Res.bind_eq_ok.mp h
  split at h
  · cases h
  rename_i hn
  rw [not_not] at hn
  obtain ⟨l0, h, _⟩ := Res.bind_eq_ok.mp h
  obtain ⟨i, hi⟩ := List.mem_iff_getElem?.mp hmem
  have hl : cols1.length = cols2.length := by simpa using congrArg List.length hn
  have hi2 : i < cols2.length := by rw [← hl]; exact (List.getElem?_eq_some_iff.mp hi).1
  have hz : (cols1.zip cols2)[i]? = some ((name, Column.texts rows), cols2[i]) := by
    rw [List.getElem?_zip_eq_some]
    exact ⟨hi, List.getElem?_eq_getElem hi2⟩
  obtain ⟨u, _, e⟩ := mapRes_getElem? h hz
  simp only [columnMsg] at e
  cases e

theorem mem_flatten_mapRes {α β : Type} {f : α → Res (List β)} {l : List α} {ys : List (List β)} (h : mapRes f l = .ok ys) {m : β} :
    m ∈ ys.flatten ↔ ∃ x ∈ l, ∃ y, f x = .ok y ∧ m ∈ y := by
  rw [List.mem_flatten]
  constructor
  · rintro ⟨y, hy, hm⟩
    obtain ⟨i, hi⟩ := List.mem_iff_getElem?.mp hy
    obtain ⟨x, hx, e⟩ := mapRes_getElem?_inv h hi
    exact ⟨x, List.mem_of_getElem? hx, y, e, hm⟩
  · rintro ⟨x, hx, y, e, hm⟩
    obtain ⟨i, hi⟩ := List.mem_iff_getElem?.mp hx
    obtain ⟨y', hy', e'⟩ := mapRes_getElem? h hi
    rw [e] at e'
    injection e' with e'
    subst e'
    exact ⟨y, List.mem_of_getElem? hy', hm⟩

theorem checkNcutout_iff {c : Comparator} {i1 i2 : Nat} {n : Int} (h : c.checkNcutout i1 i2 = .ok n) {k : Nat} :
    k < n.toNat ↔ BothHave c.m1 c.m2 i1 i2 k := by
  unfold Comparator.checkNcutout at h
  obtain ⟨o1, e1, h⟩ := Res.bind_eq_ok.mp h
  obtain ⟨o2, e2, h⟩ := Res.bind_eq_ok.mp h
  have e1 : c.m1.cat.rows[i1]? = some o1 := by simpa using pyGet_ok_nonneg e1 (Int.natCast_nonneg i1)
  have e2 : c.m2.cat.rows[i2]? = some o2 := by simpa using pyGet_ok_nonneg e2 (Int.natCast_nonneg i2)
  have hB : BothHave c.m1 c.m2 i1 i2 k ↔ (k : Int) < o1.ncutout ∧ (k : Int) < o2.ncutout := by
    constructor
    · rintro ⟨n1, n2, ⟨p1, q1, rfl⟩, ⟨p2, q2, rfl⟩, h1, h2⟩
      rw [e1] at q1
      rw [e2] at q2
      injection q1 with q1
      injection q2 with q2
      subst q1 q2
      exact ⟨h1, h2⟩
    · rintro ⟨h1, h2⟩
      exact ⟨_, _, ⟨o1, e1, rfl⟩, ⟨o2, e2, rfl⟩, h1, h2⟩
  rw [hB]
  split at h
  · injection h with h
    omega
  · split at h
    · cases h
    · injection h with h
      omega

/-- The messages about one type, in terms of those about one cutout. -/
theorem mem_imagesMsgs {c : Comparator} {tol : ℚ} {pairs : List (Nat × Nat)} {type : String} {ms : List Msg} (h : c.imagesMsgs tol pairs type = .ok ms) {m : Msg} :
    m ∈ ms ↔ ∃ j i1 i2 k y, pairs[j]? = some (i1, i2) ∧ BothHave c.m1 c.m2 i1 i2 k ∧ c.cutoutMsgs tol type j i1 i2 k = .ok y ∧ m ∈ y := by
  unfold Comparator.imagesMsgs at h
  obtain ⟨l, h', e⟩ := Res.bind_eq_ok.mp h
  injection e with e
  subst e
  replace h := h'
  clear h'
  rw [mem_flatten_mapRes h]
  constructor
  · rintro ⟨⟨⟨i1, i2⟩, j⟩, hx, y, e, hm⟩
    rw [List.mem_zipIdx_iff_getElem?] at hx
    unfold Comparator.pairMsgs at e
    obtain ⟨n, hn, e1⟩ := Res.bind_eq_ok.mp e
    obtain ⟨l', e2, e'⟩ := Res.bind_eq_ok.mp e1
    injection e' with e'
    subst e'
    obtain ⟨k, hk, y, e, hm⟩ := (mem_flatten_mapRes e2).mp hm
    exact ⟨j, i1, i2, k, y, hx, (checkNcutout_iff hn).mp (List.mem_range.mp hk), e, hm⟩
  · rintro ⟨j, i1, i2, k, y, hx, hB, e, hm⟩
    have hx' : ((i1, i2), j) ∈ pairs.zipIdx := List.mem_zipIdx_iff_getElem?.mpr hx
    obtain ⟨i, hi⟩ := List.mem_iff_getElem?.mp hx'
    obtain ⟨y', _, e'⟩ := mapRes_getElem? h hi
    refine ⟨_, hx', y', e', ?_⟩
    unfold Comparator.pairMsgs at e'
    obtain ⟨n, hn, e1⟩ := Res.bind_eq_ok.mp e'
    obtain ⟨l', e2, e''⟩ := Res.bind_eq_ok.mp e1
    injection e'' with e''
    subst e''
    exact (mem_flatten_mapRes e2).mpr ⟨k, List.mem_range.mpr ((checkNcutout_iff hn).mpr hB), y, e, hm⟩

theorem shape_of_sameShapeF {a b : Img ℚ} {u : Unit} (h : sameShapeF (a.map Flt.num) (b.map Flt.num) = .ok u) : a.nr = b.nr ∧ a.nc = b.nc := by
  unfold sameShapeF at h
  split at h
  · cases h
  · rename_i hs
    rw [not_or, not_not, not_not] at hs
    exact hs

theorem mem_cutoutMsgs_image {c : Comparator} {tol : ℚ} (ht : 0 ≤ tol) {j i1 i2 k : Nat} {y : List Msg} (h : c.cutoutMsgs tol "image" j i1 i2 k = .ok y) {m : Msg} :
    m ∈ y ↔ m = .image j k ∧ ∃ a b, c.m1.getCutout i1 k "image" = .ok a ∧ c.m2.getCutout i2 k "image" = .ok b ∧ tol ^ 2 < diffVar a b := by
  unfold Comparator.cutoutMsgs at h
  obtain ⟨b, hb, h⟩ := Res.bind_eq_ok.mp h
  obtain ⟨a, ha, h⟩ := Res.bind_eq_ok.mp h
  rw [if_pos rfl] at h
  obtain ⟨bad, hbad, h⟩ := Res.bind_eq_ok.mp h
  injection h with h
  subst h
  have hs : a.nr = b.nr ∧ a.nc = b.nc := by
    unfold imageOff at hbad
    obtain ⟨u, hu, _⟩ := Res.bind_eq_ok.mp hbad
    exact shape_of_sameShapeF hu
  obtain ⟨bad', q1, q2⟩ := C101_image_partial ht hs.1 hs.2
  rw [hbad] at q1
  injection q1 with q1
  subst q1
  have : (∃ a' b', c.m1.getCutout i1 k "image" = .ok a' ∧ c.m2.getCutout i2 k "image" = .ok b' ∧ tol ^ 2 < diffVar a' b') ↔ tol ^ 2 < diffVar a b := by
    constructor
    · rintro ⟨a', b', r1, r2, r3⟩
      rw [ha] at r1
      rw [hb] at r2
      injection r1 with r1
      injection r2 with r2
      subst r1 r2
      exact r3
    · exact fun r => ⟨a, b, ha, hb, r⟩
  rw [this, ← q2]
  cases bad <;> simp

/-- The number of pixels that differ by 1e-4 or more. -/
def _root_.Meds.Spec.nDiffer (a b : Img ℚ) : Nat := (List.zipWith (fun x y => |x - y|) a.flat b.flat).countP (fun d => decide (1 / 10000 ≤ d))

theorem weightsOff_num {a b : Img ℚ} (hr : a.nr = b.nr) (hc : a.nc = b.nc) : weightsOff (a.map Flt.num) (b.map Flt.num) = .ok (nDiffer a b) := by
  unfold weightsOff
  rw [map_shape hr hc]
  simp only [Res.ok_bind, Except.ok.injEq]
  rw [diffs_num, ← List.countP_eq_length_filter]
  unfold nDiffer
  generalize a.flat = l
  generalize b.flat = l'
  induction l generalizing l' with
  | nil => rfl
  | cons x l ih =>
    cases l' with
    | nil => rfl
    | cons y l' =>
      simp only [List.zipWith_cons_cons, List.map_cons, List.countP_cons, ih]
      congr 1
      simp only [Flt.absLt]
      by_cases hxy : |x - y| < 1 / 10000
      · simp
      · simp

theorem mem_cutoutMsgs_weight {c : Comparator} {tol : ℚ} {j i1 i2 k : Nat} {y : List Msg} (h : c.cutoutMsgs tol "weight" j i1 i2 k = .ok y) {m : Msg} :
    m ∈ y ↔ ∃ a b, c.m1.getCutout i1 k "weight" = .ok a ∧ c.m2.getCutout i2 k "weight" = .ok b ∧ 0 < nDiffer a b ∧ m = .weight j k (nDiffer a b) := by
  unfold Comparator.cutoutMsgs at h
  obtain ⟨b, hb, h⟩ := Res.bind_eq_ok.mp h
  obtain ⟨a, ha, h⟩ := Res.bind_eq_ok.mp h
  rw [if_neg (by decide), if_pos rfl] at h
  obtain ⟨n, hn, h⟩ := Res.bind_eq_ok.mp h
  injection h with h
  subst h
  have hs : a.nr = b.nr ∧ a.nc = b.nc := by
    unfold weightsOff at hn
    obtain ⟨u, hu, _⟩ := Res.bind_eq_ok.mp hn
    exact shape_of_sameShapeF hu
  rw [weightsOff_num hs.1 hs.2] at hn
  injection hn with hn
  subst hn
  constructor
  · intro hm
    split at hm
    · cases hm
    · exact ⟨a, b, ha, hb, by omega, by simpa using hm⟩
  · rintro ⟨a', b', r1, r2, r3, r4⟩
    rw [ha] at r1
    rw [hb] at r2
    injection r1 with r1
    injection r2 with r2
    subst r1 r2
    rw [if_neg (by omega), r4]
    simp

theorem cutoutMsgs_other {c : Comparator} {tol : ℚ} {t : String} (h1 : t ≠ "image") (h2 : t ≠ "weight") {j i1 i2 k : Nat} {y : List Msg}
    (h : c.cutoutMsgs tol t j i1 i2 k = .ok y) : y = [] := by
  unfold Comparator.cutoutMsgs at h
  obtain ⟨b, hb, h⟩ := Res.bind_eq_ok.mp h
  obtain ⟨a, ha, h⟩ := Res.bind_eq_ok.mp h
  rw [if_neg h1, if_neg h2] at h
  obtain ⟨_, _, h⟩ := Res.bind_eq_ok.mp h
  injection h with h
  exact h.symm

theorem cutoutMsgs_done {c : Comparator} {tol : ℚ} {pairs : List (Nat × Nat)} {type : String} {ms : List Msg} (h : c.imagesMsgs tol pairs type = .ok ms)
    {j i1 i2 k : Nat} (hx : pairs[j]? = some (i1, i2)) (hB : BothHave c.m1 c.m2 i1 i2 k) : ∃ y, c.cutoutMsgs tol type j i1 i2 k = .ok y := by
  unfold Comparator.imagesMsgs at h
  obtain ⟨l, h, _⟩ := Res.bind_eq_ok.mp h
  have hx' : ((i1, i2), j) ∈ pairs.zipIdx := List.mem_zipIdx_iff_getElem?.mpr hx
  obtain ⟨i, hi⟩ := List.mem_iff_getElem?.mp hx'
  obtain ⟨y', _, e'⟩ := mapRes_getElem? h hi
  unfold Comparator.pairMsgs at e'
  obtain ⟨n, hn, e'⟩ := Res.bind_eq_ok.mp e'
  obtain ⟨l', e', _⟩ := Res.bind_eq_ok.mp e'
  have hk : k ∈ List.range n.toNat := List.mem_range.mpr ((checkNcutout_iff hn).mpr hB)
  obtain ⟨i, hi⟩ := List.mem_iff_getElem?.mp hk
  obtain ⟨y, _, e⟩ := mapRes_getElem? e' hi
  exact ⟨y, e⟩

theorem cutoutMsgs_kind {c : Comparator} {tol : ℚ} {t : String} {j i1 i2 k : Nat} {y : List Msg} (h : c.cutoutMsgs tol t j i1 i2 k = .ok y) {m : Msg} (hm : m ∈ y) :
    m = .image j k ∨ ∃ n, m = .weight j k n := by
  unfold Comparator.cutoutMsgs at h
  obtain ⟨b, hb, h⟩ := Res.bind_eq_ok.mp h
  obtain ⟨a, ha, h⟩ := Res.bind_eq_ok.mp h
  split at h
  · obtain ⟨bad, _, h⟩ := Res.bind_eq_ok.mp h
    injection h with h
    subst h
    split at hm
    · left; simpa using hm
    · cases hm
  split at h
  · obtain ⟨n, _, h⟩ := Res.bind_eq_ok.mp h
    injection h with h
    subst h
    split at hm
    · cases hm
    · right; exact ⟨n, by simpa using hm⟩
  · obtain ⟨_, _, h⟩ := Res.bind_eq_ok.mp h
    injection h with h
    subst h
    cases hm

theorem columnMsg_kind {pairs : List (Nat × Nat)} {name : String} {c1 c2 : Column} {ms : List Msg} (h : columnMsg pairs name c1 c2 = .ok ms) {m : Msg} (hm : m ∈ ms) :
    m = .column name ∨ m = .columnShape name := by
  unfold columnMsg at h
  split at h
  · split at h
    · cases h
    · dsimp only at h
      split at h
      · injection h with h
        subst h
        left
        revert hm
        generalize List.all pairs _ = bb
        cases bb <;> simp
      · injection h with h
        subst h
        right; simpa using hm
  · cases h

/-- The parts of a report. -/
theorem report_ok {c : Comparator} {cols1 cols2 : List (String × Column)} {tol : ℚ} {ms : List Msg} (h : c.report cols1 cols2 tol = .ok ms) :
    ∃ l l0, c.matched = .ok l ∧ cols1.map (·.1) = cols2.map (·.1) ∧
      mapRes (fun x : (String × Column) × (String × Column) => columnMsg l x.1.1 x.1.2 x.2.2) (cols1.zip cols2) = .ok l0 ∧
      ∃ a b d e, c.imagesMsgs tol l "image" = .ok a ∧ c.imagesMsgs tol l "weight" = .ok b ∧ c.imagesMsgs tol l "bmask" = .ok d ∧ c.imagesMsgs tol l "seg" = .ok e ∧
        ms = l0.flatten ++ (a ++ (b ++ (d ++ e))) := by
  unfold Comparator.report at h
  obtain ⟨l, hl, h⟩ := Res.bind_eq_ok.mp h
  split at h
  · cases h
  rename_i hn
  rw [not_not] at hn
  obtain ⟨l0, h0, h⟩ := Res.bind_eq_ok.mp h
  obtain ⟨l1, h1, h⟩ := Res.bind_eq_ok.mp h
  injection h with h
  refine ⟨l, l0, hl, hn, h0, ?_⟩
  rw [mapRes_ok_iff] at h1
  obtain ⟨a, m1, ha, h2, rfl⟩ := List.forall₂_cons_left_iff.mp h1
  obtain ⟨b, m2, hb, h3, rfl⟩ := List.forall₂_cons_left_iff.mp h2
  obtain ⟨d, m3, hd, h4, rfl⟩ := List.forall₂_cons_left_iff.mp h3
  obtain ⟨e, m4, he, h5, rfl⟩ := List.forall₂_cons_left_iff.mp h4
  rw [List.forall₂_nil_left_iff] at h5
  subst h5
  refine ⟨a, b, d, e, ha, hb, hd, he, ?_⟩
  rw [← h]
  simp

/-- **C101** A comparison that ends tells exactly these differences of cutouts, with the number of the pair in the list of the pairs of objects with the same id: an image
cutout whose difference has a variance above the square of the tolerance, and a weight cutout with pixels that differ by 1e-4 or more, with their number. -/
theorem C101_run {c : Comparator} {cols1 cols2 : List (String × Column)} {tol : ℚ} (ht : 0 ≤ tol) {ms : List Msg} (h : c.report cols1 cols2 tol = .ok ms) :
    ∃ l : List (Nat × Nat), (∀ i1 i2, (i1, i2) ∈ l ↔ SameId c.m1 c.m2 i1 i2) ∧
      (∀ j k, Msg.image j k ∈ ms ↔ ∃ i1 i2 a b, l[j]? = some (i1, i2) ∧ BothHave c.m1 c.m2 i1 i2 k ∧
        c.m1.getCutout i1 k "image" = .ok a ∧ c.m2.getCutout i2 k "image" = .ok b ∧ tol ^ 2 < diffVar a b) ∧
      (∀ j k n, Msg.weight j k n ∈ ms ↔ ∃ i1 i2 a b, l[j]? = some (i1, i2) ∧ BothHave c.m1 c.m2 i1 i2 k ∧
        c.m1.getCutout i1 k "weight" = .ok a ∧ c.m2.getCutout i2 k "weight" = .ok b ∧ 0 < nDiffer a b ∧ n = nDiffer a b) := by
  obtain ⟨l, l0, hl, _, h0, a, b, d, e, ha, hb, hd, he, rfl⟩ := report_ok h
  refine ⟨l, fun i1 i2 => mem_matched hl, ?_, ?_⟩
  · intro j k
    simp only [List.mem_append]
    constructor
    · rintro (hm | hm | hm | hm | hm)
      · obtain ⟨x, _, y, hy, hm⟩ := (mem_flatten_mapRes h0).mp hm
        rcases columnMsg_kind hy hm with q | q <;> cases q
      · obtain ⟨j', i1, i2, k', y, q1, q2, q3, hm⟩ := (mem_imagesMsgs ha).mp hm
        obtain ⟨q4, a', b', q5⟩ := (mem_cutoutMsgs_image ht q3).mp hm
        injection q4 with q4 q6
        subst q4 q6
        exact ⟨i1, i2, a', b', q1, q2, q5⟩
      · obtain ⟨j', i1, i2, k', y, q1, q2, q3, hm⟩ := (mem_imagesMsgs hb).mp hm
        obtain ⟨a', b', _, _, _, q4⟩ := (mem_cutoutMsgs_weight q3).mp hm
        cases q4
      · obtain ⟨j', i1, i2, k', y, q1, q2, q3, hm⟩ := (mem_imagesMsgs hd).mp hm
        rw [cutoutMsgs_other (by decide) (by decide) q3] at hm
        cases hm
      · obtain ⟨j', i1, i2, k', y, q1, q2, q3, hm⟩ := (mem_imagesMsgs he).mp hm
        rw [cutoutMsgs_other (by decide) (by decide) q3] at hm
        cases hm
    · rintro ⟨i1, i2, a', b', q1, q2, q3⟩
      right; left
      obtain ⟨y, hy⟩ := cutoutMsgs_done ha q1 q2
      exact (mem_imagesMsgs ha).mpr ⟨j, i1, i2, k, y, q1, q2, hy, (mem_cutoutMsgs_image ht hy).mpr ⟨rfl, a', b', q3⟩⟩
  · intro j k n
    simp only [List.mem_append]
    constructor
    · rintro (hm | hm | hm | hm | hm)
      · obtain ⟨x, _, y, hy, hm⟩ := (mem_flatten_mapRes h0).mp hm
        rcases columnMsg_kind hy hm with q | q <;> cases q
      · obtain ⟨j', i1, i2, k', y, q1, q2, q3, hm⟩ := (mem_imagesMsgs ha).mp hm
        obtain ⟨q4, _⟩ := (mem_cutoutMsgs_image ht q3).mp hm
        cases q4
      · obtain ⟨j', i1, i2, k', y, q1, q2, q3, hm⟩ := (mem_imagesMsgs hb).mp hm
        obtain ⟨a', b', q4, q5, q6, q7⟩ := (mem_cutoutMsgs_weight q3).mp hm
        injection q7 with q7 q8 q9
        subst q7 q8 q9
        exact ⟨i1, i2, a', b', q1, q2, q4, q5, q6, rfl⟩
      · obtain ⟨j', i1, i2, k', y, q1, q2, q3, hm⟩ := (mem_imagesMsgs hd).mp hm
        rw [cutoutMsgs_other (by decide) (by decide) q3] at hm
        cases hm
      · obtain ⟨j', i1, i2, k', y, q1, q2, q3, hm⟩ := (mem_imagesMsgs he).mp hm
        rw [cutoutMsgs_other (by decide) (by decide) q3] at hm
        cases hm
    · rintro ⟨i1, i2, a', b', q1, q2, q3, q4, q5, rfl⟩
      right; right; left
      obtain ⟨y, hy⟩ := cutoutMsgs_done hb q1 q2
      exact (mem_imagesMsgs hb).mpr ⟨j, i1, i2, k, y, q1, q2, hy, (mem_cutoutMsgs_weight hy).mpr ⟨a', b', q3, q4, q5, rfl⟩⟩

/-- **C101** A comparison that ends tells exactly these differences of columns of numbers: some pair of objects with the same id and some position where the numbers are
not close. -/
theorem C101_run_columns {c : Comparator} {cols1 cols2 : List (String × Column)} {tol : ℚ} {ms : List Msg} (h : c.report cols1 cols2 tol = .ok ms)
    (hcols : ∀ x ∈ cols1.zip cols2, ∃ w r1 r2, x.1.2 = .numbers w r1 ∧ x.2.2 = .numbers w r2 ∧ (∀ r ∈ r1, r.length = w.getD 1) ∧ (∀ r ∈ r2, r.length = w.getD 1))
    (name : String) :
    Msg.column name ∈ ms ↔ ∃ w r1 r2, ((name, Column.numbers w r1), (name, Column.numbers w r2)) ∈ cols1.zip cols2 ∧
      ∃ i1 i2 v1 v2, SameId c.m1 c.m2 i1 i2 ∧ r1[i1]? = some v1 ∧ r2[i2]? = some v2 ∧ ∃ (k : Nat) (x y : Flt), v1[k]? = some x ∧ v2[k]? = some y ∧ ¬ Close x y := by
  obtain ⟨l, l0, hl, hn, h0, a, b, d, e, ha, hb, hd, he, rfl⟩ := report_ok h
  have hname : ∀ x ∈ cols1.zip cols2, x.1.1 = x.2.1 := by
    intro x hx
    obtain ⟨i, hi⟩ := List.mem_iff_getElem?.mp hx
    rw [List.getElem?_zip_eq_some] at hi
    have := congrArg (fun l : List String => l[i]?) hn
    simp only [List.getElem?_map, hi.1, hi.2, Option.map_some, Option.some.injEq] at this
    exact this
  simp only [List.mem_append]
  constructor
  · rintro (hm | hm | hm | hm | hm)
    · obtain ⟨x, hx, y, hy, hm⟩ := (mem_flatten_mapRes h0).mp hm
      obtain ⟨⟨n1, c1⟩, ⟨n2, c2⟩⟩ := x
      obtain ⟨w, r1, r2, q1, q2, q3, q4⟩ := hcols _ hx
      have q5 := hname _ hx
      simp only at q1 q2 q5 hy
      subst q1 q2 q5
      obtain ⟨ms', s1, s2, s3⟩ := C101_column (pairs := l) (name := n1) q3 q4
      rw [hy] at s1
      injection s1 with s1
      subst s1
      have := s2 _ hm
      injection this with this
      subst this
      obtain ⟨⟨i1, i2⟩, hp, v1, v2, k, x, y, t1, t2, t3, t4, t5⟩ := s3.mp hm
      exact ⟨w, r1, r2, hx, i1, i2, v1, v2, (mem_matched hl).mp hp, t1, t2, k, x, y, t3, t4, t5⟩
    · obtain ⟨j', i1, i2, k', y, q1, q2, q3, hm⟩ := (mem_imagesMsgs ha).mp hm
      rcases cutoutMsgs_kind q3 hm with q | ⟨n, q⟩ <;> cases q
    · obtain ⟨j', i1, i2, k', y, q1, q2, q3, hm⟩ := (mem_imagesMsgs hb).mp hm
      rcases cutoutMsgs_kind q3 hm with q | ⟨n, q⟩ <;> cases q
    · obtain ⟨j', i1, i2, k', y, q1, q2, q3, hm⟩ := (mem_imagesMsgs hd).mp hm
      rcases cutoutMsgs_kind q3 hm with q | ⟨n, q⟩ <;> cases q
    · obtain ⟨j', i1, i2, k', y, q1, q2, q3, hm⟩ := (mem_imagesMsgs he).mp hm
      rcases cutoutMsgs_kind q3 hm with q | ⟨n, q⟩ <;> cases q
  · rintro ⟨w, r1, r2, hx, i1, i2, v1, v2, hid, t1, t2, k, x, y, t3, t4, t5⟩
    left
    obtain ⟨w', r1', r2', q1, q2, q3, q4⟩ := hcols _ hx
    simp only [Column.numbers.injEq] at q1 q2
    obtain ⟨rfl, rfl⟩ := q1
    obtain ⟨_, rfl⟩ := q2
    obtain ⟨ms', s1, s2, s3⟩ := C101_column (pairs := l) (name := name) q3 q4
    exact (mem_flatten_mapRes h0).mpr ⟨_, hx, ms', s1, s3.mpr ⟨(i1, i2), (mem_matched hl).mpr hid, v1, v2, k, x, y, t1, t2, t3, t4, t5⟩⟩

theorem cutoutMsgs_ok_iff {c : Comparator} {tol : ℚ} {t : String} {j i1 i2 k : Nat} :
    (∃ y, c.cutoutMsgs tol t j i1 i2 k = .ok y) ↔ c.compareCutout t i1 i2 k = .ok () := by
  unfold Comparator.cutoutMsgs Comparator.compareCutout
  cases c.m2.getCutout i2 k t with
  | error e => exact ⟨fun ⟨_, h⟩ => (by cases h), fun h => (by cases h)⟩
  | ok b =>
    simp only [Res.ok_bind]
    cases c.m1.getCutout i1 k t with
    | error e => exact ⟨fun ⟨_, h⟩ => (by cases h), fun h => (by cases h)⟩
    | ok a =>
      simp only [Res.ok_bind]
      have hs : sameShapeF (a.map Flt.num) (b.map Flt.num) = sameShape a b := rfl
      split
      · unfold imageOff
        rw [hs]
        cases sameShape a b with
        | error e => exact ⟨fun ⟨_, h⟩ => (by cases h), fun h => (by cases h)⟩
        | ok u => exact ⟨fun _ => rfl, fun _ => ⟨_, rfl⟩⟩
      split
      · unfold weightsOff
        rw [hs]
        cases sameShape a b with
        | error e => exact ⟨fun ⟨_, h⟩ => (by cases h), fun h => (by cases h)⟩
        | ok u => exact ⟨fun _ => rfl, fun _ => ⟨_, rfl⟩⟩
      · cases compareExact a b with
        | error e => exact ⟨fun ⟨_, h⟩ => (by cases h), fun h => (by cases h)⟩
        | ok u => exact ⟨fun _ => rfl, fun _ => ⟨_, rfl⟩⟩

/-- **C101** What is printed has no influence on the end: for columns of numbers, the comparison ends without an error exactly when `Comparator.go` of the model that leaves
out the messages does, for any values of the columns and any tolerance. -/
theorem C101_status {c : Comparator} {cols1 cols2 : List (String × Column)} {tol : ℚ} (hp : c.png = .isNone) (hobj : c.objectData = .ok ())
    (hn : cols1.map (·.1) = cols2.map (·.1))
    (hcols : ∀ x ∈ cols1.zip cols2, ∃ w1 r1 w2 r2, x.1.2 = .numbers w1 r1 ∧ x.2.2 = .numbers w2 r2 ∧ w1.isSome = w2.isSome) :
    (∃ ms, c.report cols1 cols2 tol = .ok ms) ↔ c.go = .ok () := by
  constructor
  · rintro ⟨ms, h⟩
    obtain ⟨l, l0, hl, _, h0, a, b, d, e, ha, hb, hd, he, rfl⟩ := report_ok h
    have key : ∀ t ms, c.imagesMsgs tol l t = .ok ms → c.compareImages l t = .ok () := by
      intro t ms ht
      unfold Comparator.compareImages
      obtain ⟨bb, hbb, _⟩ := Maker.foldRes_total (f := c.comparePair t) (l := l) (b := false) (P := fun _ => True) trivial (by
        rintro b ⟨i1, i2⟩ hp' _
        obtain ⟨j, hj⟩ := List.mem_iff_getElem?.mp hp'
        have hx' : ((i1, i2), j) ∈ l.zipIdx := List.mem_zipIdx_iff_getElem?.mpr hj
        unfold Comparator.imagesMsgs at ht
        obtain ⟨ll, ht, _⟩ := Res.bind_eq_ok.mp ht
        obtain ⟨i, hi⟩ := List.mem_iff_getElem?.mp hx'
        obtain ⟨y', _, e'⟩ := mapRes_getElem? ht hi
        unfold Comparator.pairMsgs at e'
        obtain ⟨n, hn, e1⟩ := Res.bind_eq_ok.mp e'
        obtain ⟨l', e2, _⟩ := Res.bind_eq_ok.mp e1
        unfold Comparator.comparePair
        simp only at hn e2
        simp only
        rw [hn]
        simp only [Res.ok_bind]
        obtain ⟨us, hus⟩ := mapRes_of_forall (f := fun k => c.compareCutout t i1 i2 k) (l := List.range n.toNat) (by
          intro k hk
          obtain ⟨q, hq⟩ := List.mem_iff_getElem?.mp hk
          obtain ⟨y, _, e3⟩ := mapRes_getElem? e2 hq
          exact ⟨(), cutoutMsgs_ok_iff.mp ⟨y, e3⟩⟩)
        rw [hus]
        simp only [Res.ok_bind]
        rw [if_neg (by simp [hp])]
        exact ⟨_, rfl, trivial⟩)
      rw [hbb]
      simp only [Res.ok_bind]
      rw [if_neg (by simp [hp])]
    unfold Comparator.go
    rw [hl]
    simp only [Res.ok_bind]
    rw [hobj]
    simp only [Res.ok_bind]
    have : mapRes (c.compareImages l) ["image", "weight", "bmask", "seg"] = .ok [(), (), (), ()] := by
      rw [mapRes_ok_iff]
      exact .cons (key _ _ ha) (.cons (key _ _ hb) (.cons (key _ _ hd) (.cons (key _ _ he) .nil)))
    rw [this]
    rfl
  · intro h
    obtain ⟨l, hl, hall⟩ := go_ok h
    unfold Comparator.report
    rw [hl]
    simp only [Res.ok_bind]
    rw [if_neg (by rw [not_not]; exact hn)]
    obtain ⟨l0, h0⟩ := mapRes_of_forall (f := fun x : (String × Column) × (String × Column) => columnMsg l x.1.1 x.1.2 x.2.2) (l := cols1.zip cols2) (by
      intro x hx
      obtain ⟨w1, r1, w2, r2, q1, q2, q3⟩ := hcols x hx
      rw [q1, q2]
      unfold columnMsg
      simp only
      rw [if_neg (by rw [not_not]; exact q3)]
      split
      · exact ⟨_, rfl⟩
      · exact ⟨_, rfl⟩)
    obtain ⟨l1, h1⟩ := mapRes_of_forall (f := c.imagesMsgs tol l) (l := ["image", "weight", "bmask", "seg"]) (by
      intro t ht
      unfold Comparator.imagesMsgs
      obtain ⟨l2, h2⟩ := mapRes_of_forall (f := c.pairMsgs tol t) (l := l.zipIdx) (by
        rintro ⟨p, j⟩ hx
        have hpm : p ∈ l := List.mem_of_getElem? (List.mem_zipIdx_iff_getElem?.mp hx)
        obtain ⟨n, q1, q2⟩ := hall t ht p hpm
        unfold Comparator.pairMsgs
        simp only
        rw [q1]
        simp only [Res.ok_bind]
        obtain ⟨l3, h3⟩ := mapRes_of_forall (f := fun k => c.cutoutMsgs tol t j p.1 p.2 k) (l := List.range n.toNat) (by
          intro k hk
          have := List.mem_range.mp hk
          exact cutoutMsgs_ok_iff.mpr (q2 k (by omega)))
        rw [h3]
        exact ⟨_, rfl⟩)
      rw [h2]
      exact ⟨_, rfl⟩)
    rw [h0]
    simp only [Res.ok_bind]
    rw [h1]
    exact ⟨_, rfl⟩

section Examples

/-- Two columns of numbers for the two objects of the example: scalars and pairs. -/
def cols (x y : Flt) : List (String × Column) :=
  [("id", .numbers none [[.num 10], [.num 11]]), ("number", .numbers none [[x], [.num 2]]), ("shape", .numbers (some 2) [[.num 1, .num 2], [.num 3, y]])]

/-- The example file with 1000 added to all image pixels. -/
def shifted : MEDS :=
  { Ex.med with fits := ⟨Ex.med.fits.hdus.map (fun h => if h.1 = "image_cutouts" then (h.1, match h.2 with | .image p => .image (p.map (· + 1000)) | x => x) else h)⟩ }

/-- **C101** is false: no message although all image pixels differ by 1000; although two ids or numbers of six digits differ; although every pixel but one differs and
that one is NaN.  And a file with a column of text cannot be compared even with itself. -/
theorem C101_counterexample :
    (⟨Ex.med, shifted, true, .isNone⟩ : Comparator).report (cols (.num 100001) (.num 4)) (cols (.num 100000) (.num 4)) (8 / 10) = .ok [] ∧
    shifted ≠ Ex.med ∧ cols (.num 100001) (.num 4) ≠ cols (.num 100000) (.num 4) ∧
    imageOff (8 / 10) ⟨2, 2, [.nan, .num 5, .num 900, .num 0]⟩ ⟨2, 2, [.num 1, .num 0, .num 0, .num 70]⟩ = .ok false ∧
    (⟨Ex.med, Ex.med, true, .isNone⟩ : Comparator).report [("band", .texts ["g", "r"])] [("band", .texts ["g", "r"])] (8 / 10) = .error .typeError := by
  refine ⟨by decide +kernel, by decide +kernel, ?_, by decide +kernel, by decide +kernel⟩
  intro h
  simp [cols] at h

-- messages that are printed: a column, an image, a weight
example : (⟨Ex.med, Ex.med, true, .isNone⟩ : Comparator).report (cols (.num 7) .nan) (cols (.num 8) .nan) (8 / 10) = .ok [.column "number", .column "shape"] := by
  decide +kernel
example : (⟨Ex.med, changed "image_cutouts", true, .isNone⟩ : Comparator).report [] [] (8 / 10) = .ok [.image 0 1] := by decide +kernel
example : (⟨Ex.med, changed "weight_cutouts", true, .isNone⟩ : Comparator).report [] [] (8 / 10) = .ok [.weight 0 1 1] := by decide +kernel
-- lengths of sub-arrays that do not fit
example : columnMsg [(0, 0)] "shape" (.numbers (some 2) [[.num 1, .num 2]]) (.numbers (some 3) [[.num 1, .num 2, .num 3]]) = .ok [.columnShape "shape"] ∧
    columnMsg [(0, 0)] "shape" (.numbers (some 1) [[.num 1]]) (.numbers (some 3) [[.num 1, .num 1, .num 1]]) = .ok [] := by decide +kernel
-- the hypotheses of `C101_weights` with a pixel that is not a number in both files
example : weightsOff ⟨1, 2, [.nan, .num 1]⟩ ⟨1, 2, [.nan, .num 1]⟩ = .ok 1 ∧ (⟨1, 2, [.nan, .num 1]⟩ : Img Flt).WF := by decide +kernel
-- the hypotheses of `C101_silent_bound` with images that differ
example : imageOff (8 / 10) ((⟨1, 2, [1, 2]⟩ : Img ℚ).map Flt.num) ((⟨1, 2, [1, 1]⟩ : Img ℚ).map Flt.num) = .ok false := by decide +kernel
-- the hypotheses of `C101_status` and `C101_run_columns`
example : (⟨Ex.med, shifted, true, .isNone⟩ : Comparator).objectData = .ok () ∧ (cols .nan .nan).map (·.1) = (cols (.num 1) .nan).map (·.1) := by decide +kernel
-- `C101_small_integers` and `C101_large_integers`
example : ¬ Close (.num ((12346 : Int) : ℚ)) (.num ((12345 : Int) : ℚ)) := by
  rw [C101_small_integers (by decide)]
  decide
example : Close (.num ((-2000000 + 1 : Int) : ℚ)) (.num ((-2000000 : Int) : ℚ)) := C101_large_integers (by decide)

-- differences with infinite values
example : Flt.sub (.num 1) (.inf true) = .inf false ∧ Flt.sub (.inf true) (.num 1) = .inf true ∧ Flt.sub (.inf true) (.inf true) = .nan := by decide +kernel

end Examples

end Meds.Compare
