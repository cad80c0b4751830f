import Verif.Model.Compare
import Verif.Lemmas.Basic
import Verif.Lemmas.Reader
import Verif.Lemmas.Total
import Verif.Examples.Maker
import Mathlib.Data.List.Nodup

/-!
# The comparator (C50)
-/

namespace Meds.Spec

/-- Objects `i1` of the first and `i2` of the second file have the same id. -/
def SameId (m1 m2 : MEDS) (i1 i2 : Nat) : Prop := ∃ o1 o2, m1.cat.rows[i1]? = some o1 ∧ m2.cat.rows[i2]? = some o2 ∧ o1.id = o2.id

/-- The number of cutouts of an object. -/
def HasNcutout (m : MEDS) (i : Nat) (n : Int) : Prop := ∃ o, m.cat.rows[i]? = some o ∧ o.ncutout = n

end Meds.Spec

namespace Meds.Compare
open Spec

theorem mem_matchIds {ids1 ids2 : List Int} {l : List (Nat × Nat)} (h : matchIds ids1 ids2 = .ok l) {i1 i2 : Nat} :
    (i1, i2) ∈ l ↔ ∃ x, ids1[i1]? = some x ∧ ids2[i2]? = some x := by
  unfold matchIds at h
  split at h
  · cases h
  split at h
  · cases h
  rename_i hd
  injection h with h
  subst h
  rw [not_not] at hd
  rw [List.mem_filterMap]
  constructor
  · rintro ⟨⟨x, j⟩, hm, e⟩
    rw [List.mem_zipIdx_iff_getElem?] at hm
    obtain ⟨i, hi, e⟩ := Option.map_eq_some_iff.mp e
    injection e with e1 e2
    subst e1 e2
    refine ⟨x, ?_, hm⟩
    obtain ⟨hl, e, _⟩ := List.idxOf?_eq_some_iff.mp hi
    exact List.getElem?_eq_some_iff.mpr ⟨hl, e⟩
  · rintro ⟨x, h1, h2⟩
    refine ⟨(x, i2), List.mem_zipIdx_iff_getElem?.mpr h2, ?_⟩
    have : ids1.idxOf? x = some i1 := by
      obtain ⟨hl, e1⟩ := List.getElem?_eq_some_iff.mp h1
      refine List.idxOf?_eq_some_iff.mpr ⟨hl, e1, ?_⟩
      intro j hj e
      have := (List.nodup_iff_getElem?_ne_getElem?.mp hd) j i1 hj hl
      exact this (by rw [List.getElem?_eq_getElem (by omega), e, h1])
    simp [this]

theorem mem_matched {c : Comparator} {l : List (Nat × Nat)} (h : c.matched = .ok l) {i1 i2 : Nat} : (i1, i2) ∈ l ↔ SameId c.m1 c.m2 i1 i2 := by
  unfold Comparator.matched at h
  obtain ⟨l', h1, h⟩ := Res.bind_eq_ok.mp h
  split at h
  · cases h
  injection h with h
  subst h
  rw [mem_matchIds h1]
  unfold SameId
  simp only [List.getElem?_map, Option.map_eq_some_iff]
  constructor
  · rintro ⟨x, ⟨o1, e1, e2⟩, o2, e3, e4⟩
    exact ⟨o1, o2, e1, e3, e2.trans e4.symm⟩
  · rintro ⟨o1, o2, e1, e2, e3⟩
    exact ⟨o2.id, ⟨o1, e1, e3⟩, o2, e2, rfl⟩

theorem compareExact_ok {a b : Img ℚ} (ha : a.WF) (hb : b.WF) (h : compareExact a b = .ok ()) : a = b := by
  unfold compareExact sameShape at h
  obtain ⟨_, h1, h2⟩ := Res.bind_eq_ok.mp h
  split at h1
  · cases h1
  rename_i hs
  rw [not_or, not_not, not_not] at hs
  split at h2
  · cases h2
  rename_i hp
  have hfl : a.flat = b.flat := by
    have hlen : a.flat.length = b.flat.length := by rw [show a.flat.length = _ from ha, show b.flat.length = _ from hb, hs.1, hs.2]
    rw [List.any_eq_true] at hp
    apply List.ext_getElem hlen
    intro i h1 h2
    by_contra hn
    apply hp
    refine ⟨true, List.mem_iff_getElem.mpr ⟨i, by simp [h1, h2], ?_⟩, rfl⟩
    rw [List.getElem_zipWith]
    simpa using hn
  cases a
  cases b
  simp_all

theorem compareExact_self (a : Img ℚ) : compareExact a a = .ok () := by
  unfold compareExact sameShape
  rw [if_neg (by simp)]
  simp only [Res.ok_bind]
  rw [if_neg]
  rw [List.any_eq_true]
  rintro ⟨x, hx, e⟩
  obtain ⟨i, hi, e'⟩ := List.mem_iff_getElem.mp hx
  rw [List.getElem_zipWith] at e'
  rw [← e'] at e
  simp at e

theorem getCutout_WF {m : MEDS} {i k : Int} {t : String} (ht : t ≠ "psf") {im : Img ℚ} (h : m.getCutout i k t = .ok im) : im.WF := by
  unfold MEDS.getCutout at h
  rw [if_neg ht] at h
  obtain ⟨_, _, h⟩ := Res.bind_eq_ok.mp h
  obtain ⟨o, _, h⟩ := Res.bind_eq_ok.mp h
  obtain ⟨_, _, h⟩ := Res.bind_eq_ok.mp h
  obtain ⟨_, _, h⟩ := Res.bind_eq_ok.mp h
  obtain ⟨fl, _, h⟩ := Res.bind_eq_ok.mp h
  obtain ⟨h1, h2, h3, e⟩ := reshape_ok h
  rw [e]
  show fl.length = _ * _
  have : ((fl.length : Nat) : Int) = ((o.boxSize.toNat * o.boxSize.toNat : Nat) : Int) := by
    rw [h3]; push_cast; rw [Int.toNat_of_nonneg h1]
  exact_mod_cast this

theorem comparePair_ok {c : Comparator} {t : String} {bd bd' : Bool} {p : Nat × Nat} (h : c.comparePair t bd p = .ok bd') :
    ∃ n, c.checkNcutout p.1 p.2 = .ok n ∧ ∀ k : Nat, (k : Int) < n → c.compareCutout t p.1 p.2 k = .ok () := by
  unfold Comparator.comparePair at h
  obtain ⟨n, h1, h⟩ := Res.bind_eq_ok.mp h
  obtain ⟨l, h2, h⟩ := Res.bind_eq_ok.mp h
  refine ⟨n, h1, ?_⟩
  intro k hk
  have hr : (List.range n.toNat)[k]? = some k := List.getElem?_range (by omega)
  obtain ⟨u, _, e⟩ := mapRes_getElem? h2 hr
  exact e

theorem go_ok {c : Comparator} (h : c.go = .ok ()) :
    ∃ l, c.matched = .ok l ∧ ∀ t ∈ ["image", "weight", "bmask", "seg"], ∀ p ∈ l, ∃ n, c.checkNcutout p.1 p.2 = .ok n ∧ ∀ k : Nat, (k : Int) < n → c.compareCutout t p.1 p.2 k = .ok () := by
  unfold Comparator.go at h
  obtain ⟨l, h1, h⟩ := Res.bind_eq_ok.mp h
  obtain ⟨_, _, h⟩ := Res.bind_eq_ok.mp h
  obtain ⟨us, h2, _⟩ := Res.bind_eq_ok.mp h
  refine ⟨l, h1, ?_⟩
  intro t ht p hp
  obtain ⟨i, hi⟩ := List.mem_iff_getElem?.mp ht
  obtain ⟨u, _, e⟩ := mapRes_getElem? h2 hi
  unfold Comparator.compareImages at e
  obtain ⟨b, e, _⟩ := Res.bind_eq_ok.mp e
  clear h2 hi ht
  generalize false = bd at e
  obtain ⟨l1, l2, rfl⟩ := List.append_of_mem hp
  rw [foldRes_append] at e
  obtain ⟨b1, _, e⟩ := Res.bind_eq_ok.mp e
  obtain ⟨b2, e, _⟩ := foldRes_cons_ok.mp e
  exact comparePair_ok e

/-- **C50** When the comparison ends without an error, every pair of objects with the same id has the same `bmask` and `seg` cutouts, pixel by pixel, over the epochs
compared; `image` and `weight` cutouts of the same shape; and, if asked for, the same number of cutouts.  So any difference there raises. -/
theorem C50_detects {c : Comparator} (h : c.go = .ok ()) {i1 i2 : Nat} (hid : SameId c.m1 c.m2 i1 i2) :
    ∃ n1 n2, HasNcutout c.m1 i1 n1 ∧ HasNcutout c.m2 i2 n2 ∧ (c.sameNepoch = true → n1 = n2) ∧
      ∀ k : Nat, (k : Int) < n1 → (k : Int) < n2 →
        (∀ t ∈ ["bmask", "seg"], ∃ im, c.m1.getCutout i1 k t = .ok im ∧ c.m2.getCutout i2 k t = .ok im) ∧
        (∀ t ∈ ["image", "weight"], ∃ a b, c.m1.getCutout i1 k t = .ok a ∧ c.m2.getCutout i2 k t = .ok b ∧ a.nr = b.nr ∧ a.nc = b.nc) := by
  obtain ⟨l, hl, hall⟩ := go_ok h
  have hp := (mem_matched hl).mpr hid
  obtain ⟨o1, o2, e1, e2, _⟩ := hid
  refine ⟨o1.ncutout, o2.ncutout, ⟨o1, e1, rfl⟩, ⟨o2, e2, rfl⟩, ?_⟩
  have hn : ∀ n, c.checkNcutout i1 i2 = .ok n → (c.sameNepoch = true → o1.ncutout = o2.ncutout) ∧ (n = o1.ncutout ∨ n = o2.ncutout) := by
    intro n hn
    unfold Comparator.checkNcutout at hn
    rw [show c.m1.row (i1 : Int) = .ok o1 from pyGet_nat_some e1, show c.m2.row (i2 : Int) = .ok o2 from pyGet_nat_some e2] at hn
    simp only [Res.ok_bind] at hn
    split at hn
    · rename_i hs
      injection hn with hn
      exact ⟨fun h => absurd (hs.symm.trans h) (by decide), by omega⟩
    · split at hn
      · cases hn
      · rename_i hne
        rw [not_not] at hne
        injection hn with hn
        exact ⟨fun _ => hne, .inl hn.symm⟩
  obtain ⟨n, q1, _⟩ := hall "image" (by simp) _ hp
  refine ⟨(hn n q1).1, ?_⟩
  intro k hk1 hk2
  have hcut : ∀ t ∈ ["image", "weight", "bmask", "seg"], c.compareCutout t i1 i2 k = .ok () := by
    intro t ht
    obtain ⟨n, q1, q2⟩ := hall t ht _ hp
    apply q2
    rcases (hn n q1).2 with e | e <;> omega
  have hread : ∀ t ∈ ["image", "weight", "bmask", "seg"], ∃ a b, c.m1.getCutout i1 k t = .ok a ∧ c.m2.getCutout i2 k t = .ok b ∧
      (if t = "image" then sameShape a b else if t = "weight" then sameShape a b else compareExact a b) = .ok () := by
    intro t ht
    have := hcut t ht
    unfold Comparator.compareCutout at this
    obtain ⟨b, r1, this⟩ := Res.bind_eq_ok.mp this
    obtain ⟨a, r2, this⟩ := Res.bind_eq_ok.mp this
    exact ⟨a, b, r2, r1, this⟩
  constructor
  · intro t ht
    have ht' : t = "bmask" ∨ t = "seg" := by simpa using ht
    obtain ⟨a, b, r1, r2, r3⟩ := hread t (by rcases ht' with rfl | rfl <;> simp)
    rw [if_neg (by rcases ht' with rfl | rfl <;> decide), if_neg (by rcases ht' with rfl | rfl <;> decide)] at r3
    have hpsf : t ≠ "psf" := by rcases ht' with rfl | rfl <;> decide
    have := compareExact_ok (getCutout_WF hpsf r1) (getCutout_WF hpsf r2) r3
    subst this
    exact ⟨a, r1, r2⟩
  · intro t ht
    have ht' : t = "image" ∨ t = "weight" := by simpa using ht
    obtain ⟨a, b, r1, r2, r3⟩ := hread t (by rcases ht' with rfl | rfl <;> simp)
    have : sameShape a b = .ok () := by
      rcases ht' with rfl | rfl
      · rw [if_pos rfl] at r3; exact r3
      · rw [if_neg (by decide), if_pos rfl] at r3; exact r3
    unfold sameShape at this
    split at this
    · cases this
    rename_i hs
    rw [not_or, not_not, not_not] at hs
    exact ⟨a, b, r1, r2, hs⟩

/-- **C50** With `png_prefix=None`, comparing a file with itself succeeds, when its ids are different and the four types can be read. -/
theorem C50_self_partial {m : MEDS} {same : Bool} (hne : m.cat.rows ≠ []) (hids : (m.cat.rows.map (·.id)).Nodup)
    (hread : ∀ t ∈ ["image", "weight", "bmask", "seg"], ∀ i n, HasNcutout m i n → ∀ k : Nat, (k : Int) < n → ∃ im, m.getCutout i k t = .ok im) :
    (⟨m, m, same, .isNone⟩ : Comparator).go = .ok () := by
  have hmatch : ∃ l, (⟨m, m, same, .isNone⟩ : Comparator).matched = .ok l := by
    unfold Comparator.matched
    have : ∃ l, matchIds (m.cat.rows.map (·.id)) (m.cat.rows.map (·.id)) = .ok l := by
      unfold matchIds
      rw [if_neg (by simpa using hne), if_neg (by rw [not_not]; exact hids)]
      exact ⟨_, rfl⟩
    obtain ⟨l, hl⟩ := this
    simp only
    rw [hl]
    simp only [Res.ok_bind]
    have h0 : (0, 0) ∈ l := by
      rw [mem_matchIds hl]
      obtain ⟨a, rs, e⟩ := List.exists_cons_of_ne_nil hne
      exact ⟨a.id, by simp [e], by simp [e]⟩
    rw [if_neg (by have := List.length_pos_of_mem h0; omega)]
    exact ⟨l, rfl⟩
  obtain ⟨l, hl⟩ := hmatch
  have hpair : ∀ t ∈ ["image", "weight", "bmask", "seg"], ∀ p ∈ l, ∀ bd, ∃ bd', (⟨m, m, same, .isNone⟩ : Comparator).comparePair t bd p = .ok bd' := by
    rintro t ht ⟨i1, i2⟩ hp bd
    obtain ⟨o1, o2, e1, e2, e3⟩ := (mem_matched hl).mp hp
    simp only at e1 e2
    have hi : i1 = i2 := by
      by_contra hn
      have h1 := (List.getElem?_eq_some_iff.mp e1).1
      have h2 := (List.getElem?_eq_some_iff.mp e2).1
      have e4 : (m.cat.rows.map (·.id))[i1]? = (m.cat.rows.map (·.id))[i2]? := by
        rw [List.getElem?_map, List.getElem?_map, e1, e2]
        simp [e3]
      rcases Nat.lt_or_gt_of_ne hn with h | h
      · exact (List.nodup_iff_getElem?_ne_getElem?.mp hids) i1 i2 h (by simpa using h2) e4
      · exact (List.nodup_iff_getElem?_ne_getElem?.mp hids) i2 i1 h (by simpa using h1) e4.symm
    subst hi
    rw [e1] at e2
    injection e2 with e2
    subst e2
    have hck : (⟨m, m, same, .isNone⟩ : Comparator).checkNcutout i1 i1 = .ok o1.ncutout := by
      unfold Comparator.checkNcutout
      simp only
      rw [show m.row (i1 : Int) = .ok o1 from pyGet_nat_some e1]
      simp only [Res.ok_bind]
      split
      · simp
      · simp
    unfold Comparator.comparePair
    simp only
    rw [hck]
    simp only [Res.ok_bind]
    obtain ⟨us, hus⟩ := mapRes_of_forall (f := fun k => (⟨m, m, same, .isNone⟩ : Comparator).compareCutout t i1 i1 k) (l := List.range o1.ncutout.toNat) (by
      intro k hk
      have hk := List.mem_range.mp hk
      obtain ⟨im, him⟩ := hread t ht i1 o1.ncutout ⟨o1, e1, rfl⟩ k (by omega)
      unfold Comparator.compareCutout
      simp only
      rw [him]
      simp only [Res.ok_bind]
      have hsh : sameShape im im = .ok () := by unfold sameShape; rw [if_neg (by simp)]
      rw [hsh, compareExact_self]
      refine ⟨(), ?_⟩
      split_ifs <;> rfl)
    rw [hus]
    simp only [Res.ok_bind]
    rw [if_neg (by simp)]
    exact ⟨_, rfl⟩
  unfold Comparator.go
  rw [hl]
  simp only [Res.ok_bind]
  have hobj : (⟨m, m, same, .isNone⟩ : Comparator).objectData = .ok () := by
    unfold Comparator.objectData
    rw [if_neg (by simp)]
  rw [hobj]
  simp only [Res.ok_bind]
  obtain ⟨us, hus⟩ := mapRes_of_forall (f := (⟨m, m, same, .isNone⟩ : Comparator).compareImages l) (l := ["image", "weight", "bmask", "seg"]) (by
    intro t ht
    unfold Comparator.compareImages
    obtain ⟨b, hb, _⟩ := Maker.foldRes_total (f := (⟨m, m, same, .isNone⟩ : Comparator).comparePair t) (l := l) (b := false) (P := fun _ => True) trivial (by
      intro b p hp _
      obtain ⟨b', e⟩ := hpair t ht p hp b
      exact ⟨b', e, trivial⟩)
    rw [hb]
    simp only [Res.ok_bind]
    rw [if_neg (by simp)]
    exact ⟨(), rfl⟩)
  rw [hus]
  rfl

/-- **C50** With the default `png_prefix` the comparison never succeeds, whatever the files. -/
theorem C50_default_raises {c : Comparator} (h : c.png = .isFalse) : c.go ≠ .ok () := by
  intro hg
  unfold Comparator.go at hg
  obtain ⟨l, _, hg⟩ := Res.bind_eq_ok.mp hg
  obtain ⟨_, _, hg⟩ := Res.bind_eq_ok.mp hg
  obtain ⟨us, h2, _⟩ := Res.bind_eq_ok.mp hg
  obtain ⟨u, _, e⟩ := mapRes_getElem? (x := "image") (i := 0) h2 rfl
  unfold Comparator.compareImages at e
  obtain ⟨_, _, e⟩ := Res.bind_eq_ok.mp e
  rw [if_pos ⟨rfl, h⟩] at e
  cases e

/-- **C50** is false as a whole: with the default arguments, a good file compared with itself is an error; with `png_prefix=None` it is not. -/
theorem C50_counterexample : (⟨Ex.med, Ex.med, true, .isFalse⟩ : Comparator).go = .error .typeError ∧ (⟨Ex.med, Ex.med, true, .isNone⟩ : Comparator).go = .ok () := by
  decide +kernel

section Examples

/-- The example file with one pixel of an extension changed. -/
def changed (ext : String) : MEDS :=
  { Ex.med with fits := ⟨Ex.med.fits.hdus.map (fun h => if h.1 = ext then (h.1, match h.2 with | .image p => .image (p.set 17 777) | x => x) else h)⟩ }

/-- The example file with another number of cutouts for the second object. -/
def fewer : MEDS :=
  { Ex.med with cat := { Ex.med.cat with rows := Ex.med.cat.rows.zipIdx.map (fun p => if p.2 = 1 then { p.1 with ncutout := 2 } else p.1) } }

/-- The example file with other catalogue values. -/
def otherCat : MEDS :=
  { Ex.med with cat := { Ex.med.cat with rows := Ex.med.cat.rows.map (fun o => { o with extra := "y", number := o.number + 5, sky := ⟨1, 2, none, none⟩ }) } }

-- the hypothesis of `C50_detects` holds for different files: one `image` pixel and all of the catalogue that is not used to find pixels may differ
example : (⟨Ex.med, changed "image_cutouts", true, .isNone⟩ : Comparator).go = .ok () ∧ changed "image_cutouts" ≠ Ex.med := by decide +kernel
example : (⟨Ex.med, otherCat, true, .str⟩ : Comparator).go = .ok () ∧ otherCat ≠ Ex.med := by decide +kernel
example : (Ex.med.cat.rows[1]?).map (·.id) = some 11 ∧ (otherCat.cat.rows[1]?).map (·.id) = some 11 := by decide +kernel
-- a `bmask` pixel, a `seg` pixel or a number of cutouts may not
example : (⟨Ex.med, changed "bmask_cutouts", true, .isNone⟩ : Comparator).go = .error .valueError := by decide +kernel
example : (⟨Ex.med, changed "seg_cutouts", false, .isNone⟩ : Comparator).go = .error .valueError := by decide +kernel
example : (⟨Ex.med, fewer, true, .isNone⟩ : Comparator).go = .error .valueError := by decide +kernel
example : (⟨Ex.med, fewer, false, .isNone⟩ : Comparator).go = .ok () := by decide +kernel
-- the hypotheses of `C50_self_partial`
example : Ex.med.cat.rows ≠ [] ∧ (Ex.med.cat.rows.map (·.id)).Nodup ∧ Ex.med.cat.rows.map (·.ncutout) = [2, 3] ∧
    ∀ t ∈ ["image", "weight", "bmask", "seg"], ∀ i < 2, ∀ k < (if i = 0 then 2 else 3), (Ex.med.getCutout (i : Nat) (k : Nat) t).isOk = true := by decide +kernel

end Examples

end Meds.Compare
