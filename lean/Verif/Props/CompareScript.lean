import Verif.Props.Compare
import Mathlib.Tactic.Push

/-!
# The script meds-compare (C92)
-/

namespace Meds.Spec

/-- The value of the column `name` for object `i`. -/
def KeyIs (m : MEDS) (name : String) (i : Nat) (v : Int) : Prop :=
  ∃ o, m.cat.rows[i]? = some o ∧ (name = "id" ∧ v = o.id ∨ name = "number" ∧ m.cat.dtype.hasNumber = true ∧ v = o.number ∨
    name = "ncutout" ∧ v = o.ncutout ∨ name = "box_size" ∧ v = o.boxSize)

/-- The pairs of objects with the same value in the column, in the order of the second file. -/
def Matches (m1 m2 : MEDS) (name : String) (l : List (Nat × Nat)) : Prop :=
  l.Pairwise (fun p q => p.2 < q.2) ∧ ∀ i1 i2, (i1, i2) ∈ l ↔ ∃ v, KeyIs m1 name i1 v ∧ KeyIs m2 name i2 v

/-- No value occurs twice in the column of the first file. -/
def KeysDiffer (m : MEDS) (name : String) : Prop := ∀ i j v, KeyIs m name i v → KeyIs m name j v → i = j

/-- The catalogues have the same columns. -/
def SameColumns (m1 m2 : MEDS) : Prop :=
  m1.cat.dtype.hasNumber = m2.cat.dtype.hasNumber ∧ (m1.cat.dtype.psfRowCol = .absent ↔ m2.cat.dtype.psfRowCol = .absent) ∧
    (m1.cat.dtype.psfBox = .absent ↔ m2.cat.dtype.psfBox = .absent)

/-- What the script really asks of a pair of objects for one type: cutouts that can be read in both files and have the same shape; equal pixels only for `bmask` and
`seg`. -/
def PlaneAgrees (same : Bool) (type : String) (m1 m2 : MEDS) (p : Nat × Nat) : Prop :=
  ∃ n1 n2, HasNcutout m1 p.1 n1 ∧ HasNcutout m2 p.2 n2 ∧ (same = true → n1 = n2) ∧
    ∀ k : Nat, (k : Int) < n1 → (k : Int) < n2 → ∃ a b, m1.getCutout p.1 k type = .ok a ∧ m2.getCutout p.2 k type = .ok b ∧
      a.nr = b.nr ∧ a.nc = b.nc ∧ (type = "bmask" ∨ type = "seg" → a = b)

/-- Both objects have a cutout. -/
def BothHaveOne (m1 m2 : MEDS) (p : Nat × Nat) : Prop := ∃ n1 n2, HasNcutout m1 p.1 n1 ∧ HasNcutout m2 p.2 n2 ∧ 0 < n1 ∧ 0 < n2

end Meds.Spec

namespace Meds.Compare
open Spec

section
variable {c : Comparator}

theorem row_iff {m : MEDS} {i : Nat} {o : ObjRow} : m.row (i : Int) = .ok o ↔ m.cat.rows[i]? = some o := by
  constructor
  · intro h
    have := pyGet_ok_nonneg h (by omega)
    simpa using this
  · intro h
    exact pyGet_nat_some h

theorem HasNcutout.unique {m : MEDS} {i : Nat} {n n' : Int} (h : HasNcutout m i n) (h' : HasNcutout m i n') : n = n' := by
  obtain ⟨o, e, rfl⟩ := h
  obtain ⟨o', e', rfl⟩ := h'
  rw [e] at e'
  injection e' with e'
  rw [e']

theorem check_iff {i1 i2 : Nat} {n : Int} : c.checkNcutout i1 i2 = .ok n ↔
    ∃ n1 n2, HasNcutout c.m1 i1 n1 ∧ HasNcutout c.m2 i2 n2 ∧ (c.sameNepoch = true → n1 = n2) ∧ n = min n1 n2 := by
  unfold Comparator.checkNcutout
  constructor
  · intro h
    obtain ⟨o1, h1, h⟩ := Res.bind_eq_ok.mp h
    obtain ⟨o2, h2, h⟩ := Res.bind_eq_ok.mp h
    refine ⟨o1.ncutout, o2.ncutout, ⟨o1, row_iff.mp h1, rfl⟩, ⟨o2, row_iff.mp h2, rfl⟩, ?_⟩
    split at h
    · rename_i hs
      injection h with h
      exact ⟨fun e => absurd (hs.symm.trans e) (by decide), h.symm⟩
    · split at h
      · cases h
      · rename_i hne
        rw [not_not] at hne
        injection h with h
        exact ⟨fun _ => hne, by omega⟩
  · rintro ⟨n1, n2, ⟨o1, h1, rfl⟩, ⟨o2, h2, rfl⟩, hs, rfl⟩
    rw [row_iff.mpr h1, row_iff.mpr h2]
    simp only [Res.ok_bind]
    split
    · rfl
    · rename_i hf
      have := hs (by simpa using hf)
      rw [if_neg (by simpa using this), this, min_self]

theorem cutout_iff {type : String} (ht : type ≠ "psf") {i1 i2 k : Nat} : c.compareCutout type i1 i2 k = .ok () ↔
    ∃ a b, c.m1.getCutout i1 k type = .ok a ∧ c.m2.getCutout i2 k type = .ok b ∧ a.nr = b.nr ∧ a.nc = b.nc ∧
      (type ≠ "image" → type ≠ "weight" → a = b) := by
  have shape : ∀ a b : Img ℚ, sameShape a b = .ok () ↔ a.nr = b.nr ∧ a.nc = b.nc := by
    intro a b
    unfold sameShape
    split
    · rename_i h
      constructor
      · intro e; cases e
      · rintro ⟨e1, e2⟩; rcases h with h | h
        · exact absurd e1 h
        · exact absurd e2 h
    · rename_i h
      push Not at h
      exact ⟨fun _ => h, fun _ => rfl⟩
  unfold Comparator.compareCutout
  constructor
  · intro h
    obtain ⟨b, h2, h⟩ := Res.bind_eq_ok.mp h
    obtain ⟨a, h1, h⟩ := Res.bind_eq_ok.mp h
    refine ⟨a, b, h1, h2, ?_⟩
    by_cases hi : type = "image"
    · rw [if_pos hi] at h
      exact ⟨((shape a b).mp h).1, ((shape a b).mp h).2, fun e => absurd hi e⟩
    rw [if_neg hi] at h
    by_cases hw : type = "weight"
    · rw [if_pos hw] at h
      exact ⟨((shape a b).mp h).1, ((shape a b).mp h).2, fun _ e => absurd hw e⟩
    rw [if_neg hw] at h
    have := compareExact_ok (getCutout_WF ht h1) (getCutout_WF ht h2) h
    subst this
    exact ⟨rfl, rfl, fun _ _ => rfl⟩
  · rintro ⟨a, b, h1, h2, h3, h4, h5⟩
    rw [h1, h2]
    simp only [Res.ok_bind]
    by_cases hi : type = "image"
    · rw [if_pos hi]; exact (shape a b).mpr ⟨h3, h4⟩
    rw [if_neg hi]
    by_cases hw : type = "weight"
    · rw [if_pos hw]; exact (shape a b).mpr ⟨h3, h4⟩
    rw [if_neg hw, h5 hi hw]
    exact compareExact_self b

theorem pair_iff (hf : c.png ≠ .isFalse) {type : String} (ht : type ∈ ["image", "weight", "bmask", "seg"]) {bd : Bool} {p : Nat × Nat} :
    (∃ b, c.comparePair type bd p = .ok b) ↔ PlaneAgrees c.sameNepoch type c.m1 c.m2 p ∧
      (type = "image" → c.png = .str → bd = true ∨ BothHaveOne c.m1 c.m2 p) := by
  have hpsf : type ≠ "psf" := by rintro rfl; revert ht; decide
  have hty : type ≠ "image" → type ≠ "weight" → type = "bmask" ∨ type = "seg" := by
    intro h1 h2
    simp only [List.mem_cons, List.not_mem_nil, or_false] at ht
    tauto
  have hty' : type = "bmask" ∨ type = "seg" → type ≠ "image" ∧ type ≠ "weight" := by
    rintro (rfl | rfl) <;> decide
  constructor
  · rintro ⟨b, h⟩
    obtain ⟨n, h1, h2⟩ := comparePair_ok h
    obtain ⟨n1, n2, g1, g2, g3, rfl⟩ := check_iff.mp h1
    refine ⟨⟨n1, n2, g1, g2, g3, ?_⟩, ?_⟩
    · intro k k1 k2
      obtain ⟨x, y, e1, e2, e3, e4, e5⟩ := (cutout_iff hpsf).mp (h2 k (by omega))
      exact ⟨x, y, e1, e2, e3, e4, fun e => e5 (hty' e).1 (hty' e).2⟩
    · intro hi hs
      unfold Comparator.comparePair at h
      rw [h1] at h
      simp only [Res.ok_bind] at h
      obtain ⟨_, _, h⟩ := Res.bind_eq_ok.mp h
      rw [if_pos ⟨hi, by rw [hs]; decide⟩] at h
      by_cases hb : (bd || decide (0 < min n1 n2)) = false
      · rw [if_pos hb] at h; cases h
      · rw [Bool.not_eq_false, Bool.or_eq_true] at hb
        rcases hb with hb | hb
        · exact .inl hb
        · have := of_decide_eq_true hb
          exact .inr ⟨n1, n2, g1, g2, by omega, by omega⟩
  · rintro ⟨⟨n1, n2, g1, g2, g3, g4⟩, hp⟩
    unfold Comparator.comparePair
    rw [check_iff.mpr ⟨n1, n2, g1, g2, g3, rfl⟩]
    simp only [Res.ok_bind]
    obtain ⟨us, hus⟩ := mapRes_of_forall (f := fun k => c.compareCutout type p.1 p.2 k) (l := List.range (min n1 n2).toNat) (by
      intro k hk
      have hk := List.mem_range.mp hk
      obtain ⟨a, b, e1, e2, e3, e4, e5⟩ := g4 k (by omega) (by omega)
      exact ⟨(), (cutout_iff hpsf).mpr ⟨a, b, e1, e2, e3, e4, fun h1 h2 => e5 (hty h1 h2)⟩⟩)
    rw [hus]
    simp only [Res.ok_bind]
    by_cases hi : type = "image" ∧ c.png ≠ .isNone
    · rw [if_pos hi]
      have hs : c.png = .str := by
        cases h : c.png with
        | isFalse => exact absurd h hf
        | isNone => exact absurd h hi.2
        | str => rfl
      have hb : (bd || decide (0 < min n1 n2)) = true := by
        rw [Bool.or_eq_true]
        rcases hp hi.1 hs with h | ⟨m1, m2, q1, q2, q3, q4⟩
        · exact .inl h
        · rw [HasNcutout.unique g1 q1, HasNcutout.unique g2 q2]
          exact .inr (decide_eq_true (by omega))
      rw [if_neg (by rw [hb]; decide), if_neg hf]
      exact ⟨_, rfl⟩
    · rw [if_neg hi]
      exact ⟨_, rfl⟩

theorem pair_bound {type : String} {bd b : Bool} {p : Nat × Nat} (h : c.comparePair type bd p = .ok b) (hi : type = "image") (hs : c.png = .str) : b = true := by
  unfold Comparator.comparePair at h
  obtain ⟨n, _, h⟩ := Res.bind_eq_ok.mp h
  obtain ⟨_, _, h⟩ := Res.bind_eq_ok.mp h
  rw [if_pos ⟨hi, by rw [hs]; decide⟩] at h
  by_cases hb : (bd || decide (0 < n)) = false
  · rw [if_pos hb] at h; cases h
  · rw [if_neg hb, if_neg (by rw [hs]; decide)] at h
    injection h with h
    rw [← h]
    rwa [Bool.not_eq_false] at hb

theorem fold_iff (hf : c.png ≠ .isFalse) {type : String} (ht : type ∈ ["image", "weight", "bmask", "seg"]) {bd : Bool} {l : List (Nat × Nat)} :
    (∃ b, foldRes (c.comparePair type) bd l = .ok b) ↔ (∀ p ∈ l, PlaneAgrees c.sameNepoch type c.m1 c.m2 p) ∧
      (type = "image" → c.png = .str → bd = true ∨ ∀ p ∈ l.head?, BothHaveOne c.m1 c.m2 p) := by
  induction l generalizing bd with
  | nil => simp [foldRes]
  | cons p l ih =>
    constructor
    · rintro ⟨b, h⟩
      obtain ⟨b1, h1, h⟩ := foldRes_cons_ok.mp h
      have q := (pair_iff hf ht).mp ⟨b1, h1⟩
      have r := ih.mp ⟨b, h⟩
      refine ⟨?_, ?_⟩
      · intro x hx
        rcases List.mem_cons.mp hx with rfl | hx
        · exact q.1
        · exact r.1 x hx
      · intro hi hs
        rcases q.2 hi hs with h | h
        · exact .inl h
        · refine .inr (fun x hx => ?_)
          rw [List.head?_cons, Option.mem_some_iff] at hx
          rw [← hx]; exact h
    · rintro ⟨h1, h2⟩
      obtain ⟨b1, e1⟩ := (pair_iff hf ht (bd := bd) (p := p)).mpr ⟨h1 p List.mem_cons_self, fun hi hs => by
        rcases h2 hi hs with h | h
        · exact .inl h
        · exact .inr (h p (by simp))⟩
      obtain ⟨b, e2⟩ := (ih (bd := b1)).mpr ⟨fun x hx => h1 x (List.mem_cons_of_mem _ hx), fun hi hs => .inl (pair_bound e1 hi hs)⟩
      exact ⟨b, foldRes_cons_ok.mpr ⟨b1, e1, e2⟩⟩

theorem images_iff (hf : c.png ≠ .isFalse) {type : String} (ht : type ∈ ["image", "weight", "bmask", "seg"]) {l : List (Nat × Nat)} :
    c.compareImages l type = .ok () ↔ (∀ p ∈ l, PlaneAgrees c.sameNepoch type c.m1 c.m2 p) ∧
      (type = "image" → c.png = .str → ∀ p ∈ l.head?, BothHaveOne c.m1 c.m2 p) := by
  have key := fold_iff hf ht (bd := false) (l := l)
  simp only [Bool.false_eq_true, false_or] at key
  rw [← key]
  unfold Comparator.compareImages
  constructor
  · intro h
    obtain ⟨b, h, _⟩ := Res.bind_eq_ok.mp h
    exact ⟨b, h⟩
  · rintro ⟨b, h⟩
    rw [h]
    simp only [Res.ok_bind]
    rw [if_neg (fun e => hf e.2)]

end

/-! ### Matching -/

theorem idColumn_iff {m : MEDS} {name : String} {k : ObjRow → Int} (h : idColumn m.cat.dtype name = .ok k) {i : Nat} {v : Int} :
    KeyIs m name i v ↔ (m.cat.rows.map k)[i]? = some v := by
  unfold KeyIs
  rw [List.getElem?_map, Option.map_eq_some_iff]
  unfold idColumn at h
  split at h
  · rename_i e; injection h with h; subst e h
    exact ⟨fun ⟨o, e, h⟩ => ⟨o, e, by rcases h with ⟨_, h⟩ | ⟨h, _⟩ | ⟨h, _⟩ | ⟨h, _⟩ <;> first | exact h.symm | exact absurd h (by decide)⟩,
      fun ⟨o, e, h⟩ => ⟨o, e, .inl ⟨rfl, h.symm⟩⟩⟩
  split at h
  · rename_i e
    split at h
    · rename_i hn
      injection h with h; subst e h
      exact ⟨fun ⟨o, e, h⟩ => ⟨o, e, by rcases h with ⟨h, _⟩ | ⟨_, _, h⟩ | ⟨h, _⟩ | ⟨h, _⟩ <;> first | exact h.symm | exact absurd h (by decide)⟩,
        fun ⟨o, e, h⟩ => ⟨o, e, .inr (.inl ⟨rfl, hn, h.symm⟩)⟩⟩
    · cases h
  split at h
  · rename_i e; injection h with h; subst e h
    exact ⟨fun ⟨o, e, h⟩ => ⟨o, e, by rcases h with ⟨h, _⟩ | ⟨h, _⟩ | ⟨_, h⟩ | ⟨h, _⟩ <;> first | exact h.symm | exact absurd h (by decide)⟩,
      fun ⟨o, e, h⟩ => ⟨o, e, .inr (.inr (.inl ⟨rfl, h.symm⟩))⟩⟩
  split at h
  · rename_i e; injection h with h; subst e h
    exact ⟨fun ⟨o, e, h⟩ => ⟨o, e, by rcases h with ⟨h, _⟩ | ⟨h, _⟩ | ⟨h, _⟩ | ⟨_, h⟩ <;> first | exact h.symm | exact absurd h (by decide)⟩,
      fun ⟨o, e, h⟩ => ⟨o, e, .inr (.inr (.inr ⟨rfl, h.symm⟩))⟩⟩
  cases h

theorem idColumn_of_key {m : MEDS} {name : String} {i : Nat} {v : Int} (h : KeyIs m name i v) : ∃ k, idColumn m.cat.dtype name = .ok k := by
  obtain ⟨o, _, h⟩ := h
  unfold idColumn
  rcases h with ⟨rfl, _⟩ | ⟨rfl, h, _⟩ | ⟨rfl, _⟩ | ⟨rfl, _⟩
  · exact ⟨_, rfl⟩
  · rw [h]; exact ⟨_, rfl⟩
  · exact ⟨_, rfl⟩
  · exact ⟨_, rfl⟩

theorem matchIds_sorted {ids1 ids2 : List Int} {l : List (Nat × Nat)} (h : matchIds ids1 ids2 = .ok l) : l.Pairwise (fun p q => p.2 < q.2) := by
  unfold matchIds at h
  split at h
  · cases h
  split at h
  · cases h
  injection h with h
  subst h
  rw [List.pairwise_filterMap]
  have : ids2.zipIdx.Pairwise (fun a a' => a.2 < a'.2) := by
    rw [List.pairwise_iff_getElem]
    intro i j hi hj hij
    simpa using hij
  refine this.imp ?_
  intro a a' hlt b hb b' hb'
  obtain ⟨_, _, rfl⟩ := Option.map_eq_some_iff.mp hb
  obtain ⟨_, _, rfl⟩ := Option.map_eq_some_iff.mp hb'
  exact hlt

theorem matches_unique {m1 m2 : MEDS} {name : String} {l l' : List (Nat × Nat)} (h : Matches m1 m2 name l) (h' : Matches m1 m2 name l') : l = l' := by
  have nd : ∀ l : List (Nat × Nat), l.Pairwise (fun p q => p.2 < q.2) → l.Nodup := fun l hl => hl.imp (fun hlt e => by rw [e] at hlt; exact lt_irrefl _ hlt)
  have hp : l.Perm l' := (List.perm_ext_iff_of_nodup (nd l h.1) (nd l' h'.1)).mpr (fun p => by
    obtain ⟨i1, i2⟩ := p
    rw [h.2, h'.2])
  exact List.Perm.eq_of_pairwise (le := fun p q : Nat × Nat => p.2 < q.2) (fun a b _ _ h1 h2 => absurd h1 (by omega)) h.1 h'.1 hp

theorem matchedBy_iff {c : Comparator} {name : String} {l : List (Nat × Nat)} :
    c.matchedBy name = .ok l ↔ KeysDiffer c.m1 name ∧ Matches c.m1 c.m2 name l ∧ l ≠ [] := by
  have fwd : ∀ l, c.matchedBy name = .ok l → KeysDiffer c.m1 name ∧ Matches c.m1 c.m2 name l ∧ l ≠ [] := by
    intro l h
    unfold Comparator.matchedBy at h
    obtain ⟨k1, e1, h⟩ := Res.bind_eq_ok.mp h
    obtain ⟨k2, e2, h⟩ := Res.bind_eq_ok.mp h
    obtain ⟨l', hm, h⟩ := Res.bind_eq_ok.mp h
    split at h
    · cases h
    rename_i hl
    injection h with h
    subst h
    refine ⟨?_, ⟨matchIds_sorted hm, ?_⟩, by rintro rfl; exact hl rfl⟩
    · intro i j v hi hj
      rw [idColumn_iff e1] at hi hj
      unfold matchIds at hm
      split at hm
      · cases hm
      split at hm
      · cases hm
      rename_i hd
      rw [not_not] at hd
      obtain ⟨hi', hi⟩ := List.getElem?_eq_some_iff.mp hi
      obtain ⟨hj', hj⟩ := List.getElem?_eq_some_iff.mp hj
      exact (List.Nodup.getElem_inj_iff hd).mp (hi.trans hj.symm)
    · intro i1 i2
      rw [mem_matchIds hm]
      simp only [idColumn_iff e1, idColumn_iff e2]
  refine ⟨fwd l, ?_⟩
  rintro ⟨hd, hM, hne⟩
  obtain ⟨⟨i1, i2⟩, rest, e⟩ := List.exists_cons_of_ne_nil hne
  obtain ⟨v, q1, q2⟩ := (hM.2 i1 i2).mp (by rw [e]; exact List.mem_cons_self)
  obtain ⟨k1, e1⟩ := idColumn_of_key q1
  obtain ⟨k2, e2⟩ := idColumn_of_key q2
  have n1 := (idColumn_iff e1).mp q1
  have n2 := (idColumn_iff e2).mp q2
  have hnd : (c.m1.cat.rows.map k1).Nodup := by
    rw [List.nodup_iff_injective_getElem]
    rintro ⟨i, hi⟩ ⟨j, hj⟩ e
    have := hd i j _ ((idColumn_iff e1).mpr (List.getElem?_eq_getElem hi)) ((idColumn_iff e1).mpr (by rw [List.getElem?_eq_getElem hj]; exact congrArg some e.symm))
    exact Fin.ext this
  have hm : ∃ l', matchIds (c.m1.cat.rows.map k1) (c.m2.cat.rows.map k2) = .ok l' := by
    unfold matchIds
    rw [if_neg, if_neg (by rw [not_not]; exact hnd)]
    · exact ⟨_, rfl⟩
    · rintro (h | h)
      · rw [h] at n1; simp at n1
      · rw [h] at n2; simp at n2
  obtain ⟨l', hm⟩ := hm
  have hl' : l' ≠ [] := by
    have := (mem_matchIds hm (i1 := i1) (i2 := i2)).mpr ⟨v, n1, n2⟩
    exact List.ne_nil_of_mem this
  have h : c.matchedBy name = .ok l' := by
    unfold Comparator.matchedBy
    rw [e1, e2]
    simp only [Res.ok_bind]
    rw [hm]
    simp only [Res.ok_bind]
    rw [if_neg (by rw [List.length_eq_zero_iff]; exact hl')]
  rw [h, matches_unique (fwd l' h).2.1 hM]

theorem objectData_iff {c : Comparator} : c.objectData = .ok () ↔ SameColumns c.m1 c.m2 := by
  unfold Comparator.objectData SameColumns colNames
  generalize c.m1.cat.dtype.hasNumber = n1
  generalize c.m2.cat.dtype.hasNumber = n2
  by_cases h1 : c.m1.cat.dtype.psfRowCol = .absent <;> by_cases h2 : c.m2.cat.dtype.psfRowCol = .absent <;>
    by_cases h3 : c.m1.cat.dtype.psfBox = .absent <;> by_cases h4 : c.m2.cat.dtype.psfBox = .absent <;> cases n1 <;> cases n2 <;>
    simp [h1, h2, h3, h4]

/-! ### The script -/

/-- The indices, among the matched pairs, of the objects compared for a type. -/
def _root_.Meds.Spec.comparedAt (draw : String → Nat → Nat → List Nat) (nrand : Option Nat) (type : String) (n : Nat) : List Nat :=
  match nrand with
  | none => List.range n
  | some k => draw type n (min k n)

/-- The indices drawn are below the number they are asked for. -/
def _root_.Meds.Spec.DrawsBelow (draw : String → Nat → Nat → List Nat) : Prop := ∀ t n k, ∀ j ∈ draw t n k, j < n

theorem chosen_ok {draw : String → Nat → Nat → List Nat} (hd : Spec.DrawsBelow draw) {nrand : Option Nat} {type : String} {l : List (Nat × Nat)} :
    ∃ sub, chosen draw nrand type l = .ok sub ∧ List.Forall₂ (fun j p => l[j]? = some p) (Spec.comparedAt draw nrand type l.length) sub := by
  have hlt : ∀ j ∈ Spec.comparedAt draw nrand type l.length, j < l.length := by
    unfold Spec.comparedAt
    cases nrand with
    | none => intro j hj; exact List.mem_range.mp hj
    | some k => exact hd _ _ _
  have hc : chosen draw nrand type l = mapRes (fun i : Nat => pyGet l (i : Int)) (Spec.comparedAt draw nrand type l.length) := by
    unfold chosen Spec.comparedAt
    cases nrand <;> rfl
  rw [hc]
  obtain ⟨sub, hs⟩ := mapRes_of_forall (f := fun i : Nat => pyGet l (i : Int)) (l := Spec.comparedAt draw nrand type l.length)
    (fun j hj => ⟨l[j]'(hlt j hj), pyGet_nat (hlt j hj)⟩)
  refine ⟨sub, hs, ?_⟩
  refine (mapRes_ok_iff.mp hs).imp ?_
  intro j p h
  have := pyGet_ok_nonneg h (by omega)
  simpa using this

/-- What the comparison of two open files asks for. -/
def _root_.Meds.Spec.Passes (m1 m2 : MEDS) (a : Args) (draw : String → Nat → Nat → List Nat) : Prop :=
  SameColumns m1 m2 ∧ KeysDiffer m1 a.idName ∧ ∃ l, Matches m1 m2 a.idName l ∧ l ≠ [] ∧
    (∀ t ∈ ["image", "weight", "bmask", "seg"], ∀ j ∈ comparedAt draw a.nrand t l.length, ∀ p, l[j]? = some p → PlaneAgrees (!a.noNepoch) t m1 m2 p) ∧
    (a.png ≠ none → ∀ j p, (comparedAt draw a.nrand "image" l.length)[0]? = some j → l[j]? = some p → BothHaveOne m1 m2 p)

theorem goRand_iff {m1 m2 : MEDS} {a : Args} {draw : String → Nat → Nat → List Nat} (hd : Spec.DrawsBelow draw) :
    (⟨m1, m2, !a.noNepoch, if a.png.isSome then .str else .isNone⟩ : Comparator).goRand a.idName draw a.nrand = .ok () ↔ Spec.Passes m1 m2 a draw := by
  generalize hc : (⟨m1, m2, !a.noNepoch, if a.png.isSome then .str else .isNone⟩ : Comparator) = c
  have c1 : c.m1 = m1 := by rw [← hc]
  have c2 : c.m2 = m2 := by rw [← hc]
  have c3 : c.sameNepoch = !a.noNepoch := by rw [← hc]
  have c4 : c.png ≠ .isFalse := by rw [← hc]; dsimp only; split <;> decide
  have c5 : c.png = .str ↔ a.png ≠ none := by
    rw [← hc]; dsimp only
    cases a.png <;> simp
  have step : ∀ l, ∀ t ∈ ["image", "weight", "bmask", "seg"], ((chosen draw a.nrand t l >>= fun sub => c.compareImages sub t) = .ok () ↔
      (∀ j ∈ Spec.comparedAt draw a.nrand t l.length, ∀ p, l[j]? = some p → PlaneAgrees (!a.noNepoch) t m1 m2 p) ∧
      (t = "image" → a.png ≠ none → ∀ j p, (Spec.comparedAt draw a.nrand "image" l.length)[0]? = some j → l[j]? = some p → BothHaveOne m1 m2 p)) := by
    intro l t ht
    obtain ⟨sub, h1, h2⟩ := chosen_ok hd (nrand := a.nrand) (type := t) (l := l)
    rw [h1]
    simp only [Res.ok_bind]
    rw [images_iff c4 ht, c1, c2, c3, c5]
    have hmem : (∀ p ∈ sub, PlaneAgrees (!a.noNepoch) t m1 m2 p) ↔
        ∀ j ∈ Spec.comparedAt draw a.nrand t l.length, ∀ p, l[j]? = some p → PlaneAgrees (!a.noNepoch) t m1 m2 p := by
      have hlen := h2.length_eq
      have hget := (List.forall₂_iff_get.mp h2).2
      constructor
      · intro h j hj p hp
        obtain ⟨i, hi, rfl⟩ := List.mem_iff_getElem.mp hj
        have := hget i hi (by omega)
        simp only [List.get_eq_getElem] at this
        rw [this] at hp
        injection hp with hp
        rw [← hp]
        exact h _ (List.getElem_mem _)
      · intro h p hp
        obtain ⟨i, hi, rfl⟩ := List.mem_iff_getElem.mp hp
        have := hget i (by omega) hi
        simp only [List.get_eq_getElem] at this
        exact h _ (List.getElem_mem _) _ this
    rw [hmem]
    have hhead : (t = "image" → a.png ≠ none → ∀ p ∈ sub.head?, BothHaveOne m1 m2 p) ↔
        (t = "image" → a.png ≠ none → ∀ j p, (Spec.comparedAt draw a.nrand "image" l.length)[0]? = some j → l[j]? = some p → BothHaveOne m1 m2 p) := by
      constructor
      · rintro h rfl hp j p hj hl
        revert h
        generalize Spec.comparedAt draw a.nrand "image" l.length = I at *
        cases h2 with
        | nil => simp at hj
        | cons e _ =>
          intro h
          simp only [List.getElem?_cons_zero, Option.some.injEq] at hj
          subst hj
          rw [hl] at e
          injection e with e
          subst e
          exact h rfl hp _ (by simp)
      · rintro h rfl hp p hpp
        revert h
        generalize Spec.comparedAt draw a.nrand "image" l.length = I at *
        cases h2 with
        | nil => simp at hpp
        | cons e _ =>
          intro h
          simp only [List.head?_cons, Option.mem_some_iff] at hpp
          subst hpp
          exact h rfl hp _ _ (by simp) e
    rw [hhead]
  unfold Comparator.goRand Spec.Passes
  constructor
  · intro h
    obtain ⟨l, hm, h⟩ := Res.bind_eq_ok.mp h
    obtain ⟨_, ho, h⟩ := Res.bind_eq_ok.mp h
    obtain ⟨us, hu, _⟩ := Res.bind_eq_ok.mp h
    obtain ⟨q1, q2, q3⟩ := matchedBy_iff.mp hm
    have q0 := objectData_iff.mp ho
    rw [c1, c2] at q0 q2
    rw [c1] at q1
    have all : ∀ t ∈ ["image", "weight", "bmask", "seg"], (chosen draw a.nrand t l >>= fun sub => c.compareImages sub t) = .ok () := by
      intro t ht
      obtain ⟨i, hi⟩ := List.mem_iff_getElem?.mp ht
      obtain ⟨u, _, e⟩ := mapRes_getElem? hu hi
      exact e
    exact ⟨q0, q1, l, q2, q3, fun t ht => ((step l t ht).mp (all t ht)).1, ((step l "image" (by simp)).mp (all "image" (by simp))).2 rfl⟩
  · rintro ⟨q0, q1, l, q2, q3, q4, q5⟩
    rw [matchedBy_iff.mpr ⟨by rw [c1]; exact q1, by rw [c1, c2]; exact q2, q3⟩]
    simp only [Res.ok_bind]
    rw [objectData_iff.mpr (by rw [c1, c2]; exact q0)]
    simp only [Res.ok_bind]
    obtain ⟨us, hu⟩ := mapRes_of_forall (f := fun type => chosen draw a.nrand type l >>= fun sub => c.compareImages sub type)
      (l := ["image", "weight", "bmask", "seg"]) (fun t ht => ⟨(), (step l t ht).mpr ⟨q4 t ht, fun e => by intro h; exact q5 h⟩⟩)
    rw [hu]
    rfl

/-- **C92 (partial)** Exit status zero, exactly: both files are there and open, the catalogues have the same columns, the values used for matching differ in the first
file and some are in both; and for each type the pairs compared for it (all of them, or those drawn for this type) have equally many cutouts if that is asked
for, which can be read and have the same shapes, with the same pixels for `bmask` and `seg`; when pictures are asked for, the first pair has a cutout.
Missing: the values of images, weights and catalogue columns, which have no influence, and the objects are not the same for all types; see `C92_counterexample`. -/
theorem C92_status_partial {f1 f2 : Option Fits} {a : Args} {draw : String → Nat → Nat → List Nat} (hd : Spec.DrawsBelow draw) :
    compareMain f1 f2 a draw = 0 ↔ ∃ g1 g2 m1 m2, f1 = some g1 ∧ f2 = some g2 ∧ MEDS.openFile g1 = .ok m1 ∧ MEDS.openFile g2 = .ok m2 ∧ Spec.Passes m1 m2 a draw := by
  unfold compareMain
  cases f1 with
  | none => simp
  | some g1 =>
    cases f2 with
    | none => simp
    | some g2 =>
      dsimp only
      cases h1 : MEDS.openFile g1 with
      | error e => simp [h1]
      | ok m1 =>
        cases h2 : MEDS.openFile g2 with
        | error e => simp [h2]
        | ok m2 =>
          dsimp only
          have key := goRand_iff (m1 := m1) (m2 := m2) (a := a) hd
          cases hg : (⟨m1, m2, !a.noNepoch, if a.png.isSome then .str else .isNone⟩ : Comparator).goRand a.idName draw a.nrand with
          | error e =>
            rw [hg] at key
            dsimp only
            constructor
            · intro h; cases h
            · rintro ⟨g1', g2', m1', m2', e1, e2, e3, e4, hp⟩
              injection e1 with e1; injection e2 with e2
              subst e1 e2
              rw [h1] at e3; rw [h2] at e4
              injection e3 with e3; injection e4 with e4
              subst e3 e4
              have := key.mpr hp
              cases this
          | ok u =>
            rw [hg] at key
            dsimp only
            exact ⟨fun _ => ⟨g1, g2, m1, m2, rfl, rfl, h1, h2, key.mp rfl⟩, fun _ => rfl⟩

/-- **C92** Drawing a subset never finds what the full comparison does not, without pictures. -/
theorem C92_subset {f1 f2 : Option Fits} {a : Args} {draw : String → Nat → Nat → List Nat} (hd : Spec.DrawsBelow draw) (hp : a.png = none)
    (h : compareMain f1 f2 { a with nrand := none } draw = 0) : compareMain f1 f2 a draw = 0 := by
  obtain ⟨g1, g2, m1, m2, e1, e2, e3, e4, q0, q1, l, q2, q3, q4, q5⟩ := (C92_status_partial hd).mp h
  refine (C92_status_partial hd).mpr ⟨g1, g2, m1, m2, e1, e2, e3, e4, q0, q1, l, q2, q3, ?_, fun hn => absurd hp hn⟩
  intro t ht j hj p hpj
  exact q4 t ht j (List.mem_range.mpr (List.getElem?_eq_some_iff.mp hpj).1) p hpj

/-- **C92** When at least as many objects are drawn as there are pairs, the status is that of the full comparison, without pictures; the draws are of different indices,
as many as asked for. -/
theorem C92_all_drawn {f1 f2 : Option Fits} {a : Args} {draw : String → Nat → Nat → List Nat} (hd : Spec.DrawsBelow draw)
    (hn : ∀ t n k, (draw t n k).Nodup ∧ (k ≤ n → (draw t n k).length = k)) (hp : a.png = none) {k : Nat} (hk : a.nrand = some k)
    (hbig : ∀ g2 m2, f2 = some g2 → MEDS.openFile g2 = .ok m2 → m2.size ≤ k) :
    compareMain f1 f2 a draw = 0 ↔ compareMain f1 f2 { a with nrand := none } draw = 0 := by
  refine ⟨?_, C92_subset hd hp⟩
  intro h
  obtain ⟨g1, g2, m1, m2, e1, e2, e3, e4, q0, q1, l, q2, q3, q4, q5⟩ := (C92_status_partial hd).mp h
  refine (C92_status_partial hd).mpr ⟨g1, g2, m1, m2, e1, e2, e3, e4, q0, q1, l, q2, q3, ?_, fun hn => absurd hp hn⟩
  intro t ht j hj p hpj
  refine q4 t ht j ?_ p hpj
  have hlen : l.length ≤ m2.size := by
    have h1 : (l.map Prod.snd).Nodup := List.pairwise_map.mpr (q2.1.imp (fun h => ne_of_lt h))
    have h2 : ∀ i ∈ l.map Prod.snd, i ∈ List.range m2.size := by
      intro i hi
      obtain ⟨⟨i1, i2⟩, hm, rfl⟩ := List.mem_map.mp hi
      obtain ⟨v, _, o, ho, _⟩ := (q2.2 i1 i2).mp hm
      exact List.mem_range.mpr (List.getElem?_eq_some_iff.mp ho).1
    have := (List.subperm_of_subset h1 h2).length_le
    simpa using this
  have hb := hbig g2 m2 e2 e4
  unfold Spec.comparedAt
  rw [hk]
  dsimp only
  rw [min_eq_right (by omega)]
  obtain ⟨n1, n2⟩ := hn t l.length l.length
  have hsub : (draw t l.length l.length).Subperm (List.range l.length) := List.subperm_of_subset n1 (fun i hi => List.mem_range.mpr (hd _ _ _ i hi))
  have hperm := hsub.perm_of_length_le (by rw [List.length_range, n2 (le_refl _)])
  exact hperm.mem_iff.mpr (List.mem_range.mpr (List.getElem?_eq_some_iff.mp hpj).1)

section Examples

/-- The variance of the difference of two images, the square of the rms that the script compares to its tolerance. -/
def _root_.Meds.Spec.diffVar (a b : Img ℚ) : ℚ :=
  let d := List.zipWith (· - ·) a.flat b.flat
  (d.map (fun x => x * x)).sum / d.length - (d.sum / d.length) * (d.sum / d.length)

/-- The default arguments. -/
def args : Args := ⟨"id", none, false, none⟩

/-- The example file with a `seg` pixel of the first object and a `bmask` pixel of the second changed. -/
def twoChanges : Fits :=
  ⟨Ex.med.fits.hdus.map (fun h => if h.1 = "seg_cutouts" then (h.1, match h.2 with | .image p => .image (p.set 17 777) | x => x)
    else if h.1 = "bmask_cutouts" then (h.1, match h.2 with | .image p => .image (p.set 40 777) | x => x) else h)⟩

/-- **C92** is false: the status is zero although an image differs by more than the tolerance allows (the rms of the difference is above 0.8), or a weight by more than
1e-4.  And with `--nrand 1` it is zero for draws such that any one object compared in all types would fail. -/
theorem C92_counterexample :
    compareMain (some Ex.file) (some (changed "image_cutouts").fits) args (fun _ _ _ => []) = 0 ∧
    (match Ex.med.getCutout 0 1 "image", (changed "image_cutouts").getCutout 0 1 "image" with
      | .ok a, .ok b => decide (Spec.diffVar a b > (8 / 10) * (8 / 10))
      | _, _ => false) = true ∧
    compareMain (some Ex.file) (some (changed "weight_cutouts").fits) args (fun _ _ _ => []) = 0 ∧
    (match Ex.med.getCutout 0 1 "weight", (changed "weight_cutouts").getCutout 0 1 "weight" with
      | .ok a, .ok b => decide (b.flat[1]?.getD 0 - a.flat[1]?.getD 0 > 1 / 10000)
      | _, _ => false) = true ∧
    compareMain (some Ex.file) (some twoChanges) { args with nrand := some 1 } (fun t _ _ => if t = "bmask" then [0] else [1]) = 0 ∧
    (∀ j < 2, compareMain (some Ex.file) (some twoChanges) { args with nrand := some 1 } (fun _ _ _ => [j]) = 1) := by
  decide +kernel

-- comparison of a file with itself, by id and by number, and with pictures
example : compareMain (some Ex.file) (some Ex.file) args (fun _ _ _ => []) = 0 ∧
    compareMain (some Ex.file) (some Ex.file) { args with idName := "number", png := some "x" } (fun _ _ _ => []) = 0 ∧
    compareMain (some Ex.file) none args (fun _ _ _ => []) = 1 ∧ compareMain (some Ex.file) (some twoChanges) args (fun _ _ _ => []) = 1 := by decide +kernel

-- draws that satisfy the hypotheses of `C92_all_drawn`
example : Spec.DrawsBelow (fun _ n k => (List.range n).take k) ∧
    ∀ (t : String) n k, ((fun (_ : String) n k => (List.range n).take k) t n k).Nodup ∧
      (k ≤ n → ((fun (_ : String) n k => (List.range n).take k) t n k).length = k) := by
  refine ⟨fun t n k j hj => List.mem_range.mp (List.mem_of_mem_take hj), fun t n k => ⟨(List.nodup_range).sublist (List.take_sublist _ _), fun h => ?_⟩⟩
  simp [h]

end Examples

end Meds.Compare
