import Verif.Model.CMeta
import Verif.Lemmas.Basic
import Mathlib.Data.Nat.Digits.Defs
import Mathlib.Tactic.IntervalCases
import Mathlib.Tactic.Ring
import Mathlib.Tactic.Push

/-!
# The metadata of the C reader (C79)
-/

namespace Meds.Spec
open C

/-- The column is in the table; names are compared without regard to case. -/
def HasColumn (t : MetaTable) (name : String) : Prop := ∃ c ∈ t, c.1.toLower = name.toLower

/-- The entry of the table for `name`, the first such column. -/
def ColumnIs (t : MetaTable) (name : String) (c : Cell) : Prop :=
  ∃ pre post x, t = pre ++ (x, c) :: post ∧ x.toLower = name.toLower ∧ ∀ d ∈ pre, d.1.toLower ≠ name.toLower

/-- The characters that C calls white space. -/
def whiteSpace : List Char := [' ', '\t', '\n', '\r', '\x0b', '\x0c']

/-- A text that starts with a decimal number: white space, an optional sign, digits, and anything that is not a further digit. -/
def NumberText (s : List Char) (n : Int) : Prop :=
  ∃ (ws sign : List Char) (ds : List Nat) (tail : List Char), s = ws ++ (sign ++ (ds.map (fun d => Char.ofNat (48 + d)) ++ tail)) ∧ (∀ c ∈ ws, c ∈ whiteSpace) ∧
    (sign = [] ∨ sign = ['+'] ∨ sign = ['-']) ∧ (∀ d ∈ ds, d < 10) ∧ ds ≠ [] ∧ (∀ c, tail.head? = some c → c ∉ "0123456789".toList) ∧
    n = (if sign = ['-'] then -1 else 1) * ((Nat.ofDigits 10 ds.reverse : Nat) : Int)

/-- The value a user expects for an entry of the file. -/
def Reads (k : Kind) (c : Cell) (v : Value) : Prop :=
  match k, c with
  | .string, .str _ s => v = .str (some s)
  | .double, .num x => v = .dbl x
  | .long, .num x => ∃ n : Int, v = .lng n ∧ (∀ z : Int, x = z → n = z)
  | .atol, .str _ s => ∃ n : Int, v = .lng n ∧ (∀ k, NumberText s k → n = k) ∧ (s = [] → n = 0)
  | _, _ => False

end Meds.Spec

namespace Meds.C
open Spec

theorem colnum_none {t : MetaTable} {name : String} : colnum t name = none ↔ ¬ HasColumn t name := by
  unfold colnum HasColumn
  simp

theorem colnum_some {t : MetaTable} {name : String} {c : Cell} (h : colnum t name = some c) : ColumnIs t name c := by
  unfold colnum at h
  cases hf : t.find? (fun c => c.1.toLower == name.toLower) with
  | none => rw [hf] at h; cases h
  | some x =>
    rw [hf] at h
    injection h with h
    subst h
    obtain ⟨h1, pre, post, h2, h3⟩ := List.find?_eq_some_iff_append.mp hf
    exact ⟨pre, post, x.1, h2, by simpa using h1, fun d hd => by have := h3 d hd; simpa using this⟩

theorem digit_ofNat {d : Nat} (h : d < 10) : digit (Char.ofNat (48 + d)) = some d := by
  interval_cases d <;> decide

theorem digit_none {c : Char} (h : c ∉ "0123456789".toList) : digit c = none := by
  unfold digit
  split
  · rename_i hc
    exfalso
    apply h
    obtain ⟨h1, h2⟩ := hc
    have hn : 48 ≤ c.toNat ∧ c.toNat ≤ 57 := ⟨h1, h2⟩
    have hc' : c = Char.ofNat c.toNat := (Char.ofNat_toNat c).symm
    obtain ⟨h3, h4⟩ := hn
    rw [hc']
    generalize c.toNat = k at h3 h4
    interval_cases k <;> decide
  · rfl

theorem digits_map {ds : List Nat} (h : ∀ d ∈ ds, d < 10) {tail : List Char} (ht : ∀ c, tail.head? = some c → c ∉ "0123456789".toList) :
    ∀ acc, digits acc (ds.map (fun d => Char.ofNat (48 + d)) ++ tail) = Nat.ofDigits 10 (ds.reverse) + acc * 10 ^ ds.length := by
  induction ds with
  | nil =>
    intro acc
    cases tail with
    | nil => simp [digits]
    | cons c cs =>
      rw [List.map_nil, List.nil_append]
      unfold digits
      rw [digit_none (ht c rfl)]
      simp
  | cons d ds ih =>
    intro acc
    rw [List.map_cons, List.cons_append]
    unfold digits
    rw [digit_ofNat (h d (by simp))]
    dsimp only
    rw [ih (fun x hx => h x (by simp [hx])), List.reverse_cons, Nat.ofDigits_append]
    simp only [List.length_reverse, List.length_cons, Nat.ofDigits_singleton]
    ring

theorem atol_number {s : List Char} {n : Int} (h : NumberText s n) : atol s = n := by
  obtain ⟨ws, sign, ds, tail, rfl, hws, hsign, hds, hne, ht, rfl⟩ := h
  induction ws with
  | cons c cs ih =>
    rw [List.cons_append]
    unfold atol
    have hc := hws c (by simp)
    unfold whiteSpace at hc
    rw [if_pos (by simpa using hc)]
    exact ih (fun x hx => hws x (by simp [hx]))
  | nil =>
    have h2 := digits_map hds ht 0
    rw [zero_mul, add_zero] at h2
    rw [List.nil_append]
    rcases hsign with rfl | rfl | rfl
    · rw [List.nil_append]
      cases ds with
      | nil => exact absurd rfl hne
      | cons d ds =>
        rw [List.map_cons, List.cons_append] at h2 ⊢
        unfold atol
        have hd := hds d (by simp)
        rw [if_neg (by interval_cases d <;> decide), if_neg (by interval_cases d <;> decide), if_neg (by interval_cases d <;> decide), h2]
        simp
    · rw [List.cons_append, List.nil_append]
      unfold atol
      rw [if_neg (by decide), if_neg (by decide), if_pos rfl, h2]
      simp
    · rw [List.cons_append, List.nil_append]
      unfold atol
      rw [if_neg (by decide), if_pos rfl, h2]
      simp

example : NumberText " -0012 x".toList (-12) := ⟨[' '], ['-'], [0, 0, 1, 2], [' ', 'x'], by decide +kernel, by decide, by decide, by decide, by decide, by decide, by decide⟩

/-- One read. -/
theorem readEntry_ok {t : MetaTable} {e : String × Kind} {st st' : Bool} {v : Value} (h : readEntry t e st = .ok (v, st')) :
    (st' = true ↔ st = true ∨ ¬ HasColumn t e.1) ∧ (st' = true → v = e.2.dflt) ∧ (st' = false → ∃ c, ColumnIs t e.1 c ∧ Reads e.2 c v) := by
  obtain ⟨name, kind⟩ := e
  dsimp only at *
  have hstr : ∀ r, readString t name st = .ok r → (r.2 = true ↔ st = true ∨ ¬ HasColumn t name) ∧ (r.2 = true → r.1 = none) ∧
      (r.2 = false → ∃ w s, ColumnIs t name (.str w s) ∧ r.1 = some s) := by
    intro r hr
    unfold readString at hr
    cases hc : colnum t name with
    | none =>
      rw [hc] at hr
      injection hr with hr
      subst hr
      have := colnum_none.mp hc
      simp [this]
    | some c =>
      have hh : HasColumn t name := by
        by_contra hn
        rw [colnum_none.mpr hn] at hc
        cases hc
      rw [hc] at hr
      dsimp only at hr
      cases st with
      | true =>
        injection hr with hr
        subst hr
        simp
      | false =>
        rw [if_neg (by decide)] at hr
        cases c with
        | num v => cases hr
        | str w s =>
          dsimp only at hr
          split at hr
          · injection hr with hr
            subst hr
            simp only [Bool.false_eq_true, false_or, hh, not_true_eq_false]
            exact ⟨trivial, fun h => absurd h (by decide), fun _ => ⟨w, s, colnum_some hc, rfl⟩⟩
          · cases hr
  cases kind with
  | string =>
    unfold readEntry at h
    obtain ⟨r, hr, h⟩ := Res.bind_eq_ok.mp h
    injection h with h
    injection h with h1 h2
    subst h1 h2
    obtain ⟨a, b, c⟩ := hstr r hr
    refine ⟨a, fun hh => by rw [b hh]; rfl, fun hh => ?_⟩
    obtain ⟨w, s, q1, q2⟩ := c hh
    exact ⟨_, q1, by rw [q2]; rfl⟩
  | atol =>
    unfold readEntry at h
    obtain ⟨r, hr, h⟩ := Res.bind_eq_ok.mp h
    obtain ⟨a, b, c⟩ := hstr r hr
    cases hr2 : r.2 with
    | true =>
      have hb := b hr2
      rw [hb, hr2] at h
      injection h with h
      injection h with h1 h2
      subst h1 h2
      exact ⟨by rw [hr2] at a; exact a, fun _ => rfl, fun hh => by cases hh⟩
    | false =>
      obtain ⟨w, s, q1, q2⟩ := c hr2
      rw [q2, hr2] at h
      injection h with h
      injection h with h1 h2
      subst h1 h2
      refine ⟨by rw [hr2] at a; exact a, (fun hh => by cases hh), fun _ => ⟨_, q1, ?_⟩⟩
      refine ⟨_, rfl, ?_⟩
      exact ⟨fun k hk => atol_number hk, fun hs => by rw [hs]; rfl⟩
  | double =>
    unfold readEntry readDouble at h
    obtain ⟨r, hr, h⟩ := Res.bind_eq_ok.mp h
    injection h with h
    injection h with h1 h2
    subst h1 h2
    cases hc : colnum t name with
    | none =>
      rw [hc] at hr
      injection hr with hr
      subst hr
      have := colnum_none.mp hc
      simp [this, Kind.dflt]
    | some c =>
      have hh : HasColumn t name := by
        by_contra hn
        rw [colnum_none.mpr hn] at hc
        cases hc
      rw [hc] at hr
      dsimp only at hr
      cases st with
      | true =>
        injection hr with hr
        subst hr
        simp [Kind.dflt]
      | false =>
        rw [if_neg (by decide)] at hr
        cases c with
        | str w s => cases hr
        | num v =>
          injection hr with hr
          subst hr
          simp only [Bool.false_eq_true, false_or, hh, not_true_eq_false]
          exact ⟨trivial, fun h => absurd h (by decide), fun _ => ⟨_, colnum_some hc, rfl⟩⟩
  | long =>
    unfold readEntry readLong at h
    obtain ⟨r, hr, h⟩ := Res.bind_eq_ok.mp h
    injection h with h
    injection h with h1 h2
    subst h1 h2
    cases hc : colnum t name with
    | none =>
      rw [hc] at hr
      injection hr with hr
      subst hr
      have := colnum_none.mp hc
      simp [this, Kind.dflt]
    | some c =>
      have hh : HasColumn t name := by
        by_contra hn
        rw [colnum_none.mpr hn] at hc
        cases hc
      rw [hc] at hr
      dsimp only at hr
      cases st with
      | true =>
        injection hr with hr
        subst hr
        simp [Kind.dflt]
      | false =>
        rw [if_neg (by decide)] at hr
        cases c with
        | str w s => cases hr
        | num v =>
          injection hr with hr
          subst hr
          simp only [Bool.false_eq_true, false_or, hh, not_true_eq_false]
          refine ⟨trivial, fun h => absurd h (by decide), fun _ => ⟨_, colnum_some hc, _, rfl, ?_⟩⟩
          intro z hz
          rw [hz]
          simp

theorem readEntries_ok {t : MetaTable} : ∀ {es : List (String × Kind)} {st : Bool} {vs : List Value}, readEntries t es st = .ok vs → vs.length = es.length ∧
    ∀ (k : Nat) e, es[k]? = some e → ∃ v, vs[k]? = some v ∧
      ((st = false ∧ ∀ (j : Nat) e', j ≤ k → es[j]? = some e' → HasColumn t e'.1) → ∃ c, ColumnIs t e.1 c ∧ Reads e.2 c v) ∧
      (¬ (st = false ∧ ∀ (j : Nat) e', j ≤ k → es[j]? = some e' → HasColumn t e'.1) → v = e.2.dflt) := by
  intro es
  induction es with
  | nil =>
    intro st vs h
    injection h with h
    subst h
    exact ⟨rfl, fun k e h => by simp at h⟩
  | cons e es ih =>
    intro st vs h
    unfold readEntries at h
    obtain ⟨r, hr, h⟩ := Res.bind_eq_ok.mp h
    obtain ⟨rest, hrest, h⟩ := Res.bind_eq_ok.mp h
    injection h with h
    subst h
    obtain ⟨hl, hk⟩ := ih hrest
    obtain ⟨a, b, c⟩ := readEntry_ok (st' := r.2) (v := r.1) hr
    refine ⟨by simp [hl], ?_⟩
    intro k e' hke
    cases k with
    | zero =>
      simp only [List.getElem?_cons_zero, Option.some.injEq] at hke
      subst hke
      refine ⟨r.1, rfl, ?_, ?_⟩
      · rintro ⟨h1, h2⟩
        apply c
        have := h2 0 e (le_refl _) rfl
        cases hr2 : r.2 with
        | false => rfl
        | true =>
          rcases a.mp hr2 with h | h
          · rw [h1] at h; cases h
          · exact absurd this h
      · intro hn
        apply b
        apply a.mpr
        by_contra hc
        push Not at hc
        apply hn
        refine ⟨by simpa using hc.1, ?_⟩
        intro j e' hj he'
        have : j = 0 := by omega
        subst this
        simp only [List.getElem?_cons_zero, Option.some.injEq] at he'
        subst he'
        exact hc.2
    | succ k =>
      rw [List.getElem?_cons_succ] at hke
      obtain ⟨v, hv, h1, h2⟩ := hk k e' hke
      have hiff : (r.2 = false ∧ ∀ (j : Nat) e', j ≤ k → es[j]? = some e' → HasColumn t e'.1) ↔
          (st = false ∧ ∀ (j : Nat) e', j ≤ k + 1 → (e :: es)[j]? = some e' → HasColumn t e'.1) := by
        constructor
        · rintro ⟨q1, q2⟩
          have : ¬ (st = true ∨ ¬ HasColumn t e.1) := fun h => by rw [a.mpr h] at q1; cases q1
          push Not at this
          refine ⟨by simpa using this.1, ?_⟩
          intro j e'' hj he''
          cases j with
          | zero =>
            simp only [List.getElem?_cons_zero, Option.some.injEq] at he''
            subst he''
            exact this.2
          | succ j => exact q2 j e'' (by omega) (by simpa using he'')
        · rintro ⟨q1, q2⟩
          refine ⟨?_, fun j e'' hj he'' => q2 (j + 1) e'' (by omega) (by simpa using he'')⟩
          cases hr2 : r.2 with
          | false => rfl
          | true =>
            rcases a.mp hr2 with h | h
            · rw [q1] at h; cases h
            · exact absurd (q2 0 e (by omega) rfl) h
      refine ⟨v, by simpa using hv, fun h => h1 (hiff.mpr h), fun h => h2 (fun h' => h (hiff.mp h'))⟩

/-- **C79** (partial: an entry is lost when any earlier one is missing) What the C library reports for an entry: the value of the file, if that column and all
columns read before it are in the file; `NULL` or -9999 otherwise - also for a column that is in the file. -/
theorem C79_values_partial {t : MetaTable} {vs : List Value} (h : readMeta t = .ok vs) {k : Nat} {name : String} {kind : Kind} (hk : metaEntries[k]? = some (name, kind)) :
    ∃ v, vs[k]? = some v ∧ ((∀ e ∈ metaEntries.take (k + 1), HasColumn t e.1) → ∃ c, ColumnIs t name c ∧ Reads kind c v) ∧
      (¬ (∀ e ∈ metaEntries.take (k + 1), HasColumn t e.1) → v = kind.dflt) := by
  obtain ⟨_, h2⟩ := readEntries_ok h
  obtain ⟨v, hv, q1, q2⟩ := h2 k _ hk
  have hiff : (∀ e ∈ metaEntries.take (k + 1), HasColumn t e.1) ↔ ((false = false) ∧ ∀ (j : Nat) e', j ≤ k → metaEntries[j]? = some e' → HasColumn t e'.1) := by
    constructor
    · intro hh
      refine ⟨rfl, fun j e' hj he' => hh e' ?_⟩
      rw [List.mem_iff_getElem?]
      exact ⟨j, by rw [List.getElem?_take, if_pos (by omega)]; exact he'⟩
    · rintro ⟨_, hh⟩ e he
      obtain ⟨j, hj⟩ := List.mem_iff_getElem?.mp he
      rw [List.getElem?_take] at hj
      split at hj
      · exact hh j e (by omega) hj
      · cases hj
  exact ⟨v, hv, fun hh => q1 (hiff.mp hh), fun hh => q2 (fun h' => hh (hiff.mpr h'))⟩

/-- **C79 (limits)** Without a column `cat_file` - as in any file not made by that survey's software - nothing at all is reported, whatever else is in the file. -/
theorem C79_no_cat_file {t : MetaTable} (ht : ¬ HasColumn t "cat_file") : readMeta t = .ok (metaEntries.map (fun e => e.2.dflt)) := by
  have hs : ∀ name, readString t name true = .ok (none, true) := by
    intro name; unfold readString; cases colnum t name <;> rfl
  have hd : ∀ name, readDouble t name true = .ok (-9999, true) := by
    intro name; unfold readDouble; cases colnum t name <;> rfl
  have hl : ∀ name, readLong t name true = .ok (-9999, true) := by
    intro name; unfold readLong; cases colnum t name <;> rfl
  have he : ∀ e, readEntry t e true = .ok (e.2.dflt, true) := by
    rintro ⟨name, kind⟩
    cases kind <;> simp [readEntry, hs, hd, hl, Kind.dflt]
  have hall : ∀ es, readEntries t es true = .ok (es.map (fun e => e.2.dflt)) := by
    intro es
    induction es with
    | nil => rfl
    | cons e es ih =>
      unfold readEntries
      rw [he, Res.ok_bind, ih, Res.ok_bind]
      rfl
  have h0 : readEntry t ("cat_file", .string) false = .ok (.str none, true) := by
    unfold readEntry readString
    rw [colnum_none.mpr ht]
    rfl
  show readEntries t (("cat_file", .string) :: metaEntries.tail) false = _
  unfold readEntries
  rw [h0, Res.ok_bind, hall, Res.ok_bind]
  rfl

/-- **C79** Reading completes without touching memory outside the buffers, when every string column is wider than its string, and strings and numbers are where they
are expected. -/
theorem C79_completes {t : MetaTable} (hs : ∀ e ∈ metaEntries, ∀ c, ColumnIs t e.1 c → match e.2, c with
      | .string, .str w s => s.length < w
      | .atol, .str w s => s.length < w
      | .double, .num _ => True
      | .long, .num _ => True
      | _, _ => False) : ∃ vs, readMeta t = .ok vs := by
  have he : ∀ e ∈ metaEntries, ∀ st, ∃ r, readEntry t e st = .ok r := by
    rintro ⟨name, kind⟩ hm st
    have h1 := hs _ hm
    dsimp only at h1
    cases hc : colnum t name with
    | none =>
      cases kind <;> simp [readEntry, readString, readDouble, readLong, hc]
    | some c =>
      have h2 := h1 c (colnum_some hc)
      cases st with
      | true => cases kind <;> simp [readEntry, readString, readDouble, readLong, hc]
      | false =>
        cases kind <;> cases c <;> simp only at h2 <;> simp [readEntry, readString, readDouble, readLong, hc] <;> rw [if_pos (by omega)] <;> simp
  have hall : ∀ es : List (String × Kind), (∀ e ∈ es, e ∈ metaEntries) → ∀ st, ∃ vs, readEntries t es st = .ok vs := by
    intro es
    induction es with
    | nil => intro _ st; exact ⟨[], rfl⟩
    | cons e es ih =>
      intro hm st
      obtain ⟨r, hr⟩ := he e (hm e (by simp)) st
      obtain ⟨vs, hv⟩ := ih (fun x hx => hm x (by simp [hx])) r.2
      exact ⟨r.1 :: vs, by unfold readEntries; rw [hr, Res.ok_bind, hv, Res.ok_bind]⟩
  exact hall _ (fun _ h => h) false

/-- **C79 (limits)** A file name that fills its column, as in every table written from Python with one row: the terminating zero is written behind the buffer. -/
theorem C79_full_column {t : MetaTable} {s : List Char} (h : ColumnIs t "cat_file" (.str s.length s)) : readMeta t = .error .unmodelled := by
  have hc : colnum t "cat_file" = some (.str s.length s) := by
    obtain ⟨pre, post, x, rfl, h2, h3⟩ := h
    unfold colnum
    have : (pre.find? (fun c => c.1.toLower == "cat_file".toLower)) = none := by
      rw [List.find?_eq_none]
      intro d hd
      simpa using h3 d hd
    rw [List.find?_append, this]
    simp [h2]
  show readEntries t (("cat_file", .string) :: metaEntries.tail) false = _
  unfold readEntries readEntry readString
  simp only [hc]
  rw [if_neg (by decide), if_neg (by omega)]
  rfl

/-- A complete table. -/
def exMeta : MetaTable :=
  [("cat_file", .str 6 "cat".toList), ("coadd_file", .str 6 "co".toList), ("coadd_srclist", .str 6 "src".toList), ("cutout_file", .str 6 "cut".toList), ("magzp_ref", .num 30),
   ("desdata", .str 6 "d".toList), ("se_hdu", .num 2), ("se_wt_hdu", .num 4), ("se_badpix_hdu", .num 3), ("sky_hdu", .num 2), ("seg_hdu", .num 2), ("coadd_hdu", .num 2),
   ("coadd_wt_hdu", .num 3), ("coadd_seg_hdu", .num 2), ("fake_coadd_seg", .num 0), ("coaddcat_file", .str 6 "cc".toList), ("medsconf", .str 6 "y1".toList),
   ("min_boxsize", .str 6 "32".toList), ("max_boxsize", .str 6 "256".toList)]

example : (readMeta exMeta).toOption.bind (fun vs => metaField vs "max_boxsize") = some (.lng 256) ∧
    (readMeta exMeta).toOption.bind (fun vs => metaField vs "cat_file") = some (.str (some "cat".toList)) := by decide +kernel

/-- The same table without one entry. -/
def exMetaHole : MetaTable := exMeta.filter (fun c => c.1 != "se_badpix_hdu")

/-- What is read from it. -/
def exMetaValues : List Value :=
  [.str (some "cat".toList), .str (some "co".toList), .str (some "src".toList), .str (some "cut".toList), .dbl 30, .str (some "d".toList), .lng 2, .lng 4,
   .lng (-9999), .lng (-9999), .lng (-9999), .lng (-9999), .lng (-9999), .lng (-9999), .lng (-9999), .str none, .str none, .lng (-9999), .lng (-9999)]

/-- **C79** The full claim - every entry of the file is reported - is false: take away one entry, and all that follow are lost. -/
theorem C79_counterexample : ∃ t vs, readMeta t = .ok vs ∧ ("max_boxsize", Cell.str 6 "256".toList) ∈ t ∧ ("magzp_ref", Cell.num 30) ∈ t ∧
    metaField vs "magzp_ref" = some (.dbl 30) ∧ metaField vs "max_boxsize" = some (.lng (-9999)) ∧ metaField vs "coadd_hdu" = some (.lng (-9999)) := by
  refine ⟨exMetaHole, exMetaValues, ?_⟩
  decide +kernel

example : ¬ HasColumn [("magzp_ref", .num 30)] "cat_file" := colnum_none.mp (by decide +kernel)

example : ColumnIs [("cat_file", .str 3 "cat".toList)] "cat_file" (.str "cat".toList.length "cat".toList) := colnum_some (by decide +kernel)

/-- The hypothesis of `C79_completes` on the complete table. -/
example : metaEntries.all (fun e => match e.2, colnum exMeta e.1 with
    | .string, some (.str w s) => s.length < w
    | .atol, some (.str w s) => s.length < w
    | .double, some (.num _) => true
    | .long, some (.num _) => true
    | _, _ => false) = true := by decide +kernel

end Meds.C
