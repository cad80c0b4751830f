import Verif.Model.InputProgram
import Verif.Props.MakeInput
import Verif.Props.CMeta
import Verif.Lemmas.Machine

/-!
# The program make-meds-input (C96, C97)
-/

namespace Meds.Spec
open InputText MakeInput

/-- Integers separated by white space. -/
inductive IntList : List Char → List Int → Prop
  | nil {ws : List Char} : (∀ c ∈ ws, c ∈ whiteSpace) → IntList ws []
  | cons {ws sign : List Char} {ds : List Nat} {t : List Char} {ids : List Int} : (∀ c ∈ ws, c ∈ whiteSpace) →
      (sign = [] ∨ sign = ['+'] ∨ sign = ['-']) → (∀ d ∈ ds, d < 10) → ds ≠ [] → (∀ c, t.head? = some c → c ∈ whiteSpace) → IntList t ids →
      IntList (ws ++ (sign ++ (ds.map (fun d => Char.ofNat (48 + d)) ++ t)))
        ((if sign = ['-'] then -1 else 1) * ((Nat.ofDigits 10 ds.reverse : Nat) : Int) :: ids)

/-- The columns that the program reads. -/
def sexColumns : List String :=
  ["Y_IMAGE", "X_IMAGE", "YMIN_IMAGE", "YMAX_IMAGE", "XMIN_IMAGE", "XMAX_IMAGE", "FLUX_RADIUS", "A_WORLD", "B_WORLD"]

/-- `m name k` is the entry of row `k` in the column `name`, whatever the case of its name in the table. -/
def Measured (t : SexTable) (m : String → Nat → ℚ) : Prop :=
  ∀ name ∈ sexColumns, ∃ pre post x vals, t.cols = pre ++ (x, vals) :: post ∧ x.toLower = name.toLower ∧ (∀ c ∈ pre, c.1.toLower ≠ name.toLower) ∧
    ∀ k < t.nrows, vals[k]? = some (m name k)

/-- The box size for row `k` (C44). -/
def rowBox (m : String → Nat → ℚ) (minsize maxsize : Int) (k : Nat) : Int :=
  mainBoxSize minsize maxsize
    ⟨truncZ (m "YMIN_IMAGE" k), truncZ (m "YMAX_IMAGE" k), truncZ (m "XMIN_IMAGE" k), truncZ (m "XMAX_IMAGE" k), m "FLUX_RADIUS" k,
     1 - m "B_WORLD" k / m "A_WORLD" k⟩

/-- The lines are those of the catalogue: one for each row, in order, with the identifier, the position as printed and the box size. -/
def LinesOf (t : SexTable) (m : String → Nat → ℚ) (minsize maxsize : Int) (ids : List Int) (lines : List Line) : Prop :=
  lines.length = t.nrows ∧ ∀ k < t.nrows, ∃ id, ids[k]? = some id ∧
    lines[k]? = some ⟨id, printed (m "Y_IMAGE" k), printed (m "X_IMAGE" k), rowBox m minsize maxsize k⟩

end Meds.Spec

namespace Meds.InputText
open MakeInput
open Spec C

variable {tables : String → Option SexTable} {texts : String → Option (List Char)}

theorem isSpace_iff {c : Char} : isSpace c = true ↔ c ∈ whiteSpace := by
  unfold isSpace whiteSpace
  simp [or_assoc]

theorem takeDigits_map {ds : List Nat} (h : ∀ d ∈ ds, d < 10) {t : List Char} (ht : ∀ c, t.head? = some c → c ∉ "0123456789".toList) :
    ∀ acc, takeDigits acc (ds.map (fun d => Char.ofNat (48 + d)) ++ t) = (Nat.ofDigits 10 ds.reverse + acc * 10 ^ ds.length, t) := by
  induction ds with
  | nil =>
    intro acc
    cases t with
    | nil => simp [takeDigits]
    | cons c cs =>
      rw [List.map_nil, List.nil_append]
      unfold takeDigits
      rw [digit_none (ht c rfl)]
      simp
  | cons d ds ih =>
    intro acc
    rw [List.map_cons, List.cons_append]
    unfold takeDigits
    rw [digit_ofNat (h d (by simp))]
    dsimp only
    rw [ih (fun x hx => h x (by simp [hx])), List.reverse_cons, Nat.ofDigits_append]
    simp only [List.length_reverse, List.length_cons, Nat.ofDigits_singleton]
    congr 1
    ring

theorem scanDigits_map {ds : List Nat} (h : ∀ d ∈ ds, d < 10) (hne : ds ≠ []) {t : List Char} (ht : ∀ c, t.head? = some c → c ∉ "0123456789".toList) :
    scanDigits (ds.map (fun d => Char.ofNat (48 + d)) ++ t) = some (Nat.ofDigits 10 ds.reverse, t) := by
  cases ds with
  | nil => exact absurd rfl hne
  | cons d ds =>
    rw [List.map_cons, List.cons_append]
    unfold scanDigits
    dsimp only
    rw [digit_ofNat (h d (by simp))]
    dsimp only
    rw [takeDigits_map (fun x hx => h x (by simp [hx])) ht, List.reverse_cons, Nat.ofDigits_append]
    simp only [List.length_reverse, Nat.ofDigits_singleton]
    rw [mul_comm]

theorem dropWhile_ws {ws t : List Char} (h : ∀ c ∈ ws, c ∈ whiteSpace) : (ws ++ t).dropWhile isSpace = t.dropWhile isSpace := by
  induction ws with
  | nil => rfl
  | cons c cs ih =>
    rw [List.cons_append, List.dropWhile_cons, if_pos (isSpace_iff.mpr (h c (by simp)))]
    exact ih (fun x hx => h x (by simp [hx]))

/-- A number at the start is read, and what follows is left. -/
theorem scanLong_number {ws sign : List Char} {ds : List Nat} {t : List Char} (hws : ∀ c ∈ ws, c ∈ whiteSpace) (hs : sign = [] ∨ sign = ['+'] ∨ sign = ['-'])
    (hd : ∀ d ∈ ds, d < 10) (hne : ds ≠ []) (ht : ∀ c, t.head? = some c → c ∉ "0123456789".toList) :
    scanLong (ws ++ (sign ++ (ds.map (fun d => Char.ofNat (48 + d)) ++ t))) =
      some ((if sign = ['-'] then -1 else 1) * ((Nat.ofDigits 10 ds.reverse : Nat) : Int), t) := by
  have hsc := scanDigits_map hd hne ht
  unfold scanLong
  rw [dropWhile_ws hws]
  rcases hs with rfl | rfl | rfl
  · rw [List.nil_append]
    cases ds with
    | nil => exact absurd rfl hne
    | cons d ds =>
      have hd' := hd d (by simp)
      rw [List.map_cons, List.cons_append] at hsc ⊢
      have h1 : isSpace (Char.ofNat (48 + d)) = false := by interval_cases d <;> decide
      rw [List.dropWhile_cons, h1, if_neg (by decide)]
      have h2 : Char.ofNat (48 + d) ≠ '-' := by interval_cases d <;> decide
      have h3 : Char.ofNat (48 + d) ≠ '+' := by interval_cases d <;> decide
      split
      · rename_i heq; injection heq with heq _; exact absurd heq h2
      · rename_i heq; injection heq with heq _; exact absurd heq h3
      · rw [hsc]; simp
  · rw [List.cons_append, List.nil_append, List.dropWhile_cons, if_neg (by decide)]
    change Option.map _ (scanDigits _) = _
    rw [hsc]; simp
  · rw [List.cons_append, List.nil_append, List.dropWhile_cons, if_neg (by decide)]
    change Option.map _ (scanDigits _) = _
    rw [hsc]; simp

/-- Text that does not start with a number: after white space there is nothing, or a character that is no digit and no sign. -/
def _root_.Meds.Spec.NoNumber (s : List Char) : Prop :=
  ∃ ws t, s = ws ++ t ∧ (∀ c ∈ ws, c ∈ whiteSpace) ∧ ∀ c, t.head? = some c → c ∉ whiteSpace ∧ c ≠ '-' ∧ c ≠ '+' ∧ c ∉ "0123456789".toList

theorem scanLong_none {s : List Char} (h : NoNumber s) : scanLong s = none := by
  obtain ⟨ws, t, rfl, hws, ht⟩ := h
  unfold scanLong
  rw [dropWhile_ws hws]
  cases t with
  | nil => rfl
  | cons c cs =>
    obtain ⟨h1, h2, h3, h4⟩ := ht c rfl
    have : isSpace c = false := by rw [Bool.eq_false_iff]; exact fun h => h1 (isSpace_iff.mp h)
    rw [List.dropWhile_cons, this, if_neg (by decide)]
    split
    · rename_i heq; injection heq with heq _; exact absurd heq h2
    · rename_i heq; injection heq with heq _; exact absurd heq h3
    · unfold scanDigits
      dsimp only
      rw [digit_none h4]
      rfl

/-- Integers separated by white space, and then something that is not one. -/
inductive _root_.Meds.Spec.IntsThen : List Char → List Int → Prop
  | nil {s : List Char} : NoNumber s → IntsThen s []
  | cons {ws sign : List Char} {ds : List Nat} {t : List Char} {ids : List Int} : (∀ c ∈ ws, c ∈ whiteSpace) →
      (sign = [] ∨ sign = ['+'] ∨ sign = ['-']) → (∀ d ∈ ds, d < 10) → ds ≠ [] → (∀ c, t.head? = some c → c ∉ "0123456789".toList) → IntsThen t ids →
      IntsThen (ws ++ (sign ++ (ds.map (fun d => Char.ofNat (48 + d)) ++ t)))
        ((if sign = ['-'] then -1 else 1) * ((Nat.ofDigits 10 ds.reverse : Nat) : Int) :: ids)

theorem ws_not_digit {c : Char} (h : c ∈ whiteSpace) : c ∉ "0123456789".toList := by
  revert c
  decide +kernel

theorem _root_.Meds.Spec.IntList.intsThen {s : List Char} {ids : List Int} (h : IntList s ids) : IntsThen s ids := by
  induction h with
  | nil h => exact .nil ⟨_, [], (List.append_nil _).symm, h, fun c hc => by cases hc⟩
  | cons h1 h2 h3 h4 h5 _ ih => exact .cons h1 h2 h3 h4 (fun c hc => ws_not_digit (h5 c hc)) ih

/-- The identifiers put into the first entries from number `i` on. -/
theorem addIds_ok {s : List Char} {ids : List Int} (h : IntsThen s ids) : ∀ (fuel i : Nat) (cat : List Entry), s.length < fuel →
    (i + ids.length ≤ cat.length → ∃ cat', addIds fuel s i cat = .ok (cat', i + ids.length) ∧ cat'.length = cat.length ∧
      ∀ k, cat'[k]? = (cat[k]?).map (fun e => if i ≤ k ∧ k < i + ids.length then { e with id := ids.getD (k - i) 0 } else e)) ∧
    (cat.length < i + ids.length → i ≤ cat.length → addIds fuel s i cat = .error .runtimeError) := by
  induction h with
  | nil h =>
    intro fuel i cat hf
    obtain ⟨fuel, rfl⟩ : ∃ n, fuel = n + 1 := ⟨fuel - 1, by omega⟩
    unfold addIds
    rw [scanLong_none h]
    refine ⟨fun _ => ⟨cat, rfl, rfl, fun k => ?_⟩, fun h h' => by simp only [List.length_nil] at h; omega⟩
    simp only [List.length_nil]
    rw [show (fun e : Entry => if i ≤ k ∧ k < i + 0 then ({ e with id := ([] : List Int).getD (k - i) 0 } : Entry) else e) = id by
      funext e; rw [if_neg (by omega)]; rfl, Option.map_id]
    rfl
  | @cons ws sign ds t ids h1 h2 h3 h4 h5 _ ih =>
    intro fuel i cat hf
    obtain ⟨fuel, rfl⟩ : ∃ n, fuel = n + 1 := ⟨fuel - 1, by omega⟩
    unfold addIds
    rw [scanLong_number h1 h2 h3 h4 h5]
    dsimp only
    have hlen : t.length < fuel := by
      simp only [List.length_append, List.length_map] at hf
      have : 0 < ds.length := List.length_pos_iff.mpr h4
      omega
    generalize (if sign = ['-'] then (-1 : Int) else 1) * ((Nat.ofDigits 10 ds.reverse : Nat) : Int) = x
    simp only [List.length_cons]
    constructor
    · intro hle
      rw [if_neg (by omega)]
      obtain ⟨cat', hc, hl, hk⟩ := (ih fuel (i + 1) (cat.modify i (fun e => { e with id := x })) hlen).1 (by rw [List.length_modify]; omega)
      refine ⟨cat', by rw [hc]; congr 2; omega, by rw [hl, List.length_modify], fun k => ?_⟩
      rw [hk, List.getElem?_modify]
      cases hck : cat[k]? with
      | none => rfl
      | some e =>
        simp only [Option.map_some, Option.some.injEq, Functor.map]
        by_cases hik : i = k
        · subst hik
          rw [if_neg (by omega), if_pos rfl, if_pos (by omega)]
          simp
        · rw [if_neg hik]
          by_cases hb : i + 1 ≤ k ∧ k < i + 1 + ids.length
          · rw [if_pos hb, if_pos (by omega), show k - i = (k - (i + 1)) + 1 by omega]
            rfl
          · rw [if_neg hb, if_neg (by omega)]
    · intro hlt hi
      by_cases hfull : cat.length ≤ i
      · rw [if_pos hfull]
      · rw [if_neg hfull]
        exact (ih fuel (i + 1) (cat.modify i (fun e => { e with id := x })) hlen).2 (by rw [List.length_modify]; omega) (by rw [List.length_modify]; omega)

theorem getColnum_ok {t : SexTable} {m : String → Nat → ℚ} (h : Measured t m) {name : String} (hn : name ∈ sexColumns) :
    ∃ vals, getColnum t name = .ok vals ∧ ∀ k < t.nrows, loadDbl vals k = .ok (m name k) := by
  obtain ⟨pre, post, x, vals, h1, h2, h3, h4⟩ := h name hn
  refine ⟨vals, ?_, fun k hk => by unfold loadDbl; rw [h4 k hk]⟩
  unfold getColnum
  have : t.cols.find? (fun c => c.1.toLower == name.toLower) = some (x, vals) := by
    rw [List.find?_eq_some_iff_append]
    exact ⟨by simpa using h2, pre, post, h1, fun c hc => by simpa using h3 c hc⟩
  rw [this]

theorem getColnum_missing {t : SexTable} {name : String} (h : ∀ c ∈ t.cols, c.1.toLower ≠ name.toLower) : getColnum t name = .error .runtimeError := by
  unfold getColnum
  have : t.cols.find? (fun c => c.1.toLower == name.toLower) = none := by
    rw [List.find?_eq_none]
    exact fun c hc => by simpa using h c hc
  rw [this]

/-- The entry of a row. -/
def entryOf (m : String → Nat → ℚ) (k : Nat) : Entry :=
  { id := k, row := m "Y_IMAGE" k, col := m "X_IMAGE" k,
    obj := ⟨truncZ (m "YMIN_IMAGE" k), truncZ (m "YMAX_IMAGE" k), truncZ (m "XMIN_IMAGE" k), truncZ (m "XMAX_IMAGE" k), m "FLUX_RADIUS" k,
      1 - m "B_WORLD" k / m "A_WORLD" k⟩ }

theorem loadRows_ok {t : SexTable} {m : String → Nat → ℚ} (h : Measured t m) (ha : ∀ k < t.nrows, m "A_WORLD" k ≠ 0) :
    loadRows t = .ok ((List.range t.nrows).map (entryOf m)) := by
  obtain ⟨v1, c1, l1⟩ := getColnum_ok h (name := "Y_IMAGE") (by decide)
  obtain ⟨v2, c2, l2⟩ := getColnum_ok h (name := "X_IMAGE") (by decide)
  obtain ⟨v3, c3, l3⟩ := getColnum_ok h (name := "YMIN_IMAGE") (by decide)
  obtain ⟨v4, c4, l4⟩ := getColnum_ok h (name := "YMAX_IMAGE") (by decide)
  obtain ⟨v5, c5, l5⟩ := getColnum_ok h (name := "XMIN_IMAGE") (by decide)
  obtain ⟨v6, c6, l6⟩ := getColnum_ok h (name := "XMAX_IMAGE") (by decide)
  obtain ⟨v7, c7, l7⟩ := getColnum_ok h (name := "FLUX_RADIUS") (by decide)
  obtain ⟨v8, c8, l8⟩ := getColnum_ok h (name := "A_WORLD") (by decide)
  obtain ⟨v9, c9, l9⟩ := getColnum_ok h (name := "B_WORLD") (by decide)
  unfold loadRows
  rw [c1, c2, c3, c4, c5, c6, c7, c8, c9]
  simp only [Res.ok_bind]
  rw [← mapRes_ok_map]
  refine mapRes_congr fun k hk => ?_
  have hk := List.mem_range.mp hk
  unfold loadInt
  rw [l1 k hk, l2 k hk, l3 k hk, l4 k hk, l5 k hk, l6 k hk, l7 k hk, l8 k hk, l9 k hk]
  simp only [Res.ok_bind]
  rw [if_neg (ha k hk)]
  rfl

/-- The lines made of the entries of the catalogue with some identifiers. -/
theorem lines_of {t : SexTable} {m : String → Nat → ℚ} {ids : List Int} {cat : List Entry} {mn mx : Int} (hids : ids.length = t.nrows) (hl : cat.length = t.nrows)
    (hk : ∀ k < t.nrows, cat[k]? = some { entryOf m k with id := ids.getD k 0 }) :
    LinesOf t m mn mx ids (cat.map (fun e => (⟨e.id, printed e.row, printed e.col, getBoxSize e.obj (fftRoundSize mn) (fftRoundSize mx)⟩ : Line))) := by
  refine ⟨by rw [List.length_map, hl], fun k hlt => ?_⟩
  have hki : k < ids.length := by omega
  refine ⟨ids[k], List.getElem?_eq_getElem hki, ?_⟩
  rw [List.getElem?_map, hk k hlt, Option.map_some, List.getD_eq_getElem _ _ hki]
  rfl

/-- **C96** (what happens in general) The lines printed are those of the catalogue, with the row numbers from zero or the integers that the file begins with as
identifiers.  Text that follows them is not looked at.  If the file begins with another number of integers than the catalogue has rows, nothing is printed. -/
theorem C96_what_happens {infile minsize maxsize : String} {more : List String} {t : SexTable} {m : String → Nat → ℚ} {ids : List Int}
    (ht : tables infile = some t) (hm : Measured t m) (ha : ∀ k < t.nrows, m "A_WORLD" k ≠ 0)
    (hids : (more = [] ∧ ids = (List.range t.nrows).map (fun k : Nat => (k : Int))) ∨ ∃ g rest text, more = g :: rest ∧ texts g = some text ∧ IntsThen text ids) :
    (ids.length = t.nrows → ∃ lines, main tables texts (infile :: minsize :: maxsize :: more) = .ok lines ∧
      LinesOf t m (atol minsize.toList) (atol maxsize.toList) ids lines) ∧
    (ids.length ≠ t.nrows → main tables texts (infile :: minsize :: maxsize :: more) = .error .runtimeError) := by
  unfold main
  dsimp only
  rw [ht]
  simp only [Res.ok_bind, loadRows_ok hm ha]
  rcases hids with ⟨rfl, rfl⟩ | ⟨g, rest, text, rfl, hg, hil⟩
  · simp only [Res.ok_bind]
    refine ⟨fun hl => ⟨_, rfl, lines_of hl (by simp) fun k hk => ?_⟩, fun h => absurd (by simp) h⟩
    rw [List.getElem?_map, List.getElem?_range hk]
    simp [entryOf, hk]
  · dsimp only
    rw [hg]
    unfold addIdsFromFile
    dsimp only
    obtain ⟨h1, h2⟩ := addIds_ok hil (text.length + 1) 0 ((List.range t.nrows).map (entryOf m)) (by omega)
    simp only [List.length_map, List.length_range, Nat.zero_add, Nat.zero_le, true_and, Nat.sub_zero, forall_const] at h1 h2
    rcases Nat.lt_or_ge t.nrows ids.length with hlt | hge
    · rw [h2 hlt]
      exact ⟨fun h => by omega, fun _ => rfl⟩
    · obtain ⟨cat', hc, hl, hk⟩ := h1 hge
      rw [hc]
      simp only [Res.ok_bind, List.length_map, List.length_range]
      constructor
      · intro h
        rw [if_neg (by omega)]
        simp only [Res.ok_bind]
        refine ⟨_, rfl, lines_of h hl fun k hkk => ?_⟩
        rw [hk, List.getElem?_map, List.getElem?_range hkk, Option.map_some, Option.map_some, if_pos (by omega)]
      · intro h
        rw [if_pos h]
        rfl

/-- **C96** (as far as it holds) The lines printed are those of the catalogue, with the row numbers from zero or the integers of the file as identifiers; if that
file holds another number of integers than the catalogue has rows, nothing is printed. -/
theorem C96_lines_partial {infile minsize maxsize : String} {more : List String} {t : SexTable} {m : String → Nat → ℚ} {ids : List Int}
    (ht : tables infile = some t) (hm : Measured t m) (ha : ∀ k < t.nrows, m "A_WORLD" k ≠ 0)
    (hids : (more = [] ∧ ids = (List.range t.nrows).map (fun k : Nat => (k : Int))) ∨ ∃ g rest text, more = g :: rest ∧ texts g = some text ∧ IntList text ids) :
    (ids.length = t.nrows → ∃ lines, main tables texts (infile :: minsize :: maxsize :: more) = .ok lines ∧
      LinesOf t m (atol minsize.toList) (atol maxsize.toList) ids lines) ∧
    (ids.length ≠ t.nrows → main tables texts (infile :: minsize :: maxsize :: more) = .error .runtimeError) :=
  C96_what_happens ht hm ha (hids.imp id fun ⟨g, rest, text, h1, h2, h3⟩ => ⟨g, rest, text, h1, h2, h3.intsThen⟩)

/-- **C96** (what is missing) With fewer than three arguments, a catalogue or a file of identifiers that cannot be opened, or a catalogue without one of the
columns, nothing is printed. -/
theorem C96_missing {args : List String}
    (h : args.length < 3 ∨ ∃ infile minsize maxsize more, args = infile :: minsize :: maxsize :: more ∧
      (tables infile = none ∨ (∃ t, tables infile = some t ∧ ∃ name ∈ sexColumns, ∀ c ∈ t.cols, c.1.toLower ≠ name.toLower) ∨
        ∃ g rest, more = g :: rest ∧ texts g = none)) :
    ∃ e, main tables texts args = .error e := by
  rcases h with h | ⟨infile, minsize, maxsize, more, rfl, h⟩
  · match args, h with
    | [], _ => exact ⟨_, rfl⟩
    | [_], _ => exact ⟨_, rfl⟩
    | [_, _], _ => exact ⟨_, rfl⟩
    | _ :: _ :: _ :: _, h => simp only [List.length_cons] at h; omega
  · cases hmain : main tables texts (infile :: minsize :: maxsize :: more) with
    | error e => exact ⟨e, rfl⟩
    | ok lines =>
      exfalso
      unfold main at hmain
      dsimp only at hmain
      obtain ⟨t, ht, hmain⟩ := Res.bind_eq_ok.mp hmain
      obtain ⟨cat, hcat, hmain⟩ := Res.bind_eq_ok.mp hmain
      obtain ⟨cat', hcat', hmain⟩ := Res.bind_eq_ok.mp hmain
      rcases h with h | ⟨t', ht', name, hn, hno⟩ | ⟨g, rest, rfl, hg⟩
      · rw [h] at ht; cases ht
      · rw [ht'] at ht
        injection ht with ht
        subst ht
        unfold loadRows at hcat
        obtain ⟨_, c1, hcat⟩ := Res.bind_eq_ok.mp hcat
        obtain ⟨_, c2, hcat⟩ := Res.bind_eq_ok.mp hcat
        obtain ⟨_, c3, hcat⟩ := Res.bind_eq_ok.mp hcat
        obtain ⟨_, c4, hcat⟩ := Res.bind_eq_ok.mp hcat
        obtain ⟨_, c5, hcat⟩ := Res.bind_eq_ok.mp hcat
        obtain ⟨_, c6, hcat⟩ := Res.bind_eq_ok.mp hcat
        obtain ⟨_, c7, hcat⟩ := Res.bind_eq_ok.mp hcat
        obtain ⟨_, c8, hcat⟩ := Res.bind_eq_ok.mp hcat
        obtain ⟨_, c9, hcat⟩ := Res.bind_eq_ok.mp hcat
        have hmiss := getColnum_missing hno
        unfold sexColumns at hn
        simp only [List.mem_cons, List.not_mem_nil, or_false] at hn
        rcases hn with rfl | rfl | rfl | rfl | rfl | rfl | rfl | rfl | rfl
        · rw [c1] at hmiss; cases hmiss
        · rw [c2] at hmiss; cases hmiss
        · rw [c3] at hmiss; cases hmiss
        · rw [c4] at hmiss; cases hmiss
        · rw [c5] at hmiss; cases hmiss
        · rw [c6] at hmiss; cases hmiss
        · rw [c7] at hmiss; cases hmiss
        · rw [c8] at hmiss; cases hmiss
        · rw [c9] at hmiss; cases hmiss
      · dsimp only at hcat'
        rw [hg] at hcat'
        cases hcat'

/-! ### A concrete catalogue -/

namespace Ex

/-- Two rows; the names in lower case. -/
def m (name : String) (k : Nat) : ℚ :=
  if name = "Y_IMAGE" then 100 + k else if name = "X_IMAGE" then 7 / 2 else if name = "YMIN_IMAGE" then 90 else if name = "YMAX_IMAGE" then 110
  else if name = "XMIN_IMAGE" then 1 else if name = "XMAX_IMAGE" then 12 else if name = "FLUX_RADIUS" then 3 else if name = "A_WORLD" then 2 else 1

/-- The names in the table and the names asked for. -/
def names : List (String × String) :=
  [("y_image", "Y_IMAGE"), ("x_image", "X_IMAGE"), ("ymin_image", "YMIN_IMAGE"), ("ymax_image", "YMAX_IMAGE"), ("xmin_image", "XMIN_IMAGE"),
   ("xmax_image", "XMAX_IMAGE"), ("flux_radius", "FLUX_RADIUS"), ("a_world", "A_WORLD"), ("b_world", "B_WORLD")]

def table (n : Nat) : SexTable := ⟨n, names.map (fun s => (s.1, (List.range n).map (m s.2)))⟩

theorem table_cols (n : Nat) {name : String} {x : String × String} {pre post : List (String × String)} (h1 : names = pre ++ x :: post)
    (h2 : ∀ c ∈ pre, c.1.toLower ≠ name.toLower) (h3 : x.1.toLower = name.toLower) (h4 : x.2 = name) :
    ∃ pre post x vals, (table n).cols = pre ++ (x, vals) :: post ∧ x.toLower = name.toLower ∧ (∀ c ∈ pre, c.1.toLower ≠ name.toLower) ∧
      ∀ k < (table n).nrows, vals[k]? = some (m name k) := by
  refine ⟨pre.map (fun s => (s.1, (List.range n).map (m s.2))), post.map (fun s => (s.1, (List.range n).map (m s.2))), x.1,
    (List.range n).map (m name), ?_, h3, ?_, fun k hk => ?_⟩
  · unfold table
    dsimp only
    rw [h1, List.map_append, List.map_cons, h4]
  · intro c hc
    obtain ⟨s, hs, rfl⟩ := List.mem_map.mp hc
    exact h2 s hs
  · have hk : k < n := hk
    rw [List.getElem?_map, List.getElem?_range hk]
    rfl

theorem lower : names.map (fun x => x.2.toLower) = names.map Prod.fst ∧ names.map (fun x => x.1.toLower) = names.map Prod.fst := by
  constructor <;> decide +kernel

theorem measured (n : Nat) : Measured (table n) m := by
  intro name hn
  have hmem : name ∈ names.map Prod.snd := hn
  obtain ⟨x, hx, rfl⟩ := List.mem_map.mp hmem
  have h2 : ∀ x ∈ names, x.2.toLower = x.1 := List.map_inj_left.mp lower.1
  have h1 : ∀ x ∈ names, x.1.toLower = x.1 := List.map_inj_left.mp lower.2
  obtain ⟨pre, post, hpp⟩ := List.append_of_mem hx
  have hnd : (names.map Prod.fst).Nodup := by decide
  refine table_cols n hpp (fun c hc => ?_) (by rw [h1 x hx, h2 x hx]) rfl
  rw [h1 c (by rw [hpp]; simp [hc]), h2 x hx]
  rw [hpp, List.map_append, List.map_cons, List.nodup_append] at hnd
  exact hnd.2.2 _ (List.mem_map_of_mem hc) _ (by simp)

-- a file with two identifiers
example : IntList "12 -7\n".toList [12, -7] := by
  have h : IntList "\n".toList [] := .nil (by decide)
  have h := IntList.cons (ws := [' ']) (sign := ['-']) (ds := [7]) (by decide) (by decide) (by decide) (by decide) (by decide +kernel) h
  exact IntList.cons (ws := []) (sign := []) (ds := [1, 2]) (by decide) (by decide) (by decide) (by decide) (by decide +kernel) h

-- the box of both objects: 21 rows, and five sigma to either side stretched by one half
example : rowBox m 8 64 0 = 48 := by decide +kernel

end Ex

theorem _root_.Meds.Spec.IntList.chars {s : List Char} {ids : List Int} (h : IntList s ids) : ∀ c ∈ s, c ∈ whiteSpace ∨ c = '+' ∨ c = '-' ∨ ∃ d < 10, c = Char.ofNat (48 + d) := by
  induction h with
  | nil h => exact fun c hc => .inl (h c hc)
  | @cons ws sign ds t ids h1 h2 h3 _ _ _ ih =>
    intro c hc
    simp only [List.mem_append, List.mem_map] at hc
    rcases hc with hc | hc | ⟨d, hd, rfl⟩ | hc
    · exact .inl (h1 c hc)
    · rcases h2 with rfl | rfl | rfl
      · cases hc
      · exact .inr (.inl (List.mem_singleton.mp hc))
      · exact .inr (.inr (.inl (List.mem_singleton.mp hc)))
    · exact .inr (.inr (.inr ⟨d, h3 d hd, rfl⟩))
    · exact ih c hc

/-- **C96** is false: a file of identifiers that holds other text as well is accepted if it begins with as many integers as there are rows. -/
theorem C96_counterexample : ¬ ∀ (tables : String → Option SexTable) (texts : String → Option (List Char)) (args : List String) (lines : List Line) (g : String)
    (text : List Char), main tables texts args = .ok lines → args[3]? = some g → texts g = some text → ∃ ids, IntList text ids := by
  intro h
  have hw := C96_what_happens (tables := fun _ => some (Ex.table 1)) (texts := fun _ => some "5 x".toList) (infile := "cat") (minsize := "8") (maxsize := "64")
    (more := ["ids"]) (t := Ex.table 1) (m := Ex.m) (ids := [5]) rfl (Ex.measured 1) (fun k _ => by unfold Ex.m; simp)
    (.inr ⟨"ids", [], _, rfl, rfl, IntsThen.cons (ws := []) (sign := []) (ds := [5]) (t := [' ', 'x']) (by decide) (by decide) (by decide) (by decide)
      (by decide +kernel) (.nil ⟨[' '], ['x'], rfl, by decide, by decide +kernel⟩)⟩)
  obtain ⟨lines, hl, _⟩ := hw.1 rfl
  obtain ⟨ids, hids⟩ := h _ _ _ _ "ids" _ hl rfl rfl
  have := hids.chars 'x' (by decide +kernel)
  revert this
  decide +kernel

/-! ### C97: the printed positions -/

theorem printed_abs (q : ℚ) : printed (-q) = -printed q := by
  unfold printed
  by_cases h0 : q = 0
  · simp [h0]
  · rw [if_neg h0, if_neg (neg_ne_zero.mpr h0)]
    dsimp only
    rw [abs_neg]
    rcases lt_or_gt_of_ne h0 with h | h
    · rw [if_pos h, if_neg (by linarith)]; ring
    · rw [if_pos (by linarith), if_neg (by linarith)]; ring

theorem printed_pos {q : ℚ} (h : 0 < q) : printed q = (roundHE (q / 10 ^ (Int.log 10 q - 15)) : ℚ) * 10 ^ (Int.log 10 q - 15) := by
  unfold printed
  rw [if_neg (ne_of_gt h)]
  dsimp only
  rw [if_neg (by linarith), abs_of_pos h, one_mul]

theorem printed_error_pos {q : ℚ} (hq : 0 < q) : |printed q - q| ≤ q * (5 / 10 ^ 16) := by
  rw [printed_pos hq]
  set e := Int.log 10 q - 15 with he
  have hu : (0 : ℚ) < 10 ^ e := zpow_pos (by norm_num) e
  have hlog : ((10 : Nat) : ℚ) ^ Int.log 10 q ≤ q := Int.zpow_log_le_self (by norm_num) hq
  have hr := roundHE_near (q / 10 ^ e)
  have e1 : (roundHE (q / 10 ^ e) : ℚ) * 10 ^ e - q = ((roundHE (q / 10 ^ e) : ℚ) - q / 10 ^ e) * 10 ^ e := by
    field_simp
  rw [e1, abs_mul, abs_of_pos hu]
  have h2 : (10 : ℚ) ^ e = 10 ^ Int.log 10 q / 10 ^ 15 := by
    rw [he, zpow_sub₀ (by norm_num)]
    norm_num
  have h3 : |(roundHE (q / 10 ^ e) : ℚ) - q / 10 ^ e| ≤ 1 / 2 := by
    rw [abs_sub_comm]; exact hr
  calc |(roundHE (q / 10 ^ e) : ℚ) - q / 10 ^ e| * 10 ^ e ≤ 1 / 2 * 10 ^ e := by gcongr
    _ = 10 ^ Int.log 10 q * (5 / 10 ^ 16) := by rw [h2]; ring
    _ ≤ q * (5 / 10 ^ 16) := by gcongr; exact_mod_cast hlog

theorem printed_error (q : ℚ) : |printed q - q| ≤ |q| * (5 / 10 ^ 16) := by
  rcases lt_trichotomy q 0 with h | rfl | h
  · have := printed_error_pos (q := -q) (by linarith)
    rw [printed_abs] at this
    rw [abs_of_neg h, abs_sub_comm]
    rw [show -printed q - -q = q - printed q by ring] at this
    exact this
  · simp [printed]
  · rw [abs_of_pos h]
    exact printed_error_pos h

/-- **C97** (as far as it holds) A printed position, read back as a double, is within one part in 10^15 of the position in the catalogue. -/
theorem C97_positions_partial (q : ℚ) : |rndD (printed q) - q| ≤ |q| / 10 ^ 15 := by
  have h1 := printed_error q
  have h2 := rndD_error (printed q)
  have h3 : |printed q| ≤ |q| * 2 := by
    have := abs_sub_abs_le_abs_sub (printed q) q
    have h0 := abs_nonneg q
    nlinarith
  have h4 : |rndD (printed q) - q| ≤ |rndD (printed q) - printed q| + |printed q - q| := abs_sub_le _ _ _
  have h0 := abs_nonneg q
  have h5 : |printed q| / 2 ^ 53 ≤ |q| * 2 / 2 ^ 53 := by gcongr
  have h6 : |q| * 2 / 2 ^ 53 + |q| * (5 / 10 ^ 16) ≤ |q| / 10 ^ 15 := by
    rw [show |q| * 2 / 2 ^ 53 = |q| * (2 / 2 ^ 53) by ring, show |q| / 10 ^ 15 = |q| * (1 / 10 ^ 15) by ring, ← mul_add]
    gcongr
    norm_num
  linarith

/-- **C97** A position with at most 16 significant decimal digits is printed as it is. -/
theorem C97_short_exact {q : ℚ} {n : Nat} {e : Int} (hn : n < 10 ^ 16) (hq : |q| = n * 10 ^ e) : printed q = q := by
  have pos : ∀ q : ℚ, 0 < q → q = n * 10 ^ e → printed q = q := by
    intro q hq h
    rw [printed_pos hq]
    have hu : ∀ z : Int, (0 : ℚ) < 10 ^ z := fun z => zpow_pos (by norm_num) z
    have hlt : q < 10 ^ (16 + e) := by
      rw [h, zpow_add₀ (by norm_num)]
      have : (n : ℚ) < 10 ^ (16 : Int) := by exact_mod_cast hn
      exact mul_lt_mul_of_pos_right this (hu e)
    have hle : Int.log 10 q - 15 ≤ e := by
      have h1 : ((10 : Nat) : ℚ) ^ Int.log 10 q ≤ q := Int.zpow_log_le_self (by norm_num) hq
      have h2 : (10 : ℚ) ^ Int.log 10 q < 10 ^ (16 + e) := lt_of_le_of_lt (by exact_mod_cast h1) hlt
      have := (zpow_lt_zpow_iff_right₀ (by norm_num : (1 : ℚ) < 10)).mp h2
      omega
    obtain ⟨d, hd⟩ : ∃ d : Nat, e = (Int.log 10 q - 15) + d := ⟨(e - (Int.log 10 q - 15)).toNat, by omega⟩
    generalize Int.log 10 q - 15 = z at hd
    have : q / 10 ^ z = ((n * 10 ^ d : Nat) : Int) := by
      rw [h, hd, zpow_add₀ (by norm_num), zpow_natCast]
      have := (hu z).ne'
      push_cast
      field_simp
    rw [this, roundHE_int]
    rw [← this]
    have := (hu z).ne'
    field_simp
  rcases lt_trichotomy q 0 with h | rfl | h
  · have := pos (-q) (by linarith) (by rw [← hq, abs_of_neg h])
    rw [printed_abs] at this
    linarith
  · simp [printed]
  · exact pos q h (by rw [← hq, abs_of_pos h])

-- a position with four digits after the point
example : printed (10245678 / 10000) = 10245678 / 10000 := C97_short_exact (n := 10245678) (e := -4) (by norm_num) (by norm_num)

/-- **C97** is false: a double can be lost in print. -/
theorem C97_counterexample : ¬ ∀ q : ℚ, IsDouble q → rndD (printed q) = q := by
  intro h
  have hd : IsDouble (1024 + 1 / 2 ^ 42 : ℚ) := by
    refine ⟨2 ^ 52 + 1, -42, by norm_num, ?_⟩
    norm_num
  have hlog : Int.log 10 (1024 + 1 / 2 ^ 42 : ℚ) = 3 := by
    have h1 : (3 : Int) ≤ Int.log 10 (1024 + 1 / 2 ^ 42 : ℚ) := (Int.zpow_le_iff_le_log (by norm_num) (by norm_num)).mp (by norm_num)
    have h2 : Int.log 10 (1024 + 1 / 2 ^ 42 : ℚ) < 4 := (Int.lt_zpow_iff_log_lt (by norm_num) (by norm_num)).mp (by norm_num)
    omega
  have hp : printed (1024 + 1 / 2 ^ 42 : ℚ) = 1024 := by
    rw [printed_pos (by norm_num), hlog]
    have : roundHE ((1024 + 1 / 2 ^ 42 : ℚ) / 10 ^ ((3 : Int) - 15)) = 1024 * 10 ^ 12 := by
      have : ((1024 + 1 / 2 ^ 42 : ℚ) / 10 ^ ((3 : Int) - 15)) = (1024 + 1 / 2 ^ 42) * 10 ^ 12 := by norm_num
      rw [this]
      decide +kernel
    rw [this]
    norm_num
  have := h _ hd
  rw [hp, show (1024 : ℚ) = ((1024 : Int) : ℚ) by norm_num, rndD_int (by norm_num)] at this
  norm_num at this

end Meds.InputText
