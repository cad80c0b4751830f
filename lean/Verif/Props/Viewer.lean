import Verif.Model.Viewer
import Verif.Props.View
import Verif.Lemmas.Writer
import Mathlib.Tactic.IntervalCases
import Mathlib.Tactic.Push

/-!
# The viewer: sessions, combined pictures, grey values (C80-C82)
-/

namespace Meds.View

/-! ### Names of the pictures -/

theorem digitChar_ne {d : Nat} (h : d < 10) : Nat.digitChar d ≠ '-' := by
  interval_cases d <;> decide

theorem digitChar_inj {a b : Nat} (ha : a < 10) (hb : b < 10) (h : Nat.digitChar a = Nat.digitChar b) : a = b := by
  interval_cases a <;> interval_cases b <;> first | rfl | (exfalso; revert h; decide)

theorem padNat_ne (w n : Nat) : '-' ∉ padNat w n := by
  unfold padNat
  simp only [List.mem_append, List.mem_replicate, List.mem_map, List.mem_reverse, not_or, not_and, not_exists]
  refine ⟨fun _ => by decide, ?_⟩
  intro d hd
  exact digitChar_ne (Nat.digits_lt_base (by decide) hd)

/-- The number a padded text stands for. -/
theorem padNat_digits (w n : Nat) : ∃ ds : List Nat, (∀ d ∈ ds, d < 10) ∧ padNat w n = ds.map Nat.digitChar ∧ Nat.ofDigits 10 ds.reverse = n := by
  refine ⟨List.replicate (w - ((Nat.digits 10 n).reverse.map Nat.digitChar).length) 0 ++ (Nat.digits 10 n).reverse, ?_, ?_, ?_⟩
  · intro d hd
    rcases List.mem_append.mp hd with h | h
    · rw [List.eq_of_mem_replicate h]; decide
    · exact Nat.digits_lt_base (by decide) (List.mem_reverse.mp h)
  · unfold padNat
    simp [Nat.digitChar]
  · rw [List.reverse_append, List.reverse_reverse, Nat.ofDigits_append, Nat.ofDigits_digits, List.reverse_replicate]
    have : ∀ k, Nat.ofDigits 10 (List.replicate k 0) = 0 := by
      intro k
      induction k with
      | zero => rfl
      | succ k ih => rw [List.replicate_succ, Nat.ofDigits_cons, ih]
    rw [this]
    simp

theorem map_digitChar_inj {a b : List Nat} (ha : ∀ d ∈ a, d < 10) (hb : ∀ d ∈ b, d < 10) (h : a.map Nat.digitChar = b.map Nat.digitChar) : a = b := by
  induction a generalizing b with
  | nil => cases b with
    | nil => rfl
    | cons y ys => cases h
  | cons x xs ih =>
    cases b with
    | nil => cases h
    | cons y ys =>
      rw [List.map_cons, List.map_cons] at h
      injection h with h1 h2
      rw [digitChar_inj (ha x (by simp)) (hb y (by simp)) h1, ih (fun d hd => ha d (by simp [hd])) (fun d hd => hb d (by simp [hd])) h2]

theorem padNat_inj {w n m : Nat} (h : padNat w n = padNat w m) : n = m := by
  obtain ⟨a, ha, ha1, ha2⟩ := padNat_digits w n
  obtain ⟨b, hb, hb1, hb2⟩ := padNat_digits w m
  rw [ha1, hb1] at h
  rw [← ha2, ← hb2, map_digitChar_inj ha hb h]

/-- Texts without `-` followed by `-`. -/
theorem split_dash {a b x y : List Char} (ha : '-' ∉ a) (hb : '-' ∉ b) (h : a ++ '-' :: x = b ++ '-' :: y) : a = b ∧ x = y := by
  induction a generalizing b with
  | nil =>
    cases b with
    | nil => exact ⟨rfl, by simpa using h⟩
    | cons c cs =>
      simp only [List.nil_append, List.cons_append] at h
      injection h with h1 h2
      exact absurd (by rw [h1]; simp) hb
  | cons c cs ih =>
    cases b with
    | nil =>
      simp only [List.nil_append, List.cons_append] at h
      injection h with h1 h2
      exact absurd (by rw [← h1]; simp) ha
    | cons d ds =>
      simp only [List.cons_append] at h
      injection h with h1 h2
      obtain ⟨e1, e2⟩ := ih (fun hm => ha (by simp [hm])) (fun hm => hb (by simp [hm])) h2
      exact ⟨by rw [h1, e1], e2⟩

theorem padNat_pos (w n : Nat) (hw : 0 < w) : padNat w n ≠ [] := by
  unfold padNat
  intro h
  have := congrArg List.length h
  simp only [List.length_append, List.length_replicate, List.length_nil] at this
  omega

/-- **C80** Different objects or different types, different picture files. -/
theorem C80_names_differ {b t t' : List Char} {i i' : Int} (h : pngName b i t = pngName b i' t') : i = i' ∧ t = t' := by
  unfold pngName at h
  have h := List.append_cancel_left h
  injection h with _ h
  unfold pad6 at h
  have hhead : ∀ (n : Nat) (x y : List Char), padNat 6 n ++ x ≠ '-' :: y := by
    intro n x y hh
    cases hp : padNat 6 n with
    | nil => exact padNat_pos 6 n (by decide) hp
    | cons c cs =>
      rw [hp] at hh
      injection hh with h1 _
      exact padNat_ne 6 n (by rw [hp, h1]; simp)
  by_cases h1 : i < 0 <;> by_cases h2 : i' < 0
  · rw [if_pos h1, if_pos h2] at h
    simp only [List.cons_append] at h
    injection h with _ h
    obtain ⟨e1, e2⟩ := split_dash (padNat_ne _ _) (padNat_ne _ _) h
    have := padNat_inj e1
    exact ⟨by omega, List.append_cancel_right e2⟩
  · rw [if_pos h1, if_neg h2] at h
    simp only [List.cons_append] at h
    exact absurd h.symm (hhead _ _ _)
  · rw [if_neg h1, if_pos h2] at h
    simp only [List.cons_append] at h
    exact absurd h (hhead _ _ _)
  · rw [if_neg h1, if_neg h2] at h
    obtain ⟨e1, e2⟩ := split_dash (padNat_ne _ _) (padNat_ne _ _) h
    have := padNat_inj e1
    exact ⟨by omega, List.append_cancel_right e2⟩

example : String.ofList (pngName "f".toList 42 "seg".toList) = "f-000042-seg.png" := by decide +kernel
example : String.ofList (pngName "f".toList (-3) "seg".toList) = "f--00003-seg.png" := by decide +kernel

/-! ### The objects asked for -/

/-- **C80** With first and last object given, these and all between, in order; the last defaults to the last of the file, the first to 0. -/
theorem C80_requested (size : Nat) (start stop : Option Int) :
    (getIndices size start stop none).Pairwise (· < ·) ∧
    ∀ i, i ∈ getIndices size start stop none ↔ start.getD 0 ≤ i ∧ i ≤ stop.getD (size - 1) := by
  have hA : ∀ a b : Int, (arange a b).Pairwise (· < ·) ∧ ∀ i, i ∈ arange a b ↔ a ≤ i ∧ i < b := by
    intro a b
    unfold arange
    constructor
    · rw [List.pairwise_map]
      exact List.pairwise_lt_range.imp (fun h => by omega)
    · intro i
      simp only [List.mem_map, List.mem_range]
      constructor
      · rintro ⟨k, hk, rfl⟩; omega
      · rintro ⟨h1, h2⟩; exact ⟨(i - a).toNat, by omega, by omega⟩
  unfold getIndices
  dsimp only
  split
  · refine ⟨(hA _ _).1, fun i => ?_⟩
    rw [(hA _ _).2]
    cases stop with
    | none => simp only [Option.getD_none]; omega
    | some e => simp only [Option.getD_some]; omega
  · rename_i h
    push Not at h
    obtain ⟨h1, h2⟩ := h
    have e1 : start = none := by simpa using h1
    have e2 : stop = none := by simpa using h2
    subst e1 e2
    refine ⟨(hA _ _).1, fun i => ?_⟩
    rw [(hA _ _).2]
    simp only [Option.getD_none]
    omega

/-- **C80** A list of objects is taken as it is, whatever else is given. -/
theorem C80_listed (size : Nat) (start stop : Option Int) (l : List Int) : getIndices size start stop (some l) = l := rfl

example : getIndices 10 (some 3) (some 5) none = [3, 4, 5] := by decide

/-! ### The session -/

/-- The pictures drawn, in order, with the file they are stored in. -/
def drawn (es : List Event) : List (Int × List Char × Option (List Char)) :=
  es.filterMap (fun e => match e with
    | .plot i t f => some (i, t, f)
    | .ask => none)

theorem viewTypes_ok {w : World} {save html : Bool} {index : Int} : ∀ {ts : List (List Char)} {s s' : Session} {e : Option Err}, viewTypes w save html index ts s = (s', e) →
    (e = none → s'.page = s.page ++ (if html then ts.map (fun t => Tok.item (pngName w.bname index t)) else []) ∧ s'.asked = s.asked ∧
      drawn s'.events = drawn s.events ++ ts.map (fun t => (index, t, if save then some (pngName w.bname index t) else none))) ∧
    (Tok.foot ∉ s.page → Tok.foot ∉ s'.page) ∧ ((∀ t ∈ ts, w.plot index t = .ok ()) → e = none) := by
  intro ts
  induction ts with
  | nil =>
    intro s s' e h
    injection h with h1 h2
    subst h1 h2
    simp
  | cons t ts ih =>
    intro s s' e h
    unfold viewTypes at h
    cases hp : w.plot index t with
    | error er =>
      rw [hp] at h
      injection h with h1 h2
      subst h1 h2
      refine ⟨fun h => (by cases h), fun h => h, fun hh => ?_⟩
      rw [hh t (by simp)] at hp
      cases hp
    | ok _ =>
      rw [hp] at h
      dsimp only at h
      obtain ⟨a, b, c⟩ := ih h
      refine ⟨?_, ?_, ?_⟩
      · intro he
        obtain ⟨a1, a2, a3⟩ := a he
        rw [a1, a2, a3]
        cases html <;> simp [drawn]
      · intro hf
        apply b
        cases html <;> simpa using hf
      · intro hh
        exact c (fun x hx => hh x (by simp [hx]))

/-- An object the viewer shows something of: it has cutouts. -/
def Shown (w : World) (i : Int) : Bool :=
  match pyGet w.ncutout i with
  | .ok n => n ≠ 0
  | .error _ => false

theorem viewObjects_ok {w : World} {save shows html : Bool} : ∀ {l : List Int} {s s' : Session} {o : Outcome}, viewObjects w save shows html l s = (s', o) →
    (o = .done → s'.page = s.page ++ (if html then (l.filter (Shown w)).flatMap (fun i => Tok.lineBegin :: (w.types.map (fun t => Tok.item (pngName w.bname i t)) ++ [Tok.lineEnd])) else []) ∧
      drawn s'.events = drawn s.events ++ (l.filter (Shown w)).flatMap (fun i => w.types.map (fun t => (i, t, if save then some (pngName w.bname i t) else none)))) ∧
    (Tok.foot ∉ s.page → Tok.foot ∉ s'.page) ∧
    ((∀ i ∈ l, -(w.ncutout.length : Int) ≤ i ∧ i < w.ncutout.length) → (∀ i ∈ l, ∀ t ∈ w.types, Shown w i = true → w.plot i t = .ok ()) →
      (shows = true → ∀ n, w.quits n = false) → o = .done) := by
  intro l
  induction l with
  | nil =>
    intro s s' o h
    injection h with h1 h2
    subst h1 h2
    simp
  | cons i l ih =>
    intro s s' o h
    unfold viewObjects at h
    cases hg : pyGet w.ncutout i with
    | error er =>
      rw [hg] at h
      injection h with h1 h2
      subst h1 h2
      refine ⟨fun h => (by cases h), fun h => h, fun hb _ _ => ?_⟩
      exfalso
      obtain ⟨b1, b2⟩ := hb i (by simp)
      unfold pyGet pyIndex at hg
      split at hg
      · rename_i he
        split at he
        · cases he
        · cases he
      · rename_i k hk
        have : k < w.ncutout.length := pyIndex_ok (i := i) hk
        rw [List.getElem?_eq_getElem this] at hg
        cases hg
    | ok n =>
      rw [hg] at h
      dsimp only at h
      by_cases hn : n = 0
      · rw [if_pos hn] at h
        have hsh : Shown w i = false := by simp [Shown, hg, hn]
        obtain ⟨a, b, c⟩ := ih h
        refine ⟨?_, b, ?_⟩
        · intro ho
          rw [List.filter_cons, hsh]
          exact a ho
        · intro q1 q2 q3
          exact c (fun x hx => q1 x (by simp [hx])) (fun x hx => q2 x (by simp [hx])) q3
      · rw [if_neg hn] at h
        have hsh : Shown w i = true := by simp [Shown, hg, hn]
        cases hv : viewTypes w save html i w.types (if html then { s with page := s.page ++ [.lineBegin] } else s) with
        | mk s1 e1 =>
          obtain ⟨t1, t2, t3⟩ := viewTypes_ok hv
          rw [hv] at h
          have hfoot : Tok.foot ∉ s.page → Tok.foot ∉ s1.page := by
            intro hf
            apply t2
            cases html <;> simpa using hf
          cases e1 with
          | some er =>
            injection h with h1 h2
            subst h1 h2
            refine ⟨fun h => (by cases h), hfoot, fun q1 q2 q3 => ?_⟩
            have := t3 (fun t ht => q2 i (by simp) t ht hsh)
            cases this
          | none =>
            dsimp only at h
            obtain ⟨u1, u2, u3⟩ := t1 rfl
            have hrest : ∀ s2 : Session, (s2.page = if html then s1.page ++ [.lineEnd] else s1.page) → drawn s2.events = drawn s1.events →
                viewObjects w save shows html l s2 = (s', o) → _ := fun s2 e1 e2 hh => (show
              (o = .done → s'.page = s.page ++ (if html then ((i :: l).filter (Shown w)).flatMap (fun i => Tok.lineBegin :: (w.types.map (fun t => Tok.item (pngName w.bname i t)) ++ [Tok.lineEnd])) else []) ∧
                drawn s'.events = drawn s.events ++ ((i :: l).filter (Shown w)).flatMap (fun i => w.types.map (fun t => (i, t, if save then some (pngName w.bname i t) else none)))) ∧
              (Tok.foot ∉ s.page → Tok.foot ∉ s'.page) ∧
              ((∀ x ∈ l, -(w.ncutout.length : Int) ≤ x ∧ x < w.ncutout.length) → (∀ x ∈ l, ∀ t ∈ w.types, Shown w x = true → w.plot x t = .ok ()) →
                (shows = true → ∀ n, w.quits n = false) → o = .done) from by
                obtain ⟨a, b, c⟩ := ih hh
                refine ⟨?_, ?_, c⟩
                · intro ho
                  obtain ⟨a1, a2⟩ := a ho
                  rw [a1, a2, e1, e2, u1, u3, List.filter_cons, if_pos hsh]
                  cases html <;> simp
                · intro hf
                  apply b
                  rw [e1]
                  have := hfoot hf
                  cases html <;> simpa using this)
            cases hs : shows with
            | false =>
              subst hs
              simp only [Bool.false_eq_true, if_false] at h
              obtain ⟨a, b, c⟩ := hrest _ (by cases html <;> rfl) (by cases html <;> rfl) h
              refine ⟨a, b, fun q1 q2 q3 => c (fun x hx => q1 x (by simp [hx])) (fun x hx => q2 x (by simp [hx])) q3⟩
            | true =>
              subst hs
              simp only [if_true] at h
              generalize hs2 : (if html then { s1 with page := s1.page ++ [Tok.lineEnd] } else s1 : Session) = s2 at h
              have hp2 : s2.page = if html then s1.page ++ [.lineEnd] else s1.page := by rw [← hs2]; cases html <;> rfl
              have he2 : s2.events = s1.events := by rw [← hs2]; cases html <;> rfl
              by_cases hq : w.quits s2.asked = true
              · rw [if_pos hq] at h
                injection h with h1 h2
                subst h1 h2
                refine ⟨fun h => (by cases h), ?_, fun q1 q2 q3 => ?_⟩
                · intro hf
                  have := hfoot hf
                  dsimp only
                  rw [hp2]
                  cases html <;> simpa using this
                · rw [q3 rfl] at hq
                  cases hq
              · rw [if_neg hq] at h
                obtain ⟨a, b, c⟩ := hrest { s2 with events := s2.events ++ [.ask], asked := s2.asked + 1 } hp2 (by simp [drawn, he2]) h
                refine ⟨a, b, fun q1 q2 q3 => c (fun x hx => q1 x (by simp [hx])) (fun x hx => q2 x (by simp [hx])) q3⟩

/-- **C80** (partial: only when the user looks at all objects) The page: one line for each requested object that has cutouts, in the order asked for, in it one
picture for each type, and each is a file stored in this session for just this object and type. -/
theorem C80_page_partial {w : World} {save shows : Bool} {start stop : Option Int} {ind : Option (List Int)} {s : Session}
    (h : go w save shows true start stop ind = (s, .done)) :
    let objs := (getIndices w.ncutout.length start stop ind).filter (Shown w)
    s.page = Tok.head :: (objs.flatMap (fun i => Tok.lineBegin :: (w.types.map (fun t => Tok.item (pngName w.bname i t)) ++ [Tok.lineEnd])) ++ [Tok.foot]) ∧
    drawn s.events = objs.flatMap (fun i => w.types.map (fun t => (i, t, some (pngName w.bname i t)))) := by
  unfold go at h
  simp only [if_true] at h
  rw [if_neg (by simp)] at h
  cases hv : viewObjects w true shows true (getIndices w.ncutout.length start stop ind) ⟨[], [.head], 0⟩ with
  | mk s1 o =>
    rw [hv] at h
    obtain ⟨a, _, _⟩ := viewObjects_ok hv
    cases o with
    | done =>
      obtain ⟨a1, a2⟩ := a rfl
      injection h with h1 h2
      subst h1
      dsimp only
      constructor
      · rw [a1]; simp
      · rw [a2]; simp [drawn]
    | quit => injection h with h1 h2; cases h2
    | raised e => injection h with h1 h2; cases h2

/-- **C80** Without a page: the pictures are those of the requested objects with cutouts, in order, for each type, stored if and only if asked for. -/
theorem C80_pictures {w : World} {save shows : Bool} {start stop : Option Int} {ind : Option (List Int)} {s : Session}
    (h : go w save shows false start stop ind = (s, .done)) :
    s.page = [] ∧ drawn s.events = ((getIndices w.ncutout.length start stop ind).filter (Shown w)).flatMap
      (fun i => w.types.map (fun t => (i, t, if save then some (pngName w.bname i t) else none))) := by
  unfold go at h
  simp only [Bool.false_eq_true, if_false] at h
  split at h
  · injection h with h1 h2; cases h2
  · cases hv : viewObjects w save shows false (getIndices w.ncutout.length start stop ind) ⟨[], [], 0⟩ with
    | mk s1 o =>
      rw [hv] at h
      obtain ⟨a, _, _⟩ := viewObjects_ok hv
      cases o with
      | done =>
        obtain ⟨a1, a2⟩ := a rfl
        injection h with h1 h2
        subst h1
        exact ⟨by rw [a1]; simp, by rw [a2]; simp [drawn]⟩
      | quit => injection h with h1 h2; cases h2
      | raised e => injection h with h1 h2; cases h2

/-- **C80** A session gets through if the objects exist, can be drawn, and the user does not leave. -/
theorem C80_completes {w : World} {save shows html : Bool} {start stop : Option Int} {ind : Option (List Int)} (hm : save = true ∨ shows = true ∨ html = true)
    (hi : ∀ i ∈ getIndices w.ncutout.length start stop ind, -(w.ncutout.length : Int) ≤ i ∧ i < w.ncutout.length)
    (hp : ∀ i ∈ getIndices w.ncutout.length start stop ind, ∀ t ∈ w.types, Shown w i = true → w.plot i t = .ok ())
    (hq : shows = true → ∀ n, w.quits n = false) : (go w save shows html start stop ind).2 = .done := by
  unfold go
  dsimp only
  rw [if_neg (by rcases hm with h | h | h <;> subst h <;> simp)]
  cases hv : viewObjects w (if html then true else save) shows html (getIndices w.ncutout.length start stop ind) ⟨[], if html then [.head] else [], 0⟩ with
  | mk s1 o =>
    obtain ⟨_, _, c⟩ := viewObjects_ok hv
    rw [c hi hp hq]

/-- **C80 (limits)** A session that the user leaves early, or in which something raises, leaves the page without its end. -/
theorem C80_unfinished_page {w : World} {save shows html : Bool} {start stop : Option Int} {ind : Option (List Int)} {s : Session} {o : Outcome}
    (h : go w save shows html start stop ind = (s, o)) (ho : o ≠ .done) : Tok.foot ∉ s.page := by
  unfold go at h
  dsimp only at h
  by_cases hm : (if html then true else save) = false ∧ shows = false
  · rw [if_pos hm] at h
    injection h with h1 h2
    subst h1
    simp
  · rw [if_neg hm] at h
    cases hv : viewObjects w (if html then true else save) shows html (getIndices w.ncutout.length start stop ind) ⟨[], if html then [.head] else [], 0⟩ with
    | mk s1 o1 =>
      rw [hv] at h
      obtain ⟨_, b, _⟩ := viewObjects_ok hv
      have hb := b (by cases html <;> simp)
      cases o1 with
      | done => injection h with h1 h2; exact absurd h2.symm ho
      | quit => injection h with h1 h2; subst h1; exact hb
      | raised e => injection h with h1 h2; subst h1; exact hb

/-- **C80** Neither storing nor showing: refused before anything is drawn. -/
theorem C80_refused (w : World) (start stop : Option Int) (ind : Option (List Int)) : go w false false false start stop ind = (⟨[], [], 0⟩, .raised .runtimeError) := rfl

/-- **C80** Every single picture has its title: the image it comes from, or `coadd` (`none`) for the first if so asked. -/
theorem C80_titles (b : Bool) {f : List Int} (hf : f ≠ []) :
    (titles b f).length = f.length ∧ ∀ (k : Nat) (i : Int), f[k]? = some i → (titles b f)[k]? = some (if b ∧ k = 0 then none else some i) := by
  cases f with
  | nil => exact absurd rfl hf
  | cons x xs =>
    cases b with
    | false =>
      refine ⟨by simp [titles], fun k i hk => ?_⟩
      simp only [titles, Bool.false_eq_true, if_false, false_and]
      rw [List.getElem?_map, hk]
      rfl
    | true =>
      refine ⟨by simp [titles], fun k i hk => ?_⟩
      cases k with
      | zero => simp [titles]
      | succ k =>
        simp only [List.getElem?_cons_succ] at hk
        simp [titles, hk]

example : titles true [0, 7, 9] = [none, some 7, some 9] := by decide

/-- Three objects, the middle one without cutouts. -/
def exWorld (quits : Nat → Bool) : World := ⟨[2, 0, 1], ["image".toList, "seg".toList], "f".toList, fun _ _ => .ok (), quits⟩

example : (go (exWorld fun _ => false) false true true none none none).2 = .done ∧
    (drawn (go (exWorld fun _ => false) false true true none none none).1.events).map (fun x => (x.1, String.ofList x.2.1)) =
      [(0, "image"), (0, "seg"), (2, "image"), (2, "seg")] := by decide +kernel

/-- **C80** The full claim - a session that ends without an error leaves a complete page - is false: the user may answer `q`. -/
theorem C80_counterexample : ∃ w s o, go w true true true none none none = (s, o) ∧ (∀ e, o ≠ .raised e) ∧ Tok.foot ∉ s.page := by
  refine ⟨exWorld (fun _ => true), (go (exWorld fun _ => true) true true true none none none).1, .quit, ?_, (fun e h => by cases h), ?_⟩
  · decide +kernel
  · decide +kernel

/-! ### The combined picture -/

/-- The value of the picture before it is turned over, when the images before number `m` are in. -/
def cellValue (full : List (Img ℚ)) (nc h w m : Nat) (i j : Nat) : ℚ :=
  if i / h * nc + j / w < m then ((full[i / h * nc + j / w]?).bind (fun im => im.get? (i % h) (j % w))).getD 0 else 0

theorem block_iff {nc h w m i j : Nat} (hh : 0 < h) (hw : 0 < w) (hj : j < nc * w) :
    (m / nc * h ≤ i ∧ i < m / nc * h + h ∧ m % nc * w ≤ j ∧ j < m % nc * w + w) ↔ i / h * nc + j / w = m := by
  have hjw : j / w < nc := Nat.div_lt_of_lt_mul (by rw [Nat.mul_comm]; exact hj)
  have hnc : 0 < nc := Nat.lt_of_le_of_lt (Nat.zero_le _) hjw
  have e1 : (m / nc * h ≤ i ∧ i < m / nc * h + h) ↔ i / h = m / nc := by
    rw [Nat.div_eq_iff hh]
    constructor
    · rintro ⟨a, b⟩; constructor <;> [exact a; omega]
    · rintro ⟨a, b⟩; constructor <;> [exact a; omega]
  have e2 : (m % nc * w ≤ j ∧ j < m % nc * w + w) ↔ j / w = m % nc := by
    rw [Nat.div_eq_iff hw]
    constructor
    · rintro ⟨a, b⟩; constructor <;> [exact a; omega]
    · rintro ⟨a, b⟩; constructor <;> [exact a; omega]
  constructor
  · rintro ⟨a, b, c, d⟩
    rw [e1.mp ⟨a, b⟩, e2.mp ⟨c, d⟩]
    have := Nat.div_add_mod m nc
    rw [Nat.mul_comm] at this
    exact this
  · intro hm
    have h1 : m / nc = i / h := by
      rw [← hm, Nat.add_comm, Nat.add_mul_div_right _ _ hnc, Nat.div_eq_of_lt hjw, Nat.zero_add]
    have h2 : m % nc = j / w := by
      rw [← hm, Nat.add_comm, Nat.add_mul_mod_self_right, Nat.mod_eq_of_lt hjw]
    obtain ⟨a, b⟩ := e1.mpr h1.symm
    obtain ⟨c, d⟩ := e2.mpr h2.symm
    exact ⟨a, b, c, d⟩

theorem combine_fold {full : List (Img ℚ)} {g : Nat × Nat} {h w : Nat} (hg : full.length ≤ g.1 * g.2) (hs : ∀ im ∈ full, im.nr = h ∧ im.nc = w) :
    ∀ (l : List (Img ℚ)) (m : Nat), full.drop m = l → m ≤ full.length →
      foldRes (combineStep g h w) (Img.ofFn (g.1 * h) (g.2 * w) (cellValue full g.2 h w m)) ((l.zipIdx m).map (fun x => (x.2, x.1))) =
        .ok (Img.ofFn (g.1 * h) (g.2 * w) (cellValue full g.2 h w full.length)) := by
  intro l
  induction l with
  | nil =>
    intro m hm hle
    have : m = full.length := by
      have := congrArg List.length hm
      simp at this
      omega
    rw [this]
    rfl
  | cons im l ih =>
    intro m hm hle
    have hlen := congrArg List.length hm
    simp only [List.length_drop, List.length_cons] at hlen
    have hget : full[m]? = some im := by
      have := congrArg (·[0]?) hm
      simpa using this
    have hmem : im ∈ full := List.mem_of_getElem? hget
    have hstep : combineStep g h w (Img.ofFn (g.1 * h) (g.2 * w) (cellValue full g.2 h w m)) (m, im) =
        .ok (Img.ofFn (g.1 * h) (g.2 * w) (cellValue full g.2 h w (m + 1))) := by
      unfold combineStep getRowcol
      dsimp only
      rw [if_neg (by have : ((m : Int) < (g.1 : Int) * g.2) := by { have : m < g.1 * g.2 := by omega
                                                                    exact_mod_cast this }
                     omega)]
      dsimp only
      rw [if_pos (hs im hmem)]
      unfold paste
      rw [Img.ofFn_nr, Img.ofFn_nc, (hs im hmem).1, (hs im hmem).2]
      congr 1
      apply Img.ofFn_congr
      intro i j hi hj
      have hh : 0 < h := Nat.pos_of_ne_zero (fun h0 => by subst h0; simp at hi)
      have hw : 0 < w := Nat.pos_of_ne_zero (fun h0 => by subst h0; simp at hj)
      rw [Img.ofFn_get? _ hi hj, Option.getD_some]
      by_cases hb : i / h * g.2 + j / w = m
      · obtain ⟨b1, b2, b3, b4⟩ := (block_iff hh hw hj).mpr hb
        rw [if_pos ⟨b1, b2, b3, b4⟩]
        unfold cellValue
        rw [hb, if_pos (by omega), hget, Option.bind_some]
        have r1 : i % h = i - m / g.2 * h := by
          have h1 : i / h = m / g.2 := by
            rw [Nat.div_eq_iff hh]; omega
          have := Nat.div_add_mod i h
          rw [h1, Nat.mul_comm] at this
          omega
        have r2 : j % w = j - m % g.2 * w := by
          have h1 : j / w = m % g.2 := by
            rw [Nat.div_eq_iff hw]; omega
          have := Nat.div_add_mod j w
          rw [h1, Nat.mul_comm] at this
          omega
        rw [r1, r2]
      · rw [if_neg (fun hc => hb ((block_iff hh hw hj).mp hc))]
        unfold cellValue
        by_cases hlt : i / h * g.2 + j / w < m
        · rw [if_pos hlt, if_pos (by omega)]
        · rw [if_neg hlt, if_neg (by omega)]
    rw [List.zipIdx_cons, List.map_cons]
    unfold foldRes
    dsimp only
    rw [hstep]
    dsimp only
    apply ih
    · have := congrArg (List.drop 1) hm
      simpa [List.drop_drop, Nat.add_comm] using this
    · omega

/-- **C81** (partial: upside down) The combined picture of cutouts of one shape: image `k` fills cell `k` of the grid of C51, counted row by row from the top of
the picture (its last row of pixels), with its own rows in reverse order; cells without image are zero; the picture is made of these cells only. -/
theorem C81_cells_partial {imlist : List (Img ℚ)} {h w : Nat} (hne : imlist ≠ []) (hs : ∀ im ∈ imlist, im.nr = h ∧ im.nc = w) (hwf : ∀ im ∈ imlist, im.WF) :
    ∃ tot nrow ncol, makeCombined imlist.length.sqrt imlist = .ok tot ∧ setGrid imlist.length.sqrt imlist.length = (nrow, ncol) ∧ tot.nr = nrow * h ∧ tot.nc = ncol * w ∧
      (∀ (k : Nat) (im : Img ℚ), imlist[k]? = some im → ∀ a b, a < h → b < w →
        k / ncol < nrow ∧ tot.get? (nrow * h - 1 - (k / ncol * h + a)) (k % ncol * w + b) = im.get? a b) ∧
      (∀ row col a b, row < nrow → col < ncol → imlist.length ≤ row * ncol + col → a < h → b < w →
        tot.get? (nrow * h - 1 - (row * h + a)) (col * w + b) = some 0) := by
  obtain ⟨im0, rest, rfl⟩ : ∃ im0 rest, imlist = im0 :: rest := by
    cases imlist with
    | nil => exact absurd rfl hne
    | cons a l => exact ⟨a, l, rfl⟩
  generalize hL : im0 :: rest = full at *
  have hfit := (C51_enough_cells full.length).1
  obtain ⟨g, hg⟩ : ∃ g, setGrid full.length.sqrt full.length = g := ⟨_, rfl⟩
  rw [hg] at hfit
  have h0 : im0.nr = h ∧ im0.nc = w := hs im0 (by rw [← hL]; simp)
  have hz : Img.ofFn (g.1 * h) (g.2 * w) (fun _ _ => (0 : ℚ)) = Img.ofFn (g.1 * h) (g.2 * w) (cellValue full g.2 h w 0) := by
    apply Img.ofFn_congr
    intro i j _ _
    unfold cellValue
    rw [if_neg (Nat.not_lt_zero _)]
  have hfold := combine_fold hfit hs full 0 rfl (Nat.zero_le _)
  have hmk : makeCombined full.length.sqrt full = .ok (flipud (Img.ofFn (g.1 * h) (g.2 * w) (cellValue full g.2 h w full.length))) := by
    unfold makeCombined
    dsimp only
    rw [hg, ← hL]
    dsimp only
    rw [hL, h0.1, h0.2, hz]
    rw [hfold]
    rfl
  have hpix : ∀ row col a b, row < g.1 → col < g.2 → a < h → b < w →
      (flipud (Img.ofFn (g.1 * h) (g.2 * w) (cellValue full g.2 h w full.length))).get? (g.1 * h - 1 - (row * h + a)) (col * w + b) =
        some (cellValue full g.2 h w full.length (row * h + a) (col * w + b)) := by
    intro row col a b hr hc ha hb
    have hi : row * h + a < g.1 * h := by
      have : (row + 1) * h ≤ g.1 * h := Nat.mul_le_mul_right _ hr
      rw [Nat.add_mul] at this
      omega
    have hj : col * w + b < g.2 * w := by
      have : (col + 1) * w ≤ g.2 * w := Nat.mul_le_mul_right _ hc
      rw [Nat.add_mul] at this
      omega
    unfold flipud
    rw [Img.ofFn_nr, Img.ofFn_nc, Img.ofFn_get? _ (by omega) hj]
    have e : g.1 * h - 1 - (g.1 * h - 1 - (row * h + a)) = row * h + a := by omega
    rw [e, Img.ofFn_get? _ hi hj, Option.getD_some]
  have hdiv : ∀ {x y z : Nat}, y < z → (x * z + y) / z = x ∧ (x * z + y) % z = y := by
    intro x y z hy
    have hz : 0 < z := by omega
    constructor
    · rw [Nat.add_comm, Nat.add_mul_div_right _ _ hz, Nat.div_eq_of_lt hy, Nat.zero_add]
    · rw [Nat.add_comm, Nat.add_mul_mod_self_right, Nat.mod_eq_of_lt hy]
  refine ⟨_, g.1, g.2, hmk, hg, rfl, rfl, ?_, ?_⟩
  · intro k im hk a b ha hb
    have hklt : k < full.length := (List.getElem?_eq_some_iff.mp hk).1
    have hpos : 0 < g.2 := Nat.pos_of_ne_zero (fun h0 => by rw [h0] at hfit; omega)
    have hrow : k / g.2 < g.1 := Nat.div_lt_of_lt_mul (by rw [Nat.mul_comm]; omega)
    refine ⟨hrow, ?_⟩
    rw [hpix _ _ _ _ hrow (Nat.mod_lt _ hpos) ha hb]
    unfold cellValue
    rw [(hdiv ha).1, (hdiv ha).2, (hdiv hb).1, (hdiv hb).2]
    have hkk : k / g.2 * g.2 + k % g.2 = k := by
      have := Nat.div_add_mod k g.2
      rw [Nat.mul_comm] at this
      exact this
    rw [hkk, if_pos hklt, hk, Option.bind_some]
    have him := List.mem_of_getElem? hk
    obtain ⟨v, hv⟩ : ∃ v, im.get? a b = some v := by
      have := Img.get?_some_of_WF (hwf im him) (i := a) (j := b) (by rw [(hs im him).1]; exact ha) (by rw [(hs im him).2]; exact hb)
      exact this
    rw [hv, Option.getD_some]
  · intro row col a b hr hc hlen ha hb
    rw [hpix _ _ _ _ hr hc ha hb]
    unfold cellValue
    rw [(hdiv ha).1, (hdiv ha).2, (hdiv hb).1, (hdiv hb).2, if_neg (by omega)]

example : makeCombined 1 [⟨2, 1, [1, 2]⟩, ⟨2, 1, [3, 4]⟩] = .ok ⟨2, 2, [2, 4, 1, 3]⟩ := by decide +kernel

/-- **C81** The full claim - every cutout is seen in its cell as it is seen alone - is false: the cutouts are upside down. -/
theorem C81_counterexample : ∃ im tot : Img ℚ, im.WF ∧ makeCombined 1 [im] = .ok tot ∧ tot ≠ im :=
  ⟨⟨2, 1, [1, 2]⟩, ⟨2, 1, [2, 1]⟩, by decide, by decide +kernel, by decide⟩

/-- **C81** Images of different shape are refused. -/
theorem C81_shapes_refused {sq : Nat} {imlist : List (Img ℚ)} {tot : Img ℚ} (h : makeCombined sq imlist = .ok tot) :
    ∀ a ∈ imlist, ∀ b ∈ imlist, a.nr = b.nr ∧ a.nc = b.nc := by
  cases hL : imlist with
  | nil => rw [hL] at h; cases h
  | cons im0 rest =>
    have hh := h
    rw [hL] at hh
    unfold makeCombined at hh
    obtain ⟨tot', h1, _⟩ := Res.bind_eq_ok.mp hh
    have key : ∀ (l : List (Nat × Img ℚ)) (s s' : Img ℚ), foldRes (combineStep (setGrid sq (im0 :: rest).length) im0.nr im0.nc) s l = .ok s' →
        ∀ x ∈ l, x.2.nr = im0.nr ∧ x.2.nc = im0.nc := by
      intro l
      induction l with
      | nil => intro s s' _ x hx; simp at hx
      | cons y ys ih =>
        intro s s' hf x hx
        obtain ⟨t, ht, hf⟩ := foldRes_cons_ok.mp hf
        rcases List.mem_cons.mp hx with rfl | hx
        · unfold combineStep at ht
          split at ht
          · cases ht
          · split at ht
            · assumption
            · cases ht
        · exact ih _ _ hf x hx
    have hall : ∀ a ∈ im0 :: rest, a.nr = im0.nr ∧ a.nc = im0.nc := by
      intro a ha
      obtain ⟨k, hk⟩ := List.mem_iff_getElem?.mp ha
      refine key _ _ _ h1 (k, a) ?_
      rw [List.mem_map]
      refine ⟨(a, k), ?_, rfl⟩
      rw [List.mem_zipIdx_iff_getElem?]
      exact hk
    intro a ha b hb
    exact ⟨by rw [(hall a ha).1, (hall b hb).1], by rw [(hall a ha).2, (hall b hb).2]⟩

/-! ### Grey values -/

section Grey
variable {K : Type} [Field K] [LinearOrder K] [IsStrictOrderedRing K]

/-- `m` is the largest value. -/
def IsMax (im : List K) (m : K) : Prop := m ∈ im ∧ ∀ x ∈ im, x ≤ m

omit [Field K] [IsStrictOrderedRing K] in
theorem foldl_max (xs : List K) (x : K) : (xs.foldl max x ∈ x :: xs) ∧ ∀ y ∈ x :: xs, y ≤ xs.foldl max x := by
  induction xs generalizing x with
  | nil => simp
  | cons z zs ih =>
    obtain ⟨h1, h2⟩ := ih (max x z)
    rw [List.foldl_cons]
    constructor
    · rcases List.mem_cons.mp h1 with h | h
      · rw [h]
        rcases max_choice x z with h | h <;> rw [h] <;> simp
      · simp [h]
    · intro y hy
      have h3 := h2 (max x z) (by simp)
      rcases List.mem_cons.mp hy with rfl | hy
      · exact le_trans (le_max_left _ _) h3
      · rcases List.mem_cons.mp hy with rfl | hy
        · exact le_trans (le_max_right _ _) h3
        · exact h2 y (by simp [hy])

omit [Field K] [IsStrictOrderedRing K] in
theorem maxOf_eq {im : List K} {m : K} (h : IsMax im m) : maxOf im = some m := by
  cases im with
  | nil => exact absurd h.1 (by simp)
  | cons x xs =>
    obtain ⟨h1, h2⟩ := foldl_max xs x
    show some (xs.foldl max x) = some m
    rw [le_antisymm (h.2 _ h1) (h2 _ h.1)]

/-- **C82** (partial: the brightest pixel is above zero) Grey values: between zero and one, proportional to the pixel where it is not negative, zero where it is, one at the
brightest pixel; a brighter pixel is never darker. -/
theorem C82_grey_partial {im : List K} {m : K} (hm : IsMax im m) (hpos : 0 < m) :
    ∃ out : List K, linearScale im = .ok (out.map some) ∧ out.length = im.length ∧ ∀ (k : Nat) (x v : K), im[k]? = some x → out[k]? = some v →
      0 ≤ v ∧ v ≤ 1 ∧ (0 ≤ x → v = x / m) ∧ (x ≤ 0 → v = 0) ∧ (x = m → v = 1) := by
  refine ⟨im.map (fun x => min (max (x * (1 / m)) 0) 1), ?_, by simp, ?_⟩
  · unfold linearScale
    rw [maxOf_eq hm]
    dsimp only
    rw [if_neg (ne_of_gt hpos), List.map_map]
    rfl
  · intro k x v hx hv
    rw [List.getElem?_map, hx] at hv
    injection hv with hv
    dsimp only at hv
    have hxm : x ≤ m := hm.2 x (List.mem_of_getElem? hx)
    have h1 : x * (1 / m) ≤ 1 := by
      rw [mul_one_div, div_le_one hpos]
      exact hxm
    refine ⟨?_, ?_, ?_, ?_, ?_⟩
    · rw [← hv]; exact le_min (le_max_right _ _) zero_le_one
    · rw [← hv]; exact min_le_right _ _
    · intro h0
      have h2 : 0 ≤ x * (1 / m) := by rw [mul_one_div]; exact div_nonneg h0 hpos.le
      rw [← hv, max_eq_left h2, min_eq_left h1, mul_one_div]
    · intro h0
      have h2 : x * (1 / m) ≤ 0 := by rw [mul_one_div]; exact div_nonpos_of_nonpos_of_nonneg h0 hpos.le
      rw [← hv, max_eq_right h2, min_eq_left zero_le_one]
    · intro h0
      subst h0
      rw [← hv, mul_one_div, div_self (ne_of_gt hpos), max_eq_left zero_le_one, min_self]

/-- **C82** The order of grey values is that of the pixels, whatever the sign of the maximum. -/
theorem C82_order {im : List K} {m : K} (hm : IsMax im m) (h0 : m ≠ 0) :
    ∃ out : List K, linearScale im = .ok (out.map some) ∧ ∀ (k l : Nat) (x y v u : K), im[k]? = some x → im[l]? = some y → out[k]? = some v → out[l]? = some u →
      x ≤ y → v ≤ u := by
  refine ⟨im.map (fun x => min (max (x * (1 / m)) 0) 1), ?_, ?_⟩
  · unfold linearScale
    rw [maxOf_eq hm]
    dsimp only
    rw [if_neg h0, List.map_map]
    rfl
  · intro k l x y v u hx hy hv hu hxy
    rw [List.getElem?_map, hx] at hv
    rw [List.getElem?_map, hy] at hu
    injection hv with hv
    injection hu with hu
    dsimp only at hv hu
    rw [← hv, ← hu]
    rcases lt_or_gt_of_ne h0 with hneg | hpos
    · have h1 : ∀ z, z ≤ m → 1 ≤ z * (1 / m) := by
        intro z hz
        rw [mul_one_div, one_le_div_of_neg hneg]
        exact hz
      have e : ∀ z, z ≤ m → min (max (z * (1 / m)) 0) 1 = 1 := fun z hz => min_eq_right (le_trans (h1 z hz) (le_max_left _ _))
      rw [e x (hm.2 x (List.mem_of_getElem? hx)), e y (hm.2 y (List.mem_of_getElem? hy))]
    · exact min_le_min_right _ (max_le_max_right _ (mul_le_mul_of_nonneg_right hxy (by rw [one_div]; exact (inv_pos.mpr hpos).le)))

/-- **C82 (limits)** All pixels negative: all are white. -/
theorem C82_all_negative {im : List K} {m : K} (hm : IsMax im m) (hneg : m < 0) : linearScale im = .ok (im.map (fun _ => some 1)) := by
  unfold linearScale
  rw [maxOf_eq hm]
  dsimp only
  rw [if_neg (ne_of_lt hneg)]
  congr 1
  apply List.map_congr_left
  intro z hz
  have h1 : 1 ≤ z * (1 / m) := by
    rw [mul_one_div, one_le_div_of_neg hneg]
    exact hm.2 z hz
  rw [min_eq_right (le_trans h1 (le_max_left _ _))]

/-- **C82 (limits)** The largest value zero, as in a mask without any flag: these pixels have no grey value at all. -/
theorem C82_zero_maximum {im : List K} (hm : IsMax im 0) :
    ∃ out, linearScale im = .ok out ∧ ∀ k : Nat, im[k]? = some 0 → out[k]? = some none := by
  refine ⟨im.map (fun x => if x = 0 then none else some 0), ?_, ?_⟩
  · unfold linearScale
    rw [maxOf_eq hm]
    dsimp only
    rw [if_pos rfl]
  · intro k hk
    rw [List.getElem?_map, hk]
    simp
end Grey

/-- **C82** The full claim - a grey value for every pixel - is false. -/
theorem C82_counterexample : ∃ im : List ℚ, im ≠ [] ∧ linearScale im = .ok (im.map (fun _ => none)) := ⟨[0, 0], by decide, by decide +kernel⟩

example : linearScale [(-1 : ℚ), 2, 4] = .ok [some 0, some (1/2), some 1] := by decide +kernel
example : IsMax [(-1 : ℚ), 2, 4] 4 := ⟨by simp, by intro x hx; simp at hx; rcases hx with rfl | rfl | rfl <;> norm_num⟩

end Meds.View
