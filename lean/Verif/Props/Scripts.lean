import Verif.Model.Scripts
import Verif.Props.Disk
import Mathlib.Data.Nat.Digits.Lemmas

/-!
# The extraction scripts (C90)
-/

namespace Meds.Spec

/-- An argument that is not taken for an option. -/
def Plain (s : String) : Prop := s.toList.head? ≠ some '-'

instance (s : String) : Decidable (Plain s) := by unfold Plain; infer_instance

/-- An argument that asks for help, possibly abbreviated or followed by other letters. -/
def AsksHelp (s : String) : Prop := ['-', 'h'] <+: s.toList ∨ ['-', '-', 'h'] <+: s.toList

/-- The program did its work: the input at path `f` was read, `extract` of it is what is now at path `o`. -/
def Extracted (nm : String → String) (d d' : Disk.Disk) (f o : String) (extract : Fits → Res Fits) : Prop :=
  ∃ inp g, Disk.readPath nm d f = some inp ∧ extract inp = .ok g ∧ Disk.readPath nm d' o = some g

end Meds.Spec

namespace Meds.Scripts

open Meds.Spec Extract Disk

variable {nm : String → String}

/-! ### Arguments -/

theorem parseArgs_plain {l acc : List String} (h : ∀ s ∈ l, Plain s) : parseArgs l acc = .args (acc.reverse ++ l) := by
  induction l generalizing acc with
  | nil => simp [parseArgs]
  | cons a rest ih =>
    have ha : a.toList.head? ≠ some '-' := h a List.mem_cons_self
    have : parseArgs (a :: rest) acc = parseArgs rest (a :: acc) := by
      rw [parseArgs]
      split
      · rename_i e; rw [e] at ha; exact absurd rfl ha
      · rename_i e; rw [e] at ha; exact absurd rfl ha
      · rename_i e; rw [e] at ha; exact absurd rfl ha
      · rfl
    rw [this, ih (fun s hs => h s (List.mem_cons_of_mem _ hs))]
    simp

theorem parseArgs_stop0 {l acc : List String} (h : parseArgs l acc = .stop 0) : ∃ s ∈ l, AsksHelp s := by
  induction l generalizing acc with
  | nil => cases h
  | cons a rest ih =>
    rw [parseArgs] at h
    split at h
    · cases h
    · rename_i name hn e
      split at h
      · cases h
      · split at h
        · rename_i hp
          refine ⟨a, List.mem_cons_self, .inr ?_⟩
          rw [e]
          cases name with
          | nil => exact absurd rfl hn
          | cons c cs =>
            have hc : c = 'h' := by
              obtain ⟨t, ht⟩ := hp
              have := congrArg List.head? ht
              simpa using this
            rw [hc]
            exact ⟨cs, rfl⟩
        · cases h
    · rename_i c t _ _ e
      split at h
      · rename_i hc
        refine ⟨a, List.mem_cons_self, .inl ?_⟩
        rw [e, hc]
        exact ⟨t, rfl⟩
      · cases h
    · obtain ⟨s, h1, h2⟩ := ih h
      exact ⟨s, List.mem_cons_of_mem _ h1, h2⟩

theorem runExtract_zero {d d' : Disk} {r : Request} (hcl : r.cleans = false) (h : runExtract nm d r = (0, d')) : Extracted nm d d' r.medsFile r.subFile (fun f => extracted f r.job) := by
  unfold runExtract at h
  have h1 : (match (construct nm d r).2 with | none => 0 | some _ => 1) = 0 := congrArg Prod.fst h
  have h2 : close nm (afterConstruct nm d r) r = d' := congrArg Prod.snd h
  unfold close at h2
  rw [if_neg (by rw [hcl]; simp)] at h2
  have hn : (construct nm d r).2 = none := by
    cases hc : (construct nm d r).2 with
    | none => rfl
    | some e => rw [hc] at h1; cases h1
  cases hc : r.check with
  | error e => unfold construct at hn; rw [hc] at hn; cases hn
  | ok u =>
    cases hr : readPath nm d r.medsFile with
    | none => unfold construct at hn; rw [hc] at hn; dsimp only at hn; rw [hr] at hn; cases hn
    | some f =>
      have ht : target nm (removeIfExists nm d r.subFile) 40 (nm r.subFile) ≠ none := by
        intro he
        unfold construct writeOut at hn
        rw [hc] at hn
        dsimp only at hn
        rw [hr] at hn
        dsimp only at hn
        rw [he] at hn
        cases hn
      obtain ⟨a1, a2⟩ := C23_output_on_disk hc hr ht
      cases hx : extracted f r.job with
      | error e => rw [(a2 e hx).1] at hn; cases hn
      | ok g => exact ⟨f, g, hr, hx, by rw [← h2]; exact (a1 g hx).2⟩

theorem runExtract_ok {d : Disk} {r : Request} {f g : Fits} (hcl : r.cleans = false) (hc : r.check = .ok ()) (hr : readPath nm d r.medsFile = some f)
    (ht : target nm (removeIfExists nm d r.subFile) 40 (nm r.subFile) ≠ none) (hg : extracted f r.job = .ok g) :
    (runExtract nm d r).1 = 0 ∧ readPath nm (runExtract nm d r).2 r.subFile = some g := by
  obtain ⟨a1, _⟩ := C23_output_on_disk hc hr ht
  obtain ⟨b1, b2⟩ := a1 g hg
  unfold runExtract close
  rw [b1, if_neg (by rw [hcl]; simp)]
  exact ⟨rfl, b2⟩

/-! ### Numbers -/

theorem digitsVal_append {ds : List Nat} (hd : ∀ d ∈ ds, d < 10) (p : Bool) (acc : Nat) (hne : ds ≠ [] ∨ p = true) :
    digitsVal (ds.map Nat.digitChar) p acc = some (ds.foldl (fun a d => a * 10 + d) acc) := by
  induction ds generalizing p acc with
  | nil =>
    rcases hne with h | h
    · exact absurd rfl h
    · simp [digitsVal, h]
  | cons d ds ih =>
    have hd0 := hd d List.mem_cons_self
    rw [List.map_cons, digitsVal]
    have h1 : Nat.digitChar d ≠ '_' := by
      have : ∀ k < 10, Nat.digitChar k ≠ '_' := by decide
      exact this d hd0
    have h2 : (Nat.digitChar d).isDigit = true := by
      have : ∀ k < 10, (Nat.digitChar k).isDigit = true := by decide
      exact this d hd0
    have h3 : (Nat.digitChar d).toNat - '0'.toNat = d := by
      have : ∀ k < 10, (Nat.digitChar k).toNat - '0'.toNat = k := by decide
      exact this d hd0
    rw [if_neg h1, if_pos h2, h3, ih (fun x hx => hd x (List.mem_cons_of_mem _ hx)) true _ (.inr rfl), List.foldl_cons]

theorem foldl_ofDigits (ds : List Nat) (acc : Nat) : ds.foldl (fun a d => a * 10 + d) acc = acc * 10 ^ ds.length + Nat.ofDigits 10 ds.reverse := by
  induction ds generalizing acc with
  | nil => simp
  | cons d ds ih =>
    rw [List.foldl_cons, ih, List.reverse_cons, Nat.ofDigits_append]
    simp
    ring

theorem digit_facts {d : Nat} (h : d < 10) : isBlank (Nat.digitChar d) = false ∧ Nat.digitChar d ≠ '-' ∧ Nat.digitChar d ≠ '+' := by
  have : ∀ k < 10, isBlank (Nat.digitChar k) = false ∧ Nat.digitChar k ≠ '-' ∧ Nat.digitChar k ≠ '+' := by decide
  exact this d h

/-- **C90** A numeral, a string of decimal digits with the most significant one first, is the number it stands for. -/
theorem C90_numeral {s : String} {ds : List Nat} (hne : ds ≠ []) (hd : ∀ d ∈ ds, d < 10) (hs : s.toList = ds.map Nat.digitChar) :
    pyInt s = some ((Nat.ofDigits 10 ds.reverse : Nat) : Int) := by
  have drop : ∀ es : List Nat, (∀ d ∈ es, d < 10) → (es.map Nat.digitChar).dropWhile isBlank = es.map Nat.digitChar := by
    intro es he
    cases es with
    | nil => rfl
    | cons e es =>
      rw [List.map_cons, List.dropWhile_cons_of_neg]
      rw [(digit_facts (he e List.mem_cons_self)).1]
      simp
  have ht : ((s.toList.dropWhile isBlank).reverse.dropWhile isBlank).reverse = ds.map Nat.digitChar := by
    rw [hs, drop ds hd, ← List.map_reverse, drop ds.reverse (fun d h => hd d (List.mem_reverse.mp h)), ← List.map_reverse, List.reverse_reverse]
  unfold pyInt
  rw [ht]
  cases ds with
  | nil => exact absurd rfl hne
  | cons d ds =>
    have hf := digit_facts (hd d List.mem_cons_self)
    have hv := digitsVal_append hd false 0 (.inl (by simp))
    rw [foldl_ofDigits] at hv
    simp only [zero_mul, zero_add] at hv
    rw [List.map_cons] at hv ⊢
    dsimp only
    split
    · rename_i e; injection e with e _; exact absurd e hf.2.1
    · rename_i e; injection e with e _; exact absurd e hf.2.2
    · rw [hv]; rfl

/-- **C90** A numeral after a minus sign is the negative of it. -/
theorem C90_negative_numeral {s : String} {ds : List Nat} (hne : ds ≠ []) (hd : ∀ d ∈ ds, d < 10) (hs : s.toList = '-' :: ds.map Nat.digitChar) :
    pyInt s = some (-((Nat.ofDigits 10 ds.reverse : Nat) : Int)) := by
  have ht : ((s.toList.dropWhile isBlank).reverse.dropWhile isBlank).reverse = '-' :: ds.map Nat.digitChar := by
    rw [hs, List.dropWhile_cons_of_neg (by decide), List.reverse_cons, ← List.map_reverse]
    have hne' : ds.reverse ≠ [] := by simpa using hne
    cases hr : ds.reverse with
    | nil => exact absurd hr hne'
    | cons e es =>
      have he : e < 10 := hd e (List.mem_reverse.mp (by rw [hr]; exact List.mem_cons_self))
      rw [List.map_cons, List.cons_append, List.dropWhile_cons_of_neg (by rw [(digit_facts he).1]; simp), ← List.cons_append, ← List.map_cons, ← hr,
        List.reverse_append, ← List.map_reverse, List.reverse_reverse]
      rfl
  have hv := digitsVal_append hd false 0 (.inl hne)
  rw [foldl_ofDigits] at hv
  simp only [zero_mul, zero_add] at hv
  unfold pyInt
  rw [ht]
  dsimp only
  split
  · rename_i e; injection e with _ e; rw [← e, hv]; rfl
  · rename_i e; injection e with e _; exact absurd e (by decide)
  · rename_i e _; exact absurd rfl (e _)

theorem parseArgs_prefix {l : List String} (hl : ∀ s ∈ l, Plain s ∨ s = "-") (rest acc : List String) : parseArgs (l ++ rest) acc = parseArgs rest (l.reverse ++ acc) := by
  induction l generalizing acc with
  | nil => rfl
  | cons a l ih =>
    have h1 : parseArgs (a :: (l ++ rest)) acc = parseArgs (l ++ rest) (a :: acc) := by
      rw [parseArgs]
      rcases hl a List.mem_cons_self with h | h
      · unfold Plain at h
        split
        · rename_i e; rw [e] at h; exact absurd rfl h
        · rename_i e; rw [e] at h; exact absurd rfl h
        · rename_i e; rw [e] at h; exact absurd rfl h
        · rfl
      · subst h; rfl
    rw [List.cons_append, h1, ih (fun s hs => hl s (List.mem_cons_of_mem _ hs)), List.reverse_cons, List.append_assoc]
    rfl

/-- **C90** How the command line is read, up to the first argument that starts with a minus sign and is longer than it: two minus signs end the options; `-h`, with or
without more letters behind it, and `--help` or an abbreviation of it leave with status 0; everything else leaves with status 2. -/
theorem C90_options {l : List String} (hl : ∀ s ∈ l, Plain s ∨ s = "-") : parseArgs l [] = .args l ∧ ∀ (n : String) (rest : List String),
    (n = "--" → parseArgs (l ++ n :: rest) [] = .args (l ++ rest)) ∧
    ((['-', 'h'] <+: n.toList ∨ n ∈ ["--h", "--he", "--hel", "--help"]) → parseArgs (l ++ n :: rest) [] = .stop 0) ∧
    (¬ Plain n → n ≠ "-" → n ≠ "--" → ¬ (['-', 'h'] <+: n.toList) → n ∉ ["--h", "--he", "--hel", "--help"] → parseArgs (l ++ n :: rest) [] = .stop 2) := by
  refine ⟨?_, fun n rest => ⟨?_, ?_, ?_⟩⟩
  · have := parseArgs_prefix hl [] []
    simpa [parseArgs] using this
  · rintro rfl
    rw [parseArgs_prefix hl]
    simp [parseArgs]
  · intro h
    rw [parseArgs_prefix hl]
    rcases h with ⟨t, ht⟩ | h
    · rw [parseArgs, ← ht]
      rfl
    · simp only [List.mem_cons, List.not_mem_nil, or_false] at h
      rcases h with rfl | rfl | rfl | rfl <;> rfl
  · intro h1 h2 h3 h4 h5
    rw [parseArgs_prefix hl, parseArgs]
    have hne : ∀ m : String, n.toList = m.toList → n = m := fun m h => String.toList_inj.mp h
    split
    · rename_i e; exact absurd (hne "--" e) h3
    · rename_i name hx e
      split
      · rfl
      · rw [if_neg]
        intro hp
        have hlist : ∀ k : List Char, k <+: ['h', 'e', 'l', 'p'] → k ∈ [[], ['h'], ['h', 'e'], ['h', 'e', 'l'], ['h', 'e', 'l', 'p']] := by
          intro k hk
          have := List.mem_inits k ['h', 'e', 'l', 'p'] |>.mpr hk
          simpa using this
        have := hlist name hp
        simp only [List.mem_cons, List.not_mem_nil, or_false] at this
        apply h5
        rcases this with rfl | rfl | rfl | rfl | rfl
        · exact absurd (hne "--" e) h3
        · rw [hne "--h" e]; decide
        · rw [hne "--he" e]; decide
        · rw [hne "--hel" e]; decide
        · rw [hne "--help" e]; decide
    · rename_i e
      rw [if_neg]
      intro hc
      exact h4 ⟨_, (hc ▸ e).symm⟩
    · rename_i e1 e2 e3
      exfalso
      unfold Plain at h1
      rw [not_not] at h1
      cases ht : n.toList with
      | nil => rw [ht] at h1; cases h1
      | cons c t =>
        rw [ht] at h1
        injection h1 with h1
        subst h1
        cases t with
        | nil => exact h2 (hne "-" ht)
        | cons c' t' => exact e3 _ _ ht

example : parseArgs ["a.fits", "-", "--", "-5"] [] = .args ["a.fits", "-", "-5"] ∧ parseArgs ["a.fits", "--help=1"] [] = .stop 2 := by decide +kernel

/-! ### Which strings are numbers -/

/-- Digits with single underscores between them: the characters and the digits. -/
inductive _root_.Meds.Spec.Numeral : List Char → List Nat → Prop
  | last {d : Nat} : d < 10 → Numeral [Nat.digitChar d] [d]
  | more {d : Nat} {cs : List Char} {ds : List Nat} : d < 10 → Numeral cs ds → Numeral (Nat.digitChar d :: cs) (d :: ds)
  | sep {d : Nat} {cs : List Char} {ds : List Nat} : d < 10 → Numeral cs ds → Numeral (Nat.digitChar d :: '_' :: cs) (d :: ds)

/-- The characters that may surround a number. -/
def _root_.Meds.Spec.asciiBlanks : List Char := [' ', '\t', '\n', '\x0b', '\x0c', '\r']

theorem isBlank_iff (c : Char) : isBlank c = true ↔ c ∈ Spec.asciiBlanks := by
  have h : ∀ k : Char, c.toNat = k.toNat ↔ c = k := fun k => ⟨fun h => Char.ext (UInt32.toNat_inj.mp h), fun h => h ▸ rfl⟩
  have h11 := h '\x0b'
  have h12 := h '\x0c'
  rw [show ('\x0b' : Char).toNat = 11 from rfl] at h11
  rw [show ('\x0c' : Char).toNat = 12 from rfl] at h12
  simp only [isBlank, Spec.asciiBlanks, Bool.or_eq_true, decide_eq_true_eq, List.mem_cons, List.not_mem_nil, or_false, h11, h12]
  tauto

theorem digit_char {c : Char} (h : c.isDigit = true) : ∃ d < 10, c = Nat.digitChar d ∧ c.toNat - '0'.toNat = d := by
  unfold Char.isDigit at h
  simp only [ge_iff_le, Bool.and_eq_true, decide_eq_true_eq] at h
  have h1 : 48 ≤ c.toNat := h.1
  have h2 : c.toNat ≤ 57 := h.2
  refine ⟨c.toNat - 48, by omega, ?_, rfl⟩
  have hall : ∀ k < 10, (Nat.digitChar k).toNat = k + 48 := by decide
  have := hall (c.toNat - 48) (by omega)
  apply Char.ext
  apply UInt32.toNat_inj.mp
  show c.toNat = (Nat.digitChar (c.toNat - 48)).toNat
  rw [this]
  omega

theorem digitChar_facts {d : Nat} (h : d < 10) : Nat.digitChar d ≠ '_' ∧ (Nat.digitChar d).isDigit = true ∧ (Nat.digitChar d).toNat - '0'.toNat = d := by
  have : ∀ k < 10, Nat.digitChar k ≠ '_' ∧ (Nat.digitChar k).isDigit = true ∧ (Nat.digitChar k).toNat - '0'.toNat = k := by decide
  exact this d h

theorem digitsVal_iff (cs : List Char) (acc n : Nat) :
    (digitsVal cs false acc = some n ↔ ∃ ds, Numeral cs ds ∧ n = ds.foldl (fun a d => a * 10 + d) acc) ∧
    (digitsVal cs true acc = some n ↔ (cs = [] ∧ n = acc) ∨ (∃ ds, Numeral cs ds ∧ n = ds.foldl (fun a d => a * 10 + d) acc) ∨
      ∃ cs' ds, cs = '_' :: cs' ∧ Numeral cs' ds ∧ n = ds.foldl (fun a d => a * 10 + d) acc) := by
  have hno : ∀ {ds}, ¬ Numeral [] ds := by intro ds h; cases h
  have hun : ∀ {cs ds}, ¬ Numeral ('_' :: cs) ds := by
    intro cs ds h
    generalize hx : ('_' :: cs) = x at h
    cases h with
    | last hd => injection hx with hx; exact (digitChar_facts hd).1 hx.symm
    | more hd => injection hx with hx; exact (digitChar_facts hd).1 hx.symm
    | sep hd => injection hx with hx; exact (digitChar_facts hd).1 hx.symm
  induction cs generalizing acc with
  | nil =>
    constructor
    · constructor
      · intro h; simp [digitsVal] at h
      · rintro ⟨ds, h, _⟩; exact absurd h hno
    · constructor
      · intro h; simp [digitsVal] at h; exact .inl ⟨rfl, h.symm⟩
      · rintro (⟨_, h⟩ | ⟨ds, h, _⟩ | ⟨_, _, h, _⟩)
        · simp [digitsVal, h]
        · exact absurd h hno
        · cases h
  | cons c cs ih =>
    by_cases hu : c = '_'
    · subst hu
      constructor
      · constructor
        · intro h; simp [digitsVal] at h
        · rintro ⟨ds, h, _⟩; exact absurd h hun
      · rw [show digitsVal ('_' :: cs) true acc = digitsVal cs false acc from by simp [digitsVal], (ih acc).1]
        constructor
        · rintro ⟨ds, h1, h2⟩; exact .inr (.inr ⟨cs, ds, rfl, h1, h2⟩)
        · rintro (⟨h, _⟩ | ⟨ds, h, _⟩ | ⟨_, ds, h, h1, h2⟩)
          · cases h
          · exact absurd h hun
          · injection h with _ h; subst h; exact ⟨ds, h1, h2⟩
    · -- the digits from here
      have hcore : ∀ p, digitsVal (c :: cs) p acc = some n ↔ ∃ ds, Numeral (c :: cs) ds ∧ n = ds.foldl (fun a d => a * 10 + d) acc := by
        intro p
        by_cases hd : c.isDigit = true
        · obtain ⟨d, hd1, hd2, hd3⟩ := digit_char hd
          rw [show digitsVal (c :: cs) p acc = digitsVal cs true (acc * 10 + d) from by
            rw [digitsVal, if_neg hu, if_pos hd, hd3], (ih _).2]
          constructor
          · rintro (⟨rfl, h⟩ | ⟨ds, h1, h2⟩ | ⟨cs', ds, rfl, h1, h2⟩)
            · exact ⟨[d], hd2 ▸ .last hd1, h⟩
            · exact ⟨d :: ds, hd2 ▸ .more hd1 h1, h2⟩
            · exact ⟨d :: ds, hd2 ▸ .sep hd1 h1, h2⟩
          · rintro ⟨ds, h1, h2⟩
            have hinj : ∀ e, e < 10 → c = Nat.digitChar e → e = d := by
              intro e he h
              have := (digitChar_facts he).2.2
              rw [← h] at this
              omega
            generalize hx : c :: cs = x at h1
            cases h1 with
            | last he =>
              injection hx with hx1 hx2
              have := hinj _ he hx1
              subst this
              exact .inl ⟨hx2, h2⟩
            | more he h =>
              injection hx with hx1 hx2
              have := hinj _ he hx1
              subst this hx2
              exact .inr (.inl ⟨_, h, h2⟩)
            | sep he h =>
              injection hx with hx1 hx2
              have := hinj _ he hx1
              subst this hx2
              exact .inr (.inr ⟨_, _, rfl, h, h2⟩)
        · rw [show digitsVal (c :: cs) p acc = none from by rw [digitsVal, if_neg hu, if_neg hd]]
          constructor
          · intro h; cases h
          · rintro ⟨ds, h1, _⟩
            exfalso
            apply hd
            generalize hx : c :: cs = x at h1
            cases h1 with
            | last he => injection hx with hx; rw [hx]; exact (digitChar_facts he).2.1
            | more he => injection hx with hx; rw [hx]; exact (digitChar_facts he).2.1
            | sep he => injection hx with hx; rw [hx]; exact (digitChar_facts he).2.1
      refine ⟨hcore false, (hcore true).trans ?_⟩
      constructor
      · exact fun h => .inr (.inl h)
      · rintro (⟨h, _⟩ | h | ⟨_, _, h, _⟩)
        · cases h
        · exact h
        · injection h with h; exact absurd h hu

theorem numeral_ends {cs : List Char} {ds : List Nat} (h : Numeral cs ds) :
    (∃ d < 10, ∃ rest, cs = Nat.digitChar d :: rest) ∧ (∃ d < 10, ∃ init, cs = init ++ [Nat.digitChar d]) := by
  induction h with
  | last hd => exact ⟨⟨_, hd, [], rfl⟩, ⟨_, hd, [], rfl⟩⟩
  | more hd _ ih =>
    obtain ⟨_, e, he, init, rfl⟩ := ih
    exact ⟨⟨_, hd, _, rfl⟩, ⟨e, he, _ :: init, rfl⟩⟩
  | sep hd _ ih =>
    obtain ⟨_, e, he, init, rfl⟩ := ih
    exact ⟨⟨_, hd, _, rfl⟩, ⟨e, he, _ :: _ :: init, rfl⟩⟩

theorem dropWhile_blank {pre t : List Char} (hp : ∀ c ∈ pre, isBlank c = true) {c : Char} {rest : List Char} (ht : t = c :: rest) (hc : isBlank c = false) :
    (pre ++ t).dropWhile isBlank = t := by
  induction pre with
  | nil => rw [List.nil_append, ht, List.dropWhile_cons_of_neg (by simp [hc])]
  | cons b pre ih =>
    rw [List.cons_append, List.dropWhile_cons_of_pos (hp b List.mem_cons_self)]
    exact ih (fun c hc => hp c (List.mem_cons_of_mem _ hc))

theorem strip_parts (l : List Char) : ∃ pre post, l = pre ++ ((l.dropWhile isBlank).reverse.dropWhile isBlank).reverse ++ post ∧
    (∀ c ∈ pre, isBlank c = true) ∧ ∀ c ∈ post, isBlank c = true := by
  have htw : ∀ l : List Char, ∀ c ∈ l.takeWhile isBlank, isBlank c = true := fun l => List.all_eq_true.mp List.all_takeWhile
  refine ⟨l.takeWhile isBlank, ((l.dropWhile isBlank).reverse.takeWhile isBlank).reverse, ?_, htw l, fun c hc => htw _ c (List.mem_reverse.mp hc)⟩
  rw [List.append_assoc, ← List.reverse_append, List.takeWhile_append_dropWhile, List.reverse_reverse, List.takeWhile_append_dropWhile]

/-- **C90** The strings that are accepted as numbers, and the numbers: blanks, a sign or none, digits with single underscores between them, blanks. -/
theorem C90_integers (s : String) (n : Int) : pyInt s = some n ↔ ∃ pre sign body post ds, s.toList = pre ++ (sign ++ body) ++ post ∧
    (∀ c ∈ pre ++ post, c ∈ Spec.asciiBlanks) ∧ Numeral body ds ∧
    (((sign = [] ∨ sign = ['+']) ∧ n = (Nat.ofDigits 10 ds.reverse : Nat)) ∨ (sign = ['-'] ∧ n = -(Nat.ofDigits 10 ds.reverse : Nat))) := by
  have hval : ∀ (cs : List Char) (m : Nat), digitsVal cs false 0 = some m ↔ ∃ ds, Numeral cs ds ∧ m = Nat.ofDigits 10 ds.reverse := by
    intro cs m
    rw [(digitsVal_iff cs 0 m).1]
    refine exists_congr fun ds => and_congr_right fun _ => ?_
    rw [foldl_ofDigits]
    simp
  constructor
  · intro h
    obtain ⟨pre, post, hs, h1, h2⟩ := strip_parts s.toList
    have h12 : ∀ c ∈ pre ++ post, c ∈ Spec.asciiBlanks := fun c hc => (isBlank_iff c).mp ((List.mem_append.mp hc).elim (h1 c) (h2 c))
    unfold pyInt at h
    generalize ((s.toList.dropWhile isBlank).reverse.dropWhile isBlank).reverse = t at h hs
    dsimp only at h
    split at h
    · obtain ⟨m, hm, rfl⟩ := Option.map_eq_some_iff.mp h
      obtain ⟨ds, hd, rfl⟩ := (hval _ _).mp hm
      exact ⟨pre, ['-'], _, post, ds, hs, h12, hd, .inr ⟨rfl, rfl⟩⟩
    · obtain ⟨m, hm, rfl⟩ := Option.map_eq_some_iff.mp h
      obtain ⟨ds, hd, rfl⟩ := (hval _ _).mp hm
      exact ⟨pre, ['+'], _, post, ds, hs, h12, hd, .inl ⟨.inr rfl, rfl⟩⟩
    · obtain ⟨m, hm, rfl⟩ := Option.map_eq_some_iff.mp h
      obtain ⟨ds, hd, rfl⟩ := (hval _ _).mp hm
      exact ⟨pre, [], _, post, ds, hs, h12, hd, .inl ⟨.inl rfl, rfl⟩⟩
  · rintro ⟨pre, sign, body, post, ds, hs, h12, hb, hn⟩
    have h1 : ∀ c ∈ pre, isBlank c = true := fun c hc => (isBlank_iff c).mpr (h12 c (List.mem_append_left _ hc))
    have h2 : ∀ c ∈ post, isBlank c = true := fun c hc => (isBlank_iff c).mpr (h12 c (List.mem_append_right _ hc))
    obtain ⟨⟨d, hd, rest, hr⟩, ⟨e, he, init, hi⟩⟩ := numeral_ends hb
    have hsign : sign = [] ∨ sign = ['+'] ∨ sign = ['-'] := by tauto
    have hstrip : ((s.toList.dropWhile isBlank).reverse.dropWhile isBlank).reverse = sign ++ body := by
      rw [hs, List.append_assoc]
      have hfirst : ∃ c r, sign ++ body ++ post = c :: r ∧ isBlank c = false := by
        rcases hsign with rfl | rfl | rfl
        · exact ⟨_, rest ++ post, by rw [hr]; rfl, (digit_facts hd).1⟩
        · exact ⟨'+', _, rfl, by decide⟩
        · exact ⟨'-', _, rfl, by decide⟩
      obtain ⟨c, r, hcr, hc⟩ := hfirst
      rw [dropWhile_blank h1 hcr hc, List.reverse_append]
      rw [dropWhile_blank (t := (sign ++ body).reverse) (c := Nat.digitChar e) (rest := (sign ++ init).reverse)
        (fun c hc => h2 c (List.mem_reverse.mp hc)) (by rw [hi]; simp) (digit_facts he).1, List.reverse_reverse]
    have hdv := (hval body _).mpr ⟨ds, hb, rfl⟩
    unfold pyInt
    rw [hstrip]
    rcases hn with ⟨rfl | rfl, rfl⟩ | ⟨rfl, rfl⟩
    · rw [List.nil_append]
      have hf := digit_facts hd
      dsimp only
      split
      · injection hr with hr _; exact absurd hr.symm hf.2.1
      · injection hr with hr _; exact absurd hr.symm hf.2.2
      · rw [hdv]; rfl
    · simp [hdv]
    · simp [hdv]

example : pyInt "+_1" = none ∧ pyInt "1__0" = none ∧ pyInt "10_" = none ∧ pyInt "" = none ∧ pyInt "+ 1" = none ∧ pyInt "1.0" = none ∧ pyInt "+1_0 " = some 10 := by
  decide +kernel

/-! ### Runs -/

/-- **C90** (part: success means that the subset was written) `meds-extract-range` ends with status 0 only when it was asked for help, and then nothing changed, or
when the output path has the extraction of the objects from the first to the second number, out of the file that was at the first path. -/
theorem C90_range_status_partial {d d' : Disk} {argv : List String} (h : rangeMain nm d argv = (0, d')) :
    (d' = d ∧ ∃ s ∈ argv, AsksHelp s) ∨
    ∃ f a b o rest x y, parseArgs argv [] = .args (f :: a :: b :: o :: rest) ∧ pyInt a = some x ∧ pyInt b = some y ∧
      Extracted nm d d' f o (fun inp => extractRange inp x y false) := by
  unfold rangeMain at h
  cases hp : parseArgs argv [] with
  | stop n =>
    rw [hp] at h
    injection h with h1 h2
    subst h1
    exact .inl ⟨h2.symm, parseArgs_stop0 hp⟩
  | args l =>
    rw [hp] at h
    match l with
    | [] => cases h
    | [_] => cases h
    | [_, _] => cases h
    | [_, _, _] => cases h
    | f :: a :: b :: o :: rest =>
      dsimp only at h
      cases ha : pyInt a with
      | none => rw [ha] at h; cases h
      | some x =>
        rw [ha] at h
        dsimp only at h
        cases hb : pyInt b with
        | none => rw [hb] at h; cases h
        | some y =>
          rw [hb] at h
          exact .inr ⟨f, a, b, o, rest, x, y, rfl, ha, hb, runExtract_zero rfl h⟩

/-- **C90** The usual call does the extraction: four arguments that are no options, further ones being ignored; the input is there, the numbers are in order, the
extraction completes, and the output path is not a circle of links. -/
theorem C90_range_completes {d : Disk} {f a b o : String} {rest : List String} {x y : Int} {inp g : Fits} (hp : ∀ s ∈ f :: a :: b :: o :: rest, Plain s)
    (ha : pyInt a = some x) (hb : pyInt b = some y) (hfo : f ≠ o) (hxy : x ≤ y) (hr : readPath nm d f = some inp)
    (ht : target nm (removeIfExists nm d o) 40 (nm o) ≠ none) (hx : extractRange inp x y false = .ok g) :
    (rangeMain nm d (f :: a :: b :: o :: rest)).1 = 0 ∧ readPath nm (rangeMain nm d (f :: a :: b :: o :: rest)).2 o = some g := by
  have he : rangeMain nm d (f :: a :: b :: o :: rest) = runExtract nm d ⟨f, o, false, .range x y false⟩ := by
    unfold rangeMain
    rw [parseArgs_plain hp]
    dsimp only [List.reverse_nil, List.nil_append]
    rw [ha, hb]
  rw [he]
  exact runExtract_ok (r := ⟨f, o, false, .range x y false⟩) rfl (by unfold Request.check; dsimp only; rw [if_neg hfo, if_neg (by omega)]) hr ht hx

/-- **C90** Wrong arguments change nothing: too few of them or a number that is none give status 1, any option but `-h` and `--help` before `--` status 2.
So negative numbers are refused unless `--` precedes them. -/
theorem C90_range_wrong_arguments (d : Disk) (argv : List String) :
    ((∀ s ∈ argv, Plain s) → argv.length < 4 → rangeMain nm d argv = (1, d)) ∧
    (∀ f a b o rest, argv = f :: a :: b :: o :: rest → (∀ s ∈ argv, Plain s) → (pyInt a = none ∨ pyInt b = none) → rangeMain nm d argv = (1, d)) ∧
    (∀ l n rest, argv = l ++ n :: rest → (∀ s ∈ l, Plain s) → (∃ c t, n.toList = '-' :: c :: t ∧ c ≠ '-' ∧ c ≠ 'h') → rangeMain nm d argv = (2, d)) := by
  refine ⟨?_, ?_, ?_⟩
  · intro hp hl
    unfold rangeMain
    rw [parseArgs_plain hp]
    match argv with
    | [] => rfl
    | [_] => rfl
    | [_, _] => rfl
    | [_, _, _] => rfl
    | _ :: _ :: _ :: _ :: _ => simp at hl; omega
  · rintro f a b o rest rfl hp hn
    unfold rangeMain
    rw [parseArgs_plain hp]
    dsimp only [List.reverse_nil, List.nil_append]
    rcases hn with hn | hn
    · rw [hn]
    · rw [hn]
      cases pyInt a <;> rfl
  · rintro l n rest rfl hp ⟨c, t, hn, h1, h2⟩
    have key : ∀ (l acc : List String), (∀ s ∈ l, Plain s) → parseArgs (l ++ n :: rest) acc = .stop 2 := by
      intro l
      induction l with
      | nil =>
        intro acc _
        rw [List.nil_append, parseArgs, hn]
        split
        · rename_i e; injection e with _ e; injection e with e _; exact absurd e h1
        · rename_i e; injection e with _ e; injection e with e _; exact absurd e h1
        · rename_i e
          injection e with _ e
          injection e with e _
          rw [← e, if_neg h2]
        · rename_i h3 h4; exact absurd rfl (h4 c t)
      | cons a l ih =>
        intro acc h
        have ha : a.toList.head? ≠ some '-' := h a List.mem_cons_self
        rw [List.cons_append, parseArgs]
        split
        · rename_i e; rw [e] at ha; exact absurd rfl ha
        · rename_i e; rw [e] at ha; exact absurd rfl ha
        · rename_i e; rw [e] at ha; exact absurd rfl ha
        · exact ih _ (fun s hs => h s (List.mem_cons_of_mem _ hs))
    unfold rangeMain
    rw [key l [] hp]

/-- **C90** The same of `meds-extract-catalog`. -/
theorem C90_catalog_wrong_arguments (d : Disk) (argv : List String) (hp : ∀ s ∈ argv, Plain s) (hl : argv.length < 2) : catalogMain nm d argv = (1, d) := by
  unfold catalogMain
  rw [parseArgs_plain hp]
  match argv with
  | [] => rfl
  | [_] => rfl
  | _ :: _ :: _ => simp at hl

/-- **C90** (part) `meds-extract-catalog` ends with status 0 only when it was asked for help, or when the output has the extracted catalogue. -/
theorem C90_catalog_status_partial {d d' : Disk} {argv : List String} (h : catalogMain nm d argv = (0, d')) :
    (d' = d ∧ ∃ s ∈ argv, AsksHelp s) ∨
    ∃ f o rest, parseArgs argv [] = .args (f :: o :: rest) ∧ Extracted nm d d' f o extractCatalog := by
  unfold catalogMain at h
  cases hp : parseArgs argv [] with
  | stop n =>
    rw [hp] at h
    injection h with h1 h2
    subst h1
    exact .inl ⟨h2.symm, parseArgs_stop0 hp⟩
  | args l =>
    rw [hp] at h
    match l with
    | [] => cases h
    | [_] => cases h
    | f :: o :: rest => exact .inr ⟨f, o, rest, rfl, runExtract_zero rfl h⟩

/-- **C90** ... and it does the extraction for two arguments that are no options. -/
theorem C90_catalog_completes {d : Disk} {f o : String} {rest : List String} {inp g : Fits} (hp : ∀ s ∈ f :: o :: rest, Plain s)
    (hfo : f ≠ o) (hr : readPath nm d f = some inp) (ht : target nm (removeIfExists nm d o) 40 (nm o) ≠ none) (hx : extractCatalog inp = .ok g) :
    (catalogMain nm d (f :: o :: rest)).1 = 0 ∧ readPath nm (catalogMain nm d (f :: o :: rest)).2 o = some g := by
  have he : catalogMain nm d (f :: o :: rest) = runExtract nm d ⟨f, o, false, .catalog⟩ := by
    unfold catalogMain
    rw [parseArgs_plain hp]
    rfl
  rw [he]
  exact runExtract_ok (r := ⟨f, o, false, .catalog⟩) rfl (by unfold Request.check; dsimp only; rw [if_neg hfo]) hr ht hx

end Meds.Scripts

namespace Meds.Ex

open Meds.Spec Scripts Disk Extract

/-- A directory with a small file, a file that is no MEDS file, and a result of an earlier run. -/
def disk2 : Disk := fun e => if e = "a.fits" then some (.file tiny) else if e = "no.fits" then some (.file ⟨[]⟩) else if e = "old.fits" then some (.file tiny) else none

/-- **C90** is false: a run that fails does not leave the output path as it was.  Here the result of an earlier run is lost. -/
theorem C90_counterexample : readPath id disk2 "old.fits" = some tiny ∧ (rangeMain id disk2 ["no.fits", "0", "3", "old.fits"]).1 = 1 ∧
    readPath id (rangeMain id disk2 ["no.fits", "0", "3", "old.fits"]).2 "old.fits" = some ⟨[]⟩ := ⟨rfl, rfl, rfl⟩

example : (rangeMain id disk2 ["a.fits", "0", "-3", "old.fits"]).1 = 2 ∧ (rangeMain id disk2 ["a.fits", "--he"]).1 = 0 ∧
    (rangeMain id disk2 ["a.fits", "0", "3.5", "old.fits"]).1 = 1 ∧ parseArgs ["a.fits", "--", "0", "-3"] [] = .args ["a.fits", "0", "-3"] ∧
    pyInt " 1_000\n" = some 1000 ∧ pyInt "-12" = some (-12) := by decide +kernel

-- the catalogue of a small file
example : (catalogMain id disk2 ["a.fits", "new.fits", "ignored"]).1 = 0 ∧
    readPath id (catalogMain id disk2 ["a.fits", "new.fits", "ignored"]).2 "new.fits" = some tiny := ⟨rfl, rfl⟩

/-- The output is missing. -/
example : (catalogMain id disk2 ["a.fits"]).1 = 1 := rfl

end Meds.Ex
