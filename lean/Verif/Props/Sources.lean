import Verif.Model.Sources
import Verif.Props.Photometry
import Verif.Props.Completion
import Verif.Examples.Maker

/-!
# The files the pixels come from (C91)
-/

namespace Meds

open Sources Spec Maker

/-- White space. -/
def Spec.blanks : List Char := [' ', '\t', '\n', '\r', '\x0b', '\x0c']

/-- `core` is the text `s` without the blanks around it. -/
def Spec.Core (s core : String) : Prop :=
  ∃ a b : List Char, s.toList = a ++ core.toList ++ b ∧ (∀ c ∈ a ++ b, c ∈ blanks) ∧
    (∀ c, core.toList.head? = some c → c ∉ blanks) ∧ (∀ c, core.toList.getLast? = some c → c ∉ blanks)

/-- The same letters, in whatever case. -/
def Spec.SameLetters (a b : String) : Prop := List.Forall₂ (fun x y => Char.toLower x = Char.toLower y) a.toList b.toList

/-- The HDU of a file with this extension: by its place, or the first of this name. -/
def Spec.IsHdu (d : List (String × Img ℚ)) (e : Ext) (im : Img ℚ) : Prop :=
  match e with
  | .num n => ∃ k : Nat, (n = k ∨ n + d.length = k ∧ n < 0) ∧ ∃ name, d[k]? = some (name, im)
  | .text c => ∃ name, (match c with | .str s => Core s name | .bytes s => s = name) ∧ name ≠ "" ∧
      ∃ (k : Nat) (h : String × Img ℚ), d[k]? = some h ∧ h.2 = im ∧ SameLetters h.1 name ∧ ∀ k' < k, ∀ h', d[k']? = some h' → ¬ SameLetters h'.1 name

/-- The row has a path and an extension for type `t`, and they name the image `im`. -/
def Spec.Names (fs : FileSys) (row : PathRow) (t : String) (im : Img ℚ) : Prop :=
  ∃ c e path d, row.path t = some c ∧ row.ext t = some e ∧ Core c.text path ∧ path ≠ "" ∧ fs path = some d ∧ IsHdu d e im

/-- The row says that there is no image: the path is blank or the word none. -/
def Spec.SaysNone (row : PathRow) (t : String) : Prop :=
  ∃ c path, row.path t = some c ∧ Core c.text path ∧ (path = "" ∨ SameLetters path "none")

theorem isBlank_iff (c : Char) : isBlank c = true ↔ c ∈ blanks := by
  unfold isBlank blanks
  simp only [Bool.or_eq_true, decide_eq_true_eq, List.mem_cons, List.not_mem_nil, or_false]
  have h1 : c.toNat = 11 ↔ c = '\x0b' := ⟨fun h => by rw [← Char.ofNat_toNat c, h], fun h => by rw [h]; rfl⟩
  have h2 : c.toNat = 12 ↔ c = '\x0c' := ⟨fun h => by rw [← Char.ofNat_toNat c, h], fun h => by rw [h]; rfl⟩
  rw [h1, h2]
  tauto

theorem dropWhile_split (p : Char → Bool) (l : List Char) :
    ∃ a, l = a ++ l.dropWhile p ∧ (∀ c ∈ a, p c = true) ∧ ∀ c, (l.dropWhile p).head? = some c → p c = false := by
  refine ⟨l.takeWhile p, (List.takeWhile_append_dropWhile).symm, ?_, ?_⟩
  · intro c hc
    exact List.all_eq_true.mp List.all_takeWhile c hc
  · intro c hc
    induction l with
    | nil => cases hc
    | cons x xs ih =>
      rw [List.dropWhile_cons] at hc
      split at hc
      · exact ih hc
      · rename_i hx
        rw [List.head?_cons] at hc
        injection hc with hc
        subst hc
        simpa using hx

theorem core_strip (s : String) : Core s (strip s) := by
  obtain ⟨a, h1, h2, h3⟩ := dropWhile_split isBlank s.toList
  obtain ⟨b, g1, g2, g3⟩ := dropWhile_split isBlank (s.toList.dropWhile isBlank).reverse
  have g1' := congrArg List.reverse g1
  rw [List.reverse_reverse, List.reverse_append] at g1'
  refine ⟨a, b.reverse, ?_, ?_, ?_, ?_⟩
  · unfold strip
    rw [String.toList_ofList, List.append_assoc, ← g1', ← h1]
  · intro c hc
    rw [← isBlank_iff]
    rcases List.mem_append.mp hc with h | h
    · exact h2 c h
    · exact g2 c (List.mem_reverse.mp h)
  · intro c hc hb
    unfold strip at hc
    rw [String.toList_ofList] at hc
    have : (s.toList.dropWhile isBlank).head? = some c := by
      rw [g1', List.head?_append, hc]; rfl
    have hf := h3 c this
    rw [(isBlank_iff c).mpr hb] at hf
    cases hf
  · intro c hc hb
    unfold strip at hc
    rw [String.toList_ofList, List.getLast?_reverse] at hc
    have hf := g3 c hc
    rw [(isBlank_iff c).mpr hb] at hf
    cases hf

theorem dropWhile_all {p : Char → Bool} {a l : List Char} (h : ∀ c ∈ a, p c = true) : (a ++ l).dropWhile p = l.dropWhile p := by
  induction a with
  | nil => rfl
  | cons x xs ih =>
    rw [List.cons_append, List.dropWhile_cons, if_pos (h x (List.mem_cons_self))]
    exact ih (fun c hc => h c (List.mem_cons_of_mem _ hc))

theorem dropWhile_none {p : Char → Bool} {l : List Char} (h : ∀ c, l.head? = some c → p c = false) : l.dropWhile p = l := by
  cases l with
  | nil => rfl
  | cons x xs => rw [List.dropWhile_cons, if_neg]; rw [h x rfl]; decide

/-- The core is what `strip` returns. -/
theorem strip_of_core {s core : String} (h : Core s core) : strip s = core := by
  obtain ⟨a, b, h1, h2, h3, h4⟩ := h
  have nb : ∀ c, c ∉ blanks → isBlank c = false := fun c hc => by
    cases hb : isBlank c
    · rfl
    · exact absurd ((isBlank_iff c).mp hb) hc
  have ha : ∀ c ∈ a, isBlank c = true := fun c hc => (isBlank_iff c).mpr (h2 c (List.mem_append_left _ hc))
  have hb : ∀ c ∈ b.reverse, isBlank c = true := fun c hc => (isBlank_iff c).mpr (h2 c (List.mem_append_right _ (List.mem_reverse.mp hc)))
  unfold strip
  rw [h1, List.append_assoc, dropWhile_all ha]
  cases hcore : core.toList with
  | nil =>
    rw [List.nil_append]
    have hb' : ∀ c ∈ b, isBlank c = true := fun c hc => hb c (List.mem_reverse.mpr hc)
    have e := dropWhile_all (l := []) hb'
    rw [List.append_nil] at e
    rw [e]
    have : core = "" := by rw [← String.ofList_toList (s := core), hcore]
    rw [this]; rfl
  | cons x xs =>
    rw [List.cons_append, List.dropWhile_cons, if_neg (by rw [nb x (h3 x (by rw [hcore]; rfl))]; decide), ← List.cons_append, List.reverse_append,
      dropWhile_all hb, dropWhile_none, List.reverse_reverse, ← hcore, String.ofList_toList]
    intro c hc
    rw [List.head?_reverse, ← hcore] at hc
    exact nb c (h4 c hc)

theorem lower_eq_iff (a b : String) : lower a = lower b ↔ SameLetters a b := by
  unfold lower SameLetters
  rw [String.ofList_inj]
  generalize a.toList = x
  generalize b.toList = y
  induction x generalizing y with
  | nil => cases y <;> simp
  | cons c cs ih => cases y with
    | nil => simp
    | cons d ds => simp [ih]

theorem isHdu_of_ok {d : List (String × Img ℚ)} {e : Ext} {im : Img ℚ} (h : hduOf d (stripExt e) = .ok im) : IsHdu d e im := by
  unfold hduOf at h
  cases e with
  | num n =>
    unfold stripExt at h
    dsimp only at h
    have hkk : (if n < 0 then n + (d.length : Int) else n) = n ∨ n + d.length = (if n < 0 then n + (d.length : Int) else n) ∧ n < 0 := by
      by_cases hn : n < 0
      · right; rw [if_pos hn]; exact ⟨rfl, hn⟩
      · left; rw [if_neg hn]
    generalize (if n < 0 then n + (d.length : Int) else n) = k at h hkk
    by_cases hk : k < 0
    · rw [if_pos hk] at h; cases h
    · rw [if_neg hk] at h
      split at h
      · rename_i hd hg
        injection h with h
        refine ⟨k.toNat, ?_, hd.1, by rw [hg, ← h]⟩
        rw [Int.toNat_of_nonneg (by omega)]
        omega
      · cases h
  | text c =>
    have key : ∀ name : String, (if name = "" then (.error .osError : Res (Img ℚ)) else
        match d.find? (fun h => lower h.1 = lower name) with | some h => .ok h.2 | none => .error .osError) = .ok im →
        name ≠ "" ∧ ∃ (k : Nat) (h : String × Img ℚ), d[k]? = some h ∧ h.2 = im ∧ SameLetters h.1 name ∧
          ∀ k' < k, ∀ h', d[k']? = some h' → ¬ SameLetters h'.1 name := by
      intro name h
      split at h
      · cases h
      · rename_i hne
        split at h
        · rename_i hd hf
          injection h with h
          refine ⟨hne, ?_⟩
          obtain ⟨hp, as, bs, hsplit, has⟩ := List.find?_eq_some_iff_append.mp hf
          refine ⟨as.length, hd, by rw [hsplit]; simp, h, (lower_eq_iff _ _).mp (by simpa using hp), ?_⟩
          intro k' hk' h' hg hs
          rw [hsplit, List.getElem?_append_left hk'] at hg
          have := has h' (List.mem_of_getElem? hg)
          rw [(lower_eq_iff _ _).mpr hs] at this
          simp at this
        · cases h
    cases c with
    | str s => exact ⟨strip s, core_strip s, key _ h⟩
    | bytes s => exact ⟨s, rfl, key _ h⟩

/-- What was read is what the row names. -/
theorem readOne_some {fs : FileSys} {row : PathRow} {t : String} {im : Img ℚ} (h : readOne fs row t = .ok (some im)) : Names fs row t im := by
  unfold readOne at h
  split at h
  · cases h
  · rename_i c hc
    split at h
    · cases h
    · rename_i e he
      dsimp only at h
      split at h
      · cases h
      · rename_i hn
        split at h
        · cases h
        · rename_i d hd
          split at h
          · cases h
          · rename_i im' him
            injection h with h
            injection h with h
            subst h
            refine ⟨c, e, c.strip.text, d, hc, he, ?_, ?_, hd, isHdu_of_ok him⟩
            · cases c <;> exact core_strip _
            · intro hz
              rw [hz] at hn
              simp at hn

/-- Nothing was read only if the row says so. -/
theorem readOne_none {fs : FileSys} {row : PathRow} {t : String} (h : readOne fs row t = .ok none) : SaysNone row t := by
  unfold readOne at h
  split at h
  · cases h
  · rename_i c hc
    split at h
    · cases h
    · rename_i e he
      dsimp only at h
      split at h
      · rename_i hn
        rw [Bool.or_eq_true] at hn
        refine ⟨c, c.strip.text, hc, by cases c <;> exact core_strip _, ?_⟩
        rcases hn with hn | hn
        · right
          cases c with
          | str s =>
            rw [← lower_eq_iff]
            have : lower (Sources.strip s) = "none" := by simpa [Cell.strip, isNoneWord] using hn
            show lower (Sources.strip s) = _
            rw [this]; rfl
          | bytes s => cases hn
        · left; simpa using hn
      · split at h
        · cases h
        · split at h <;> cases h

theorem core_unique {s a b : String} (h : Core s a) (g : Core s b) : a = b := by rw [← strip_of_core h, ← strip_of_core g]

/-- A plane of a loaded image is what the row names, or the row says none. -/
theorem load_plane {fs : FileSys} {d : DiskImage} {t : String} {r : Option (Img ℚ)} (h : (d.load fs).plane t = some r) :
    (∀ im, r = some im → Names fs d.row t im) ∧ (r = none → SaysNone d.row t) := by
  unfold DiskImage.load at h
  dsimp only at h
  split at h
  · rename_i r' hr
    injection h with h
    subst h
    exact ⟨fun im e => readOne_some (by rw [hr, e]), fun e => readOne_none (by rw [hr, e])⟩
  · cases h

theorem hduOf_of_isHdu {d : List (String × Img ℚ)} {e : Ext} {im : Img ℚ} (h : IsHdu d e im) : hduOf d (stripExt e) = .ok im := by
  unfold hduOf
  cases e with
  | num n =>
    obtain ⟨k, hk, name, hg⟩ := h
    unfold stripExt
    dsimp only
    have hkk : (if n < 0 then n + (d.length : Int) else n) = k := by
      have : k < d.length := (List.getElem?_eq_some_iff.mp hg).1
      split <;> omega
    rw [hkk, if_neg (by omega), Int.toNat_natCast, hg]
  | text c =>
    have key : ∀ name : String, (name ≠ "" ∧ ∃ (k : Nat) (h : String × Img ℚ), d[k]? = some h ∧ h.2 = im ∧ SameLetters h.1 name ∧
          ∀ k' < k, ∀ h', d[k']? = some h' → ¬ SameLetters h'.1 name) → (if name = "" then (.error .osError : Res (Img ℚ)) else
        match d.find? (fun h => lower h.1 = lower name) with | some h => .ok h.2 | none => .error .osError) = .ok im := by
      rintro name ⟨hne, k, hd, hg, rfl, hs, hfirst⟩
      rw [if_neg hne]
      have : d.find? (fun h => lower h.1 = lower name) = some hd := by
        obtain ⟨hk, hg'⟩ := List.getElem?_eq_some_iff.mp hg
        rw [List.find?_eq_some_iff_getElem]
        refine ⟨by simpa using (lower_eq_iff _ _).mpr hs, k, hk, hg', ?_⟩
        intro j hj
        have := hfirst j hj d[j] (List.getElem?_eq_getElem (by omega))
        rw [← lower_eq_iff] at this
        simpa using this
      rw [this]
    cases c with
    | str s =>
      obtain ⟨name, hc, h⟩ := h
      have := key name h
      rw [← strip_of_core hc] at this
      exact this
    | bytes s =>
      obtain ⟨name, rfl, h⟩ := h
      exact key _ h

/-- **C91 (partial)** In columns of Python strings, exactly the blank path and the word none, in whatever case, mean that there is no image, and otherwise exactly
the image that the row names is read.  Missing: columns of bytes, where the word none is taken for a file, see `C91_none_bytes` and `C91_counterexample`. -/
theorem C91_read_partial {fs : FileSys} {row : PathRow} {t : String} (hstr : ∀ c, row.path t = some c → ∃ s, c = .str s) (hext : row.ext t ≠ none) :
    (readOne fs row t = .ok none ↔ SaysNone row t) ∧ ∀ im, readOne fs row t = .ok (some im) ↔ Names fs row t im ∧ ¬ SaysNone row t := by
  have fwd : SaysNone row t → readOne fs row t = .ok none := by
    rintro ⟨c, path, h1, h2, h3⟩
    obtain ⟨s, rfl⟩ := hstr c h1
    unfold readOne
    rw [h1]
    cases he : row.ext t with
    | none => exact absurd he hext
    | some e =>
      dsimp only
      rw [if_pos]
      rw [Bool.or_eq_true]
      have hs : strip s = path := strip_of_core h2
      rcases h3 with h3 | h3
      · right
        simp only [Cell.strip, Cell.text, hs, h3, decide_true]
      · left
        simp only [Cell.strip, isNoneWord, hs, (lower_eq_iff _ _).mpr h3]
        decide
  refine ⟨⟨readOne_none, fwd⟩, fun im => ⟨fun h => ⟨readOne_some h, fun hn => by rw [fwd hn] at h; cases h⟩, ?_⟩⟩
  rintro ⟨⟨c, e, path, d, h1, h2, h3, h4, h5, h6⟩, hn⟩
  obtain ⟨s, rfl⟩ := hstr c h1
  have hs : strip s = path := strip_of_core h3
  unfold readOne
  rw [h1, h2]
  dsimp only
  rw [if_neg]
  · simp only [Cell.strip, Cell.text, hs, h5, hduOf_of_isHdu h6]
  · rw [Bool.or_eq_true]
    rintro (hc | hc)
    · apply hn
      refine ⟨_, path, h1, h3, .inr ?_⟩
      rw [← lower_eq_iff]
      have : lower path = "none" := by simpa [Cell.strip, isNoneWord, hs] using hc
      rw [this]; rfl
    · apply h4
      simpa [Cell.strip, Cell.text, hs] using hc

/-- **C91 (what happens otherwise)** In columns of bytes only the blank path means that there is no image; the word none is the name of a file. -/
theorem C91_none_bytes {fs : FileSys} {row : PathRow} {t s path : String} (hb : row.path t = some (.bytes s)) (hext : row.ext t ≠ none) (hc : Core s path) :
    (readOne fs row t = .ok none ↔ path = "") ∧ (∀ im, readOne fs row t = .ok (some im) ↔ Names fs row t im) ∧
    (path ≠ "" → fs path = none → ∃ e, readOne fs row t = .error e) := by
  have hs : strip s = path := strip_of_core hc
  cases he : row.ext t with
  | none => exact absurd he hext
  | some e =>
    by_cases hp : path = ""
    · have : readOne fs row t = .ok none := by
        unfold readOne
        rw [hb, he]
        dsimp only
        rw [if_pos]
        simp [Cell.strip, Cell.text, hs, hp]
      refine ⟨⟨fun _ => hp, fun _ => this⟩, fun im => ⟨fun h => absurd (this.symm.trans h) (by simp), ?_⟩, fun h => absurd hp h⟩
      rintro ⟨c', e', path', d, h1, h2, h3, h4, _⟩
      rw [hb] at h1
      injection h1 with h1
      subst h1
      rw [core_unique h3 hc] at h4
      exact absurd hp h4
    · have hr : readOne fs row t = (match fs path with
          | none => .error .osError
          | some d => match hduOf d (stripExt e) with | .error e => .error e | .ok im => .ok (some im)) := by
        unfold readOne
        rw [hb, he]
        dsimp only
        rw [if_neg]
        · simp only [Cell.strip, Cell.text, hs]
          rfl
        · simp [Cell.strip, Cell.text, hs, hp, isNoneWord]
      refine ⟨⟨fun h => ?_, fun h => absurd h hp⟩, fun im => ⟨readOne_some, ?_⟩, ?_⟩
      · rw [hr] at h
        split at h
        · cases h
        · split at h <;> cases h
      · rintro ⟨c', e', path', d, h1, h2, h3, h4, h5, h6⟩
        rw [hb] at h1
        injection h1 with h1
        subst h1
        rw [he] at h2
        injection h2 with h2
        subst h2
        rw [core_unique h3 hc] at h5
        rw [hr, h5]
        dsimp only
        rw [hduOf_of_isHdu h6]
      · intro _ hf
        rw [hr, hf]
        exact ⟨_, rfl⟩

/-- The factor of an image: the entry of the column `scale`, or 1 without such a column. -/
def Spec.ScaleIs (row : PathRow) (sc : ℚ) : Prop := row.scale = some sc ∨ row.scale = none ∧ sc = 1

theorem scaleIs_getScale (row : PathRow) : ScaleIs row (getScale row) := by
  unfold ScaleIs getScale
  cases row.scale with
  | none => exact .inr ⟨rfl, rfl⟩
  | some s => exact .inl rfl

/-- The row says what a plane is: the image it names, or that there is none. -/
def Spec.Plane (fs : FileSys) (row : PathRow) (t : String) (r : Option (Img ℚ)) : Prop :=
  (∀ im, r = some im → Names fs row t im) ∧ (r = none → SaysNone row t)

theorem load_wf {fs : FileSys} (hwf : ∀ p d h, fs p = some d → h ∈ d → Img.WF h.2) (d : DiskImage) :
    ∀ t p, (d.load fs).plane t = some (some p) → p.WF := by
  intro t p h
  obtain ⟨c, e, path, dd, h1, h2, h3, h4, h5, h6⟩ := (load_plane h).1 p rfl
  cases e with
  | num n =>
    obtain ⟨k, _, name, hg⟩ := h6
    exact hwf path dd _ h5 (List.mem_of_getElem? hg)
  | text c =>
    obtain ⟨name, _, _, k, hh, hg, rfl, _⟩ := h6
    exact hwf path dd _ h5 (List.mem_of_getElem? hg)

section
variable {cfg : MakerCfg} {hn : Bool} {objs : List InputObj} {fs : FileSys} {srcs : List DiskImage} {psf : Option (List PsfModel)}
  {psfInfo : Option String} {md : String} {mk mk' : Maker} {f : Fits} {m : MEDS}

/-- **C91** Every image pixel of a written file comes from the file and extension in the row of its own `file_id`: it is the (cast) pixel of the image named there,
less the background named there, times the factor of that row.  This holds for columns of strings and of bytes. -/
theorem C91_image (hi : Maker.init cfg hn objs (srcs.map (·.load fs)) psf psfInfo md = .ok mk) (hw : mk.write = .ok (mk', f))
    (ho : MEDS.openFile f = .ok m) {i k : Nat} {o : ObjRow} {s : Slot} (he : Epoch m.cat.rows i k o s) (hbox : 0 < o.boxSize)
    (hwf : ∀ p d h, fs p = some d → h ∈ d → Img.WF h.2) :
    ∃ (j : Nat) (src : DiskImage) (c raw : Img ℚ) (bkg : Option (Img ℚ)) (sc : ℚ), s.fileId = (j : Int) ∧ srcs[j]? = some src ∧
      m.getCutout i k "image" = .ok c ∧ Names fs src.row "image" raw ∧ Plane fs src.row "bkg" bkg ∧ ScaleIs src.row sc ∧
      ∀ r q a b : Nat, (r : Int) < o.boxSize → (q : Int) < o.boxSize → s.origStartRow + r = (a : Int) → s.origStartCol + q = (b : Int) →
        ∀ v, raw.get? a b = some v → c.get? r q = some (cfg.cast "image" ((v - bkgAt bkg a b) * sc)) := by
  obtain ⟨j, im, _, h1, h2, _⟩ := C01_cutouts_read_back hi hw ho he hbox (t := "image") (.inl rfl)
  have h2' := h2
  rw [List.getElem?_map] at h2'
  cases hs : srcs[j]? with
  | none => rw [hs] at h2'; cases h2'
  | some src =>
    rw [hs] at h2'
    injection h2' with h2'
    subst h2'
    obtain ⟨c, raw, bkg, g1, g2, g3, g4⟩ := C10_stored_image hi hw ho he hbox h1 h2 (load_wf hwf src)
    exact ⟨j, src, c, raw, bkg, getScale src.row, h1, hs, g1, (load_plane g2).1 raw rfl, load_plane g3, scaleIs_getScale _, g4⟩

/-- **C91** The same for the planes that are not scaled (seg, bmask): pixels of the file in the row of the own `file_id`, the documented value off the image; zeros
when that row says none. -/
theorem C91_mask (hi : Maker.init cfg hn objs (srcs.map (·.load fs)) psf psfInfo md = .ok mk) (hw : mk.write = .ok (mk', f))
    (ho : MEDS.openFile f = .ok m) {i k : Nat} {o : ObjRow} {s : Slot} (he : Epoch m.cat.rows i k o s) (hbox : 0 < o.boxSize)
    {t : String} (ht : t ∈ cfg.cutoutTypes) (hti : t ≠ "image") (htw : t ≠ "weight") :
    ∃ (j : Nat) (src : DiskImage) (c : Img ℚ), s.fileId = (j : Int) ∧ srcs[j]? = some src ∧ m.getCutout i k t = .ok c ∧
      ((∃ raw fill, Names fs src.row t raw ∧ documentedFill t = some fill ∧ ∀ r q : Nat, (r : Int) < o.boxSize → (q : Int) < o.boxSize →
          c.get? r q = some (cutoutPixel (cfg.cast t) fill raw s.origStartRow s.origStartCol r q)) ∨
        SaysNone src.row t ∧ ∀ r q : Nat, (r : Int) < o.boxSize → (q : Int) < o.boxSize → c.get? r q = some 0) := by
  obtain ⟨j, im, c, h1, h2, h3, _, _, _, ⟨r, h4⟩, h5, h6⟩ := C01_cutouts_read_back hi hw ho he hbox (t := t) (.inr ht)
  have h2' := h2
  rw [List.getElem?_map] at h2'
  cases hs : srcs[j]? with
  | none => rw [hs] at h2'; cases h2'
  | some src =>
    rw [hs] at h2'
    injection h2' with h2'
    subst h2'
    refine ⟨j, src, c, h1, hs, h3, ?_⟩
    have hp : (src.load fs).plane t = some r := by
      unfold readImage at h4
      obtain ⟨raw, hraw, h4⟩ := Res.bind_eq_ok.mp h4
      rw [if_neg hti, if_neg htw] at h4
      injection h4 with h4
      subst h4
      unfold readOneImage at hraw
      split at hraw
      · cases hraw
      · rename_i r' hr; injection hraw with hraw; rw [hr, hraw]
    cases r with
    | none => exact .inr ⟨(load_plane hp).2 rfl, h6 h4⟩
    | some raw =>
      obtain ⟨fill, g1, g2⟩ := h5 raw h4
      exact .inl ⟨raw, fill, (load_plane hp).1 raw rfl, g1, g2⟩

/-- **C91** The same for the weights: the (cast) pixel of the weight image named in the row of the own `file_id` over the square of its factor, and zero where the
bit mask named in that row has an unusable bit. -/
theorem C91_weight (hi : Maker.init cfg hn objs (srcs.map (·.load fs)) psf psfInfo md = .ok mk) (hw : mk.write = .ok (mk', f))
    (ho : MEDS.openFile f = .ok m) {i k : Nat} {o : ObjRow} {s : Slot} (he : Epoch m.cat.rows i k o s) (hbox : 0 < o.boxSize)
    (ht : "weight" ∈ cfg.cutoutTypes) (hwf : ∀ p d h, fs p = some d → h ∈ d → Img.WF h.2) :
    ∃ (j : Nat) (src : DiskImage) (c raw : Img ℚ) (sc : ℚ), s.fileId = (j : Int) ∧ srcs[j]? = some src ∧
      m.getCutout i k "weight" = .ok c ∧ Names fs src.row "weight" raw ∧ ScaleIs src.row sc ∧
      ∀ r q a b : Nat, (r : Int) < o.boxSize → (q : Int) < o.boxSize → s.origStartRow + r = (a : Int) → s.origStartCol + q = (b : Int) →
        ∀ v, raw.get? a b = some v →
          (cfg.unusableBmask = none → c.get? r q = some (cfg.cast "weight" (v / sc ^ 2))) ∧
          ∀ flags, cfg.unusableBmask = some flags → ∃ mask, Plane fs src.row "bmask" mask ∧
            (mask = none → c.get? r q = some (cfg.cast "weight" (v / sc ^ 2))) ∧
            ∀ bm, mask = some bm → ∀ z : Int, bm.get? a b = some (z : ℚ) →
              (SharesBit z flags → c.get? r q = some (cfg.cast "weight" 0)) ∧
              (¬ SharesBit z flags → c.get? r q = some (cfg.cast "weight" (v / sc ^ 2))) := by
  obtain ⟨j, im, c, h1, h2, h3, _, _, _, ⟨r, h4⟩, h5, h6⟩ := C01_cutouts_read_back hi hw ho he hbox (t := "weight") (.inr ht)
  have h2' := h2
  rw [List.getElem?_map] at h2'
  cases hs : srcs[j]? with
  | none => rw [hs] at h2'; cases h2'
  | some src =>
    rw [hs] at h2'
    injection h2' with h2'
    subst h2'
    have hrd := readable_of_readImage h4
    obtain ⟨hr1, hr2⟩ := hrd
    unfold Readable at hr1
    rw [if_neg (by decide), if_pos rfl] at hr1
    obtain ⟨_, raw0, hraw0, hmask⟩ := hr1
    cases r with
    | none => exact absurd rfl (hr2.mpr ⟨raw0, hraw0⟩)
    | some y =>
      obtain ⟨raw, g1, _, _, g2⟩ := C10_weight_scaled h4 (load_wf hwf src)
      obtain ⟨fill, _, g4⟩ := h5 y h4
      refine ⟨j, src, c, raw, getScale src.row, h1, hs, h3, (load_plane g1).1 raw rfl, scaleIs_getScale _, ?_⟩
      intro r q a b hr hq ha hb v hv
      have hc : ∀ u, y.get? a b = some u → c.get? r q = some (cfg.cast "weight" u) := by
        intro u hu
        rw [g4 r q hr hq]
        unfold cutoutPixel pixelAt
        rw [ha, hb, if_pos ⟨by omega, by omega⟩]
        simp only [Int.toNat_natCast]
        rw [hu]
      obtain ⟨k1, k2⟩ := g2 a b v hv
      refine ⟨fun hf => hc _ (k1 hf), fun flags hf => ?_⟩
      obtain ⟨mask, hm, _⟩ := hmask flags hf
      obtain ⟨k3, k4, _⟩ := k2 flags hf
      refine ⟨mask, load_plane hm, fun hn => hc _ (k3 (by rw [hm, hn])), fun bm hbm z hz => ?_⟩
      obtain ⟨k5, k6⟩ := k4 bm (by rw [hm, hbm]) z hz
      exact ⟨fun hsb => hc _ (k5 hsb), fun hsb => hc _ (k6 hsb)⟩

/-- **C91 (what happens otherwise)** With a file name that is not there in a row - such as the word none in a column of bytes - a type that needs it is never
written. -/
theorem C91_missing_file {src : DiskImage} (hsrc : src ∈ srcs) {t : String} (ht : t = "image" ∨ t ∈ cfg.cutoutTypes) {e : Err}
    (hbad : readOne fs src.row t = .error e ∨ t = "image" ∧ readOne fs src.row "bkg" = .error e ∨
      t = "weight" ∧ cfg.unusableBmask ≠ none ∧ readOne fs src.row "bmask" = .error e)
    (hi : Maker.init cfg hn objs (srcs.map (·.load fs)) psf psfInfo md = .ok mk) : ∀ r, mk.write ≠ .ok r := by
  rintro ⟨mk', f⟩ hw
  obtain ⟨in0, w, W, _⟩ := written hi hw
  obtain ⟨y, hy⟩ := W.read ((mem_types W.types_ok t).mpr ht) (List.mem_map_of_mem hsrc)
  have hr := (readable_of_readImage hy).1
  have no : ∀ t' r, readOne fs src.row t' = .error e → (src.load fs).plane t' ≠ some r := by
    intro t' r hb hp
    unfold DiskImage.load at hp
    dsimp only at hp
    rw [hb] at hp
    cases hp
  unfold Readable at hr
  by_cases h1 : t = "image"
  · rw [if_pos h1] at hr
    obtain ⟨raw, bkg, g1, g2, _⟩ := hr
    rcases hbad with h | ⟨_, h⟩ | ⟨h2, _⟩
    · exact no _ _ (h1 ▸ h) g1
    · exact no _ _ h g2
    · rw [h1] at h2; revert h2; decide
  · rw [if_neg h1] at hr
    by_cases h2 : t = "weight"
    · rw [if_pos h2] at hr
      obtain ⟨_, raw, g1, g2⟩ := hr
      rcases hbad with h | ⟨h3, _⟩ | ⟨_, hu, h⟩
      · exact no _ _ (h2 ▸ h) g1
      · exact absurd h3 h1
      · obtain ⟨flags, hu⟩ := Option.ne_none_iff_exists'.mp hu
        obtain ⟨mask, g3, _⟩ := g2 flags hu
        exact no _ _ h g3
    · rw [if_neg h2] at hr
      obtain ⟨r, g1⟩ := hr
      rcases hbad with h | ⟨h3, _⟩ | ⟨h3, _⟩
      · exact no _ _ h g1
      · exact absurd h3 h1
      · exact absurd h3 h2
end

/-- An image on the disk with text in the path columns made by `cell`: files `im`, `wt` and `mask`, no background and no seg map. -/
def Ex.diskImage (cell : String → Cell) (n : Nat) (dx : ℚ) (scale : Option ℚ) : DiskImage :=
  { wcs := Ex.wcs n dx, info := (Ex.src n dx 0 1).info,
    row := { path := fun t => if t = "image" then some (cell " im") else if t = "bkg" then some (cell "None ") else if t = "weight" then some (cell "wt")
               else if t = "bmask" then some (cell "mask") else if t = "seg" then some (cell "  ") else none,
             ext := fun t => if t = "image" then some (.text (cell "sci")) else if t = "weight" then some (.num 1) else some (.num 0),
             scale := scale } }

/-- The files. -/
def Ex.files : FileSys := fun p =>
  if p = "im" then some [("", Ex.pix 5 100), ("SCI", Ex.pix 5 200)]
  else if p = "wt" then some [("a", Ex.pix 5 0), ("b", Img.ofFn 5 5 (fun _ _ => 4))]
  else if p = "mask" then some [("", Img.ofFn 5 5 (fun i j => (i + j : Nat)))]
  else none

/-- The columns are strings. -/
def Ex.diskImages (cell : String → Cell) : List DiskImage := [Ex.diskImage cell 5 0 (some 2), Ex.diskImage cell 5 1 none]

-- with columns of strings the file is written, and a pixel of the second epoch of the first object is that of the file, times 1
example : Ex.check Ex.cfg Ex.objs ((Ex.diskImages .str).map (·.load Ex.files)) none (fun m =>
    m.cat.rows.map (·.ncutout) = [2, 2] && (match m.getCutout 0 1 "image" with | .ok c => c.get? 1 1 == some 210 | _ => false)) = true := by decide +kernel


-- the word none means no image in the string column of the background
example : readOne Ex.files (Ex.diskImage .str 5 0 none).row "bkg" = .ok none ∧ SaysNone (Ex.diskImage .str 5 0 none).row "bkg" :=
  ⟨by decide +kernel, readOne_none (fs := Ex.files) (by decide +kernel)⟩

/-- The example file with columns of strings is written. -/
theorem Ex.disk_written : ∃ mk r, Maker.init Ex.cfg true Ex.objs ((Ex.diskImages .str).map (·.load Ex.files)) none (some "pi") "meta" = .ok mk ∧ mk.write = .ok r := by
  have h : Ex.check Ex.cfg Ex.objs ((Ex.diskImages .str).map (·.load Ex.files)) none (fun _ => true) = true := by decide +kernel
  unfold Ex.check at h
  split at h
  · rename_i r hr
    unfold Ex.run at hr
    obtain ⟨mk, h1, h2⟩ := Res.bind_eq_ok.mp hr
    exact ⟨mk, r, h1, h2⟩
  · cases h

/-- **C91** is false for columns of bytes, the type that `get_image_info_dtype` gives to paths: with the word none for the background no file is written, although
the same input with strings is. -/
theorem C91_counterexample :
    (∃ mk r, Maker.init Ex.cfg true Ex.objs ((Ex.diskImages .str).map (·.load Ex.files)) none (some "pi") "meta" = .ok mk ∧ mk.write = .ok r) ∧
    (∀ src ∈ Ex.diskImages .bytes, SaysNone src.row "bkg") ∧
    ∀ mk, Maker.init Ex.cfg true Ex.objs ((Ex.diskImages .bytes).map (·.load Ex.files)) none (some "pi") "meta" = .ok mk → ∀ r, mk.write ≠ .ok r := by
  refine ⟨Ex.disk_written, ?_, ?_⟩
  · intro src hsrc
    have : src.row.path "bkg" = some (.bytes "None ") := by
      simp only [Ex.diskImages, List.mem_cons, List.not_mem_nil, or_false] at hsrc
      rcases hsrc with rfl | rfl <;> decide
    exact ⟨_, "None", this, ⟨[], [' '], by decide, by decide, by decide, by decide⟩, .inr ((lower_eq_iff _ _).mp (by decide +kernel))⟩
  · intro mk hi
    exact C91_missing_file (src := Ex.diskImage .bytes 5 0 (some 2)) (e := .osError) (by simp [Ex.diskImages]) (.inl rfl)
      (.inr (.inl ⟨rfl, by decide +kernel⟩)) hi

end Meds
