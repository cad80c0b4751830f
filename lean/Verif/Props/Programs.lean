import Verif.Model.Programs
import Verif.Props.CReader
import Verif.Props.MakeInput

/-!
# The command line programs (C73, C74)
-/

namespace Meds.MakeInput

/-! ### make-meds-input (C73) -/

/-- The measurements of one row, as `get_box_size` wants them. -/
def _root_.Meds.Spec.measured (r : SexRow) : Obj :=
  { rowmin := r.yminImage, rowmax := r.ymaxImage, colmin := r.xminImage, colmax := r.xmaxImage, fluxRadius := r.fluxRadius, ellipticity := 1 - r.bWorld / r.aWorld }

theorem loadRows_getElem? (rows : List SexRow) (n i : Nat) : (loadRows n rows)[i]? = rows[i]?.map (loadRow (n + i)) := by
  induction rows generalizing n i with
  | nil => rfl
  | cons r rest ih =>
    cases i with
    | zero => rfl
    | succ i => rw [loadRows, List.getElem?_cons_succ, List.getElem?_cons_succ, ih]; congr 2; omega

theorem loadRows_length (rows : List SexRow) (n : Nat) : (loadRows n rows).length = rows.length := by
  induction rows generalizing n with
  | nil => rfl
  | cons r rest ih => simp [loadRows, ih]

/-- The numbers at the start of a file of ids. -/
def _root_.Meds.Spec.leading : List (Option Int) → List Int
  | some v :: rest => v :: Spec.leading rest
  | _ => []

theorem leading_getElem? (toks : List (Option Int)) (i : Nat) (v : Int) (h : (Spec.leading toks)[i]? = some v) : toks[i]? = some (some v) := by
  induction toks generalizing i with
  | nil => simp [Spec.leading] at h
  | cons t rest ih =>
    cases t with
    | none => simp [Spec.leading] at h
    | some w =>
      cases i with
      | zero => simpa [Spec.leading] using h
      | succ i => rw [List.getElem?_cons_succ]; exact ih i (by simpa [Spec.leading] using h)

theorem idLoop_none (toks : List (Option Int)) (cat : List CatObj) (i : Nat) (hi : i ≤ cat.length) :
    idLoop cat i toks = none ↔ cat.length < i + (Spec.leading toks).length := by
  induction toks generalizing cat i with
  | nil => simp [idLoop, Spec.leading]; omega
  | cons t rest ih =>
    cases t with
    | none => simp [idLoop, Spec.leading]; omega
    | some v =>
      simp only [idLoop, Spec.leading, List.length_cons]
      split
      · simp; omega
      · rw [ih _ _ (by rw [List.length_modify]; omega), List.length_modify]; omega

theorem idLoop_some (toks : List (Option Int)) (cat cat' : List CatObj) (i j : Nat) (h : idLoop cat i toks = some (cat', j)) :
    j = i + (Spec.leading toks).length ∧ cat'.length = cat.length ∧
      ∀ (k : Nat) (o : CatObj), cat[k]? = some o → ∃ o' : CatObj, cat'[k]? = some o' ∧ o'.row = o.row ∧ o'.col = o.col ∧ o'.meas = o.meas ∧
        ((k < i ∨ j ≤ k) → o'.id = o.id) ∧ (i ≤ k → k < j → (Spec.leading toks)[k - i]? = some o'.id) := by
  induction toks generalizing cat i with
  | nil =>
    simp only [idLoop, Option.some.injEq, Prod.mk.injEq] at h
    obtain ⟨rfl, rfl⟩ := h
    exact ⟨rfl, rfl, fun k o ho => ⟨o, ho, rfl, rfl, rfl, fun _ => rfl, fun a b => by omega⟩⟩
  | cons t rest ih =>
    cases t with
    | none =>
      simp only [idLoop, Option.some.injEq, Prod.mk.injEq] at h
      obtain ⟨rfl, rfl⟩ := h
      exact ⟨rfl, rfl, fun k o ho => ⟨o, ho, rfl, rfl, rfl, fun _ => rfl, fun a b => by omega⟩⟩
    | some v =>
      simp only [idLoop] at h
      split at h
      · cases h
      · obtain ⟨e1, e2, e3⟩ := ih _ _ h
        rw [List.length_modify] at e2
        refine ⟨by simp only [Spec.leading, List.length_cons]; omega, e2, ?_⟩
        intro k o ho
        by_cases hk : k = i
        · subst hk
          obtain ⟨o', p1, p2, p3, p4, p5, _⟩ := e3 k { o with id := v } (by rw [List.getElem?_modify_eq, ho]; rfl)
          refine ⟨o', p1, p2, p3, p4, ?_, ?_⟩
          · intro hh; omega
          · intro _ _
            have := p5 (Or.inl (by omega))
            simp [Spec.leading, this]
        · obtain ⟨o', p1, p2, p3, p4, p5, p6⟩ := e3 k o (by rw [List.getElem?_modify, ho]; simp [show ¬ i = k by omega])
          refine ⟨o', p1, p2, p3, p4, ?_, ?_⟩
          · intro hh; exact p5 (by omega)
          · intro h1 h2
            have := p6 (by omega) h2
            simp only [Spec.leading]
            rw [show k - i = (k - (i + 1)) + 1 by omega, List.getElem?_cons_succ]
            exact this

/-- What `addIds` does. -/
theorem addIds_some {cat cat' : List CatObj} {f : Option (List (Option Int))} (h : addIds cat f = some cat') :
    ∃ toks, f = some toks ∧ (Spec.leading toks).length = cat.length ∧ cat'.length = cat.length ∧
      ∀ (k : Nat) (o : CatObj), cat[k]? = some o → ∃ o' : CatObj, cat'[k]? = some o' ∧ o'.row = o.row ∧ o'.col = o.col ∧ o'.meas = o.meas ∧ toks[k]? = some (some o'.id) := by
  unfold addIds at h
  cases f with
  | none => cases h
  | some toks =>
    simp only at h
    cases hl : idLoop cat 0 toks with
    | none => rw [hl] at h; cases h
    | some p =>
      obtain ⟨c, j⟩ := p
      rw [hl] at h
      simp only at h
      split at h
      · cases h
      · rename_i hj
        injection h with h
        subst h
        obtain ⟨e1, e2, e3⟩ := idLoop_some _ _ _ _ _ hl
        refine ⟨toks, rfl, by omega, e2, ?_⟩
        intro k o ho
        obtain ⟨o', p1, p2, p3, p4, _, p6⟩ := e3 k o ho
        have hk : k < cat.length := (List.getElem?_eq_some_iff.mp ho).1
        exact ⟨o', p1, p2, p3, p4, leading_getElem? _ _ _ (by simpa using p6 (by omega) (by omega))⟩

theorem addIds_isSome {cat : List CatObj} {toks : List (Option Int)} (h : (Spec.leading toks).length = cat.length) : (addIds cat (some toks)).isSome := by
  unfold addIds
  simp only
  cases hl : idLoop cat 0 toks with
  | none => have := (idLoop_none toks cat 0 (by omega)).mp hl; omega
  | some p =>
    obtain ⟨c, j⟩ := p
    obtain ⟨e1, e2, _⟩ := idLoop_some _ _ _ _ _ hl
    simp only
    rw [if_neg (by omega)]
    rfl

/-- **C73** One line per row of the table, in the order of the rows: the id (the position of the row from zero on, or the number at that place in the file
of ids), Y_IMAGE, X_IMAGE, and the box size of the measurements of that row. -/
theorem C73_lines {rows : List SexRow} {minsize maxsize : Int} {idFile : Option (Option (List (Option Int)))} {lines : List Line}
    (h : main (some rows) minsize maxsize idFile = (0, lines)) :
    lines.length = rows.length ∧
      ∀ (i : Nat) (r : SexRow), rows[i]? = some r → ∃ id : Int, lines[i]? = some ⟨id, r.yImage, r.xImage, mainBoxSize minsize maxsize (Spec.measured r)⟩ ∧
        (idFile = none → id = i) ∧ (∀ toks, idFile = some (some toks) → toks[i]? = some (some id)) := by
  unfold main at h
  simp only at h
  cases hf : idFile with
  | none =>
    subst hf
    simp only [Prod.mk.injEq, true_and] at h
    subst h
    refine ⟨by simp [writeMedsInput, setBoxSizes, loadRows_length], ?_⟩
    intro i r hr
    refine ⟨i, ?_, fun _ => rfl, fun toks ht => by cases ht⟩
    simp only [writeMedsInput, setBoxSizes, List.getElem?_map, loadRows_getElem?, hr, Option.map_some]
    have e : ((1 + i : Nat) : Int) - 1 = i := by omega
    simp only [loadRow, e]
    rfl
  | some f =>
    subst hf
    simp only at h
    cases ha : addIds (loadRows 1 rows) f with
    | none => rw [ha] at h; simp at h
    | some cat =>
      rw [ha] at h
      simp only [Prod.mk.injEq, true_and] at h
      subst h
      obtain ⟨toks, rfl, _, e2, e3⟩ := addIds_some ha
      rw [loadRows_length] at e2
      refine ⟨by simp [writeMedsInput, setBoxSizes, e2], ?_⟩
      intro i r hr
      obtain ⟨o', p1, p2, p3, p4, p5⟩ := e3 i (loadRow (1 + i) r) (by rw [loadRows_getElem?, hr]; rfl)
      refine ⟨o'.id, ?_, fun e => absurd e (by simp), fun toks' ht => ?_⟩
      · simp only [writeMedsInput, setBoxSizes, List.getElem?_map, p1, Option.map_some, p2, p3, p4]
        rfl
      · simp only [Option.some.injEq] at ht
        subst ht
        exact p5

/-- **C73** The box size on every line is in the table, between the two rounded limits, and large enough for the object unless it is the upper limit. -/
theorem C73_boxes {rows : List SexRow} {minsize maxsize : Int} {idFile : Option (Option (List (Option Int)))} {lines : List Line}
    (h : main (some rows) minsize maxsize idFile = (0, lines)) (hlim : minsize ≤ maxsize) (hmax : maxsize ≤ 6144) {i : Nat} {r : SexRow} {l : Line}
    (hr : rows[i]? = some r) (hl : lines[i]? = some l) :
    l.boxSize ∈ SIZES ∧ minsize ≤ l.boxSize ∧ l.boxSize ≤ fftRoundSize maxsize ∧
      (l.boxSize = fftRoundSize maxsize ∨ (r.ymaxImage - r.yminImage + 1 ≤ l.boxSize ∧ r.xmaxImage - r.xminImage + 1 ≤ l.boxSize)) := by
  obtain ⟨id, e, _⟩ := (C73_lines h).2 i r hr
  rw [hl] at e
  injection e with e
  subst e
  obtain ⟨a1, a2, a3, a4⟩ := C44_limits_partial (Spec.measured r) hlim
  refine ⟨a1, a4 (by omega), a3, ?_⟩
  rcases C44_holds_object (Spec.measured r) minsize maxsize with b | ⟨b1, b2, _⟩
  · exact Or.inl b
  · exact Or.inr ⟨b1, b2⟩

/-- **C73** The run succeeds exactly when the table can be read and, if a file of ids is given, it starts with exactly one number per row (what follows
the first word that is not a number is not looked at).  Otherwise the exit status is one and nothing is printed. -/
theorem C73_accepted_partial (infile : Option (List SexRow)) (minsize maxsize : Int) (idFile : Option (Option (List (Option Int)))) :
    ((main infile minsize maxsize idFile).1 = 0 ↔
      ∃ rows, infile = some rows ∧ (idFile = none ∨ ∃ toks, idFile = some (some toks) ∧ (Spec.leading toks).length = rows.length)) ∧
    ((main infile minsize maxsize idFile).1 ≠ 0 → main infile minsize maxsize idFile = (1, [])) := by
  unfold main
  cases infile with
  | none => simp
  | some rows =>
    cases idFile with
    | none => simp
    | some f =>
      simp only
      cases ha : addIds (loadRows 1 rows) f with
      | none =>
        refine ⟨⟨fun h => absurd h (by simp), ?_⟩, fun _ => rfl⟩
        rintro ⟨rows', hr, h | ⟨toks, h, e⟩⟩
        · cases h
        · simp only [Option.some.injEq] at h hr
          subst h hr
          have := addIds_isSome (cat := loadRows 1 rows) (toks := toks) (by rw [loadRows_length]; exact e)
          rw [ha] at this
          cases this
      | some cat =>
        obtain ⟨toks, rfl, e, _⟩ := addIds_some ha
        rw [loadRows_length] at e
        exact ⟨⟨fun _ => ⟨rows, rfl, Or.inr ⟨toks, rfl, e⟩⟩, fun _ => rfl⟩, fun h => absurd rfl h⟩

def exRows : List SexRow := [⟨10, 20, 5, 15, 10, 30, 3, 2, 1⟩, ⟨40, 50, 38, 42, 48, 52, 1, 1, 1⟩]

/-- **C73** is false: a file with more words than there are rows is accepted, because reading stops at the word that is not a number. -/
theorem C73_counterexample : ¬ ∀ (rows : List SexRow) (minsize maxsize : Int) (toks : List (Option Int)),
    (main (some rows) minsize maxsize (some (some toks))).1 = 0 → toks.length = rows.length := by
  intro h
  have := h exRows 16 64 [some 7, some 9, none, some 11] (by decide +kernel)
  revert this
  decide

example : main (some exRows) 16 64 none = (0, [⟨0, 10, 20, 48⟩, ⟨1, 40, 50, 16⟩]) := by decide +kernel
example : main (some exRows) 16 64 (some (some [some 7, some 9])) = (0, [⟨7, 10, 20, 48⟩, ⟨9, 40, 50, 16⟩]) := by decide +kernel
example : main (some exRows) 16 64 (some (some [some 7])) = (1, []) ∧ main (some exRows) 16 64 (some (some [some 7, some 9, some 1])) = (1, []) := by decide +kernel

end Meds.MakeInput

namespace Meds.C
open Spec

variable {cols : List String} {f : Fits} {h : Handle} {m : MEDS}

/-! ### meds-get-cutout (C74) -/

theorem write_agree (hf : h.fits = m.fits) {t : String} {a : Int} {n : Nat} {box : Int} (hn : 0 < n) {im : Img ℚ}
    (him : (do let ext ← m.extensionName t; let sl ← m.fits.imageSlice ext a (a + box * box * n); reshape sl (n * box) box) = .ok im) (old : Option (Img ℚ)) :
    ∃ c, (do let p ← readPix h (t ++ "_cutouts") a (box * box * n); cutoutFromPtr p n box box) = .ok c ∧ (writeFits true c old).1 = some im := by
  obtain ⟨ext, he, him1⟩ := Res.bind_eq_ok.mp him
  obtain ⟨sl, hsl, him2⟩ := Res.bind_eq_ok.mp him1
  clear him him1
  unfold MEDS.extensionName at he
  simp only at he
  split at he
  · injection he with he
    subst he
    obtain ⟨q1, q2, q3, q4⟩ := reshape_ok him2
    unfold Fits.imageSlice at hsl
    cases hfi : m.fits.find (t ++ "_cutouts") with
    | none => rw [hfi] at hsl; cases hsl
    | some d =>
      rw [hfi] at hsl
      cases d with
      | image pix =>
        dsimp only at hsl
        obtain ⟨s1, s2, s3, s4⟩ := slice_ok hsl (by rw [q3]; ring)
        have hbox : 0 < box := by
          rcases lt_or_eq_of_le q2 with h' | h'
          · exact h'
          · rw [← h'] at s2; simp at s2
        have hpos : ¬ (n : Int) * box ≤ 0 := by
          have : 0 < (n : Int) * box := by positivity
          omega
        refine ⟨_, by
          unfold readPix
          rw [hf, hfi]
          dsimp only
          rw [if_pos ⟨s1, s2, s3⟩]
          simp only [Res.ok_bind]
          rw [← s4]
          unfold cutoutFromPtr
          rw [if_neg hpos], ?_⟩
        unfold writeFits
        simp only [if_true]
        rw [q4, List.take_of_length_le (by omega)]
      | _ => cases hsl
  · cases he

/-- **C74** With a cutout index: what ends up in the output file is the image that the Python reader returns for that cutout, and the exit status is zero. -/
theorem C74_cutout_written (ho : medsOpen cols f = .ok h) (hm : MEDS.openFile f = .ok m) (hw : OneWidth m.cat) {i k : Nat} (hv : ValidPair m.cat.rows i k)
    {im : Img ℚ} (him : m.getCutout i k "image" = .ok im) (old : Option (Img ℚ)) :
    getCutoutMain (medsOpen cols f) i (some (k : Int)) true old = .ok (0, some im) := by
  obtain ⟨a, b, p1, c1⟩ := cutout_forms ho hm hw (t := "image") (by decide) hv
  rw [p1] at him
  obtain ⟨c, x1, x2⟩ := write_agree (open_ok ho hm).1 Nat.one_pos him old
  unfold getCutoutMain
  rw [ho]
  have : getCutout h i k = .ok c := by rw [← x1, ← c1]; rfl
  simp only [this, x2]

/-- **C74** Without one: the output file holds the mosaic of all cutouts of the object. -/
theorem C74_mosaic_written (ho : medsOpen cols f = .ok h) (hm : MEDS.openFile f = .ok m) (hw : OneWidth m.cat) {i : Nat} (hv : ValidPair m.cat.rows i 0)
    {im : Img ℚ} (him : m.getMosaic i "image" = .ok im) (old : Option (Img ℚ)) :
    getCutoutMain (medsOpen cols f) i none true old = .ok (0, some im) := by
  obtain ⟨a, b, n, n0, _, p1, c1⟩ := mosaic_forms ho hm hw (t := "image") hv
  rw [p1] at him
  obtain ⟨c, x1, x2⟩ := write_agree (open_ok ho hm).1 n0 him old
  unfold getCutoutMain
  rw [ho]
  have : getMosaic h i = .ok c := by rw [← x1, ← c1]; rfl
  simp only [this, x2]

/-- **C74** The exit status says only whether the MEDS file could be opened; with a non-zero status the output file is as it was. -/
theorem C74_status_partial {meds : Res Handle} {index : Int} {icutout : Option Int} {writable : Bool} {old out : Option (Img ℚ)} {status : Nat}
    (hr : getCutoutMain meds index icutout writable old = .ok (status, out)) :
    (status = 0 ↔ ∃ h, meds = .ok h) ∧ (status ≠ 0 → status = 1 ∧ out = old) := by
  unfold getCutoutMain at hr
  cases meds with
  | ok h =>
    simp only at hr
    split at hr
    all_goals first
      | (simp only [Except.ok.injEq, Prod.mk.injEq] at hr; obtain ⟨rfl, _⟩ := hr; simp)
      | cases hr
  | error e =>
    cases e
    case nullResult =>
      simp only [Except.ok.injEq, Prod.mk.injEq] at hr
      obtain ⟨rfl, rfl⟩ := hr
      simp
    all_goals cases hr

/-- **C74** An index that does not exist in the file: exit status zero, and the output file is as it was. -/
theorem C74_bad_index (ho : medsOpen cols f = .ok h) (hm : MEDS.openFile f = .ok m) (hw : OneWidth m.cat) {i : Int} {icutout : Option Int}
    (hv : ¬ ValidPair m.cat.rows i (icutout.getD 0)) (writable : Bool) (old : Option (Img ℚ)) :
    getCutoutMain (medsOpen cols f) i icutout writable old = .ok (0, old) := by
  unfold getCutoutMain
  rw [ho]
  cases icutout with
  | some k =>
    have e : getCutout h i k = .error .nullResult := (C40_bad_indices ho hm hw hv).2.2.2.2.2.1
    simp only [e]
  | none => simp only [((C40_bad_objects ho hm hw i).2 hv).1]

/-- **C74** is false: status zero although there is no output file. -/
theorem C74_counterexample : ¬ ∀ (cols : List String) (f : Fits) (index : Int) (icutout : Option Int) (out : Option (Img ℚ)),
    getCutoutMain (medsOpen cols f) index icutout true none = .ok (0, out) → out ≠ none := by
  intro hh
  exact hh exCols exFile 0 (some 2) none (by decide +kernel) rfl

example : getCutoutMain (medsOpen exCols exFile) 0 (some 1) true none = .ok (0, some ⟨2, 2, [5, 6, 7, 8]⟩) ∧
    getCutoutMain (medsOpen exCols exFile) 0 none true none = .ok (0, some ⟨4, 2, [1, 2, 3, 4, 5, 6, 7, 8]⟩) ∧
    getCutoutMain (medsOpen [] exFile) 0 none true none = .ok (1, none) := by decide +kernel

end Meds.C
