import Verif.Spec.CPrint
import Verif.Props.CReader
import Verif.Props.CMeta

/-!
# C124: what the C library prints
-/

namespace Meds.CPrint
open C Spec

variable {f : Fmt} {st : Stream} {n : Nat} {name : String} {out : Out}

/-! ### Text on a stream -/

theorem textOn_append (s : Stream) (a b : Out) : textOn s (a ++ b) = textOn s a ++ textOn s b := by
  simp [textOn]

theorem textOn_all {a : Out} (h : ∀ p ∈ a, p.1 = st) : textOn st a = (a.map (·.2)).flatten := by
  unfold textOn
  rw [List.filter_eq_self.mpr]
  intro p hp
  simp [h p hp]

theorem textOn_none {a : Out} {s : Stream} (h : ∀ p ∈ a, p.1 ≠ s) : textOn s a = [] := by
  unfold textOn
  rw [List.filter_eq_nil_iff.mpr]
  · rfl
  · intro p hp
    simp [h p hp]

/-- `n` entries of an array that has them. -/
theorem index_range {α : Type} {l : List α} (w : α → List Char) (hn : n ≤ l.length) :
    mapRes (fun (i : Nat) => do
      let v ← index l i
      .ok (st, ' ' :: w v)) (List.range n) = .ok ((l.take n).map fun v => (st, ' ' :: w v)) := by
  rw [mapRes_ok_iff, List.forall₂_iff_get]
  refine ⟨by simp; omega, fun i h1 h2 => ?_⟩
  have hl : i < l.length := by simp at h2; omega
  simp only [List.get_eq_getElem, List.getElem_range, List.getElem_map, List.getElem_take, index, Int.natCast_nonneg, if_true, Int.toNat_natCast, List.getElem?_eq_getElem hl]
  rfl

theorem printDoubles_eq {vals : List ℚ} (hn : n ≤ vals.length) :
    printDoubles f vals n name st = .ok ((st, pad14 name ++ " : ".toList) :: ((vals.take n).map fun v => (st, ' ' :: f.lf v)) ++ [(st, ['\n'])]) := by
  unfold printDoubles
  rw [index_range f.lf hn]
  rfl

theorem printLongs_eq {vals : List Int} (hn : n ≤ vals.length) :
    printLongs f vals n name st = .ok ((st, pad14 name ++ " : ".toList) :: ((vals.take n).map fun v => (st, ' ' :: f.ld v)) ++ [(st, ['\n'])]) := by
  unfold printLongs
  rw [index_range f.ld hn]
  rfl

/-- The pieces of one line. -/
def pieces (st : Stream) (name : String) (ws : List (List Char)) : Out := (st, pad14 name ++ " : ".toList) :: (ws.map fun w => (st, ' ' :: w)) ++ [(st, ['\n'])]

theorem pieces_stream {ws : List (List Char)} : ∀ p ∈ pieces st name ws, p.1 = st := by
  intro p hp
  simp only [pieces, List.cons_append, List.mem_cons, List.mem_append, List.mem_map, List.not_mem_nil, or_false] at hp
  rcases hp with rfl | ⟨_, _, rfl⟩ | rfl <;> rfl

theorem pieces_text {ws : List (List Char)} : ((pieces st name ws).map (·.2)).flatten = valueLine name ws := by
  simp [pieces, valueLine, Function.comp_def]

theorem objPrint_eq {o : Obj} {r : ObjRow} (h1 : o.ncutout = r.ncutout) (h2 : o.boxSize = r.boxSize) (h3 : r.ncutout.toNat ≤ o.arrays.length)
    (h4 : o.arrays.take r.ncutout.toNat = r.slots.take r.ncutout.toNat) :
    ∃ out, objPrint f o st = .ok out ∧ (∀ p ∈ out, p.1 = st) ∧ (out.map (·.2)).flatten = (objectLines f r).flatten := by
  unfold objPrint printDistortions
  dsimp only
  rw [h1, h2]
  rw [printLongs_eq (by simpa using h3), printLongs_eq (by simpa using h3), printDoubles_eq (by simpa using h3), printDoubles_eq (by simpa using h3),
    printLongs_eq (by simpa using h3), printLongs_eq (by simpa using h3), printDoubles_eq (by simpa using h3), printDoubles_eq (by simpa using h3),
    printDoubles_eq (by simpa using h3), printDoubles_eq (by simpa using h3), printDoubles_eq (by simpa using h3), printDoubles_eq (by simpa using h3)]
  simp only [Res.ok_bind, ← List.map_take, h4]
  refine ⟨_, rfl, ?_, ?_⟩
  · intro p hp
    simp only [List.cons_append, List.nil_append, List.mem_cons, List.mem_append, List.mem_map, List.not_mem_nil, or_false] at hp
    aesop
  · simp [objectLines, valueLine, Function.comp_def]

/-- `meds_obj_print` writes to its stream, and nothing else: the lines of the object, with the values of its cutouts in their order. -/
theorem C124_object {cols : List String} {fits : Fits} {h : Handle} {m : MEDS} (ho : medsOpen cols fits = .ok h) (hm : MEDS.openFile fits = .ok m) (hw : OneWidth m.cat) {i : Nat} {r : ObjRow}
    (hr : m.cat.rows[i]? = some r) : ∃ o out, getObj h i = .ok o ∧ objPrint f o st = .ok out ∧ textOn st out = (objectLines f r).flatten ∧ ∀ s, s ≠ st → textOn s out = [] := by
  obtain ⟨o, g1, g2, g3, g4, g5, g6, g7⟩ := loaded ho hm hw hr
  obtain ⟨out, e1, e2, e3⟩ := objPrint_eq (f := f) (st := st) (o := o) (r := r) g4 g5 (by omega) (by
    apply List.ext_getElem?
    intro k
    rw [List.getElem?_take, List.getElem?_take]
    split
    · exact g7 k (by omega)
    · rfl)
  refine ⟨o, out, getObj_nat g1, e1, by rw [textOn_all e2, e3], fun s hs => textOn_none fun p hp => ?_⟩
  rw [e2 p hp]
  exact hs.symm

/-- The lines of an object are aligned: every line begins with the name of its column, followed by blanks up to the fourteenth place, and has a colon at the sixteenth. -/
theorem C124_aligned (r : ObjRow) : (objectLines f r).map (fun l => String.ofList (l.take 17)) =
    ["ncutout        : ", "box_size       : ", "file_id        : ", "start_row      : ", "orig_row       : ", "orig_col       : ", "orig_start_row : ",
     "orig_start_col : ", "cutout_row     : ", "cutout_col     : ", "dudrow         : ", "dudcol         : ", "dvdrow         : ", "dvdcol         : "] := by
  have key : ∀ (name head : String) (a : List Char), pad14 name ++ [' ', ':', ' '] = head.toList → head.toList.length = 17 →
      String.ofList ((pad14 name ++ [' ', ':', ' '] ++ a).take 17) = head := by
    intro name head a h1 h2
    rw [h1, List.take_left' h2]
    exact String.ofList_toList
  unfold objectLines valueLine
  simp only [List.map_cons, List.map_nil, List.append_assoc (_ ++ [' ', ':', ' '])]
  rw [key "ncutout" "ncutout        : " _ (by decide +kernel) (by decide +kernel), key "box_size" "box_size       : " _ (by decide +kernel) (by decide +kernel),
    key "file_id" "file_id        : " _ (by decide +kernel) (by decide +kernel), key "start_row" "start_row      : " _ (by decide +kernel) (by decide +kernel),
    key "orig_row" "orig_row       : " _ (by decide +kernel) (by decide +kernel), key "orig_col" "orig_col       : " _ (by decide +kernel) (by decide +kernel),
    key "orig_start_row" "orig_start_row : " _ (by decide +kernel) (by decide +kernel), key "orig_start_col" "orig_start_col : " _ (by decide +kernel) (by decide +kernel),
    key "cutout_row" "cutout_row     : " _ (by decide +kernel) (by decide +kernel), key "cutout_col" "cutout_col     : " _ (by decide +kernel) (by decide +kernel),
    key "dudrow" "dudrow         : " _ (by decide +kernel) (by decide +kernel), key "dudcol" "dudcol         : " _ (by decide +kernel) (by decide +kernel),
    key "dvdrow" "dvdrow         : " _ (by decide +kernel) (by decide +kernel), key "dvdcol" "dvdcol         : " _ (by decide +kernel) (by decide +kernel)]

/-! ### Reading it back -/

theorem line_inj {a b s t : List Char} (ha : ∀ c ∈ a, c ≠ '\n') (hb : ∀ c ∈ b, c ≠ '\n') (h : a ++ '\n' :: s = b ++ '\n' :: t) : a = b ∧ s = t := by
  induction a generalizing b with
  | nil =>
    cases b with
    | nil => simpa using h
    | cons y b => 
      simp only [List.nil_append, List.cons_append, List.cons.injEq] at h
      exact absurd h.1.symm (hb y List.mem_cons_self)
  | cons x a ih =>
    cases b with
    | nil =>
      simp only [List.nil_append, List.cons_append, List.cons.injEq] at h
      exact absurd h.1 (ha x List.mem_cons_self)
    | cons y b =>
      simp only [List.cons_append, List.cons.injEq] at h
      obtain ⟨h1, h2⟩ := ih (fun c hc => ha c (List.mem_cons_of_mem _ hc)) (fun c hc => hb c (List.mem_cons_of_mem _ hc)) h.2
      exact ⟨by rw [h.1, h1], h2⟩

theorem word_inj {a b s t : List Char} (ha : ∀ c ∈ a, c ≠ ' ') (hb : ∀ c ∈ b, c ≠ ' ') (hs : ∀ c, s.head? = some c → c = ' ') (ht : ∀ c, t.head? = some c → c = ' ') (h : a ++ s = b ++ t) :
    a = b ∧ s = t := by
  induction a generalizing b with
  | nil =>
    cases b with
    | nil => simpa using h
    | cons y b =>
      exfalso
      have := hs y (by simp only [List.nil_append] at h; rw [h]; rfl)
      exact hb y List.mem_cons_self this
  | cons x a ih =>
    cases b with
    | nil =>
      exfalso
      have := ht x (by simp only [List.nil_append] at h; rw [← h]; rfl)
      exact ha x List.mem_cons_self this
    | cons y b =>
      simp only [List.cons_append, List.cons.injEq] at h
      obtain ⟨h1, h2⟩ := ih (fun c hc => ha c (List.mem_cons_of_mem _ hc)) (fun c hc => hb c (List.mem_cons_of_mem _ hc)) h.2
      exact ⟨by rw [h.1, h1], h2⟩

theorem blank_head {ws : List (List Char)} : ∀ c, ((ws.map (' ' :: ·)).flatten).head? = some c → c = ' ' := by
  intro c hc
  cases ws with
  | nil => cases hc
  | cons w ws => simpa using hc.symm

theorem words_inj : ∀ {vs ws : List (List Char)}, (∀ w ∈ vs, ∀ c ∈ w, c ≠ ' ') → (∀ w ∈ ws, ∀ c ∈ w, c ≠ ' ') → (vs.map (' ' :: ·)).flatten = (ws.map (' ' :: ·)).flatten → vs = ws
  | [], [], _, _, _ => rfl
  | [], w :: ws, _, _, h => by simp at h
  | v :: vs, [], _, _, h => by simp at h
  | v :: vs, w :: ws, hv, hw, h => by
    simp only [List.map_cons, List.flatten_cons, List.cons_append, List.cons.injEq, true_and] at h
    obtain ⟨h1, h2⟩ := word_inj (hv v List.mem_cons_self) (hw w List.mem_cons_self) blank_head blank_head h
    rw [h1, words_inj (fun x hx => hv x (List.mem_cons_of_mem _ hx)) (fun x hx => hw x (List.mem_cons_of_mem _ hx)) h2]

theorem pad_newline (hn : ∀ c ∈ name.toList, c ≠ '\n') : ∀ c ∈ pad14 name, c ≠ '\n' := by
  intro c hc
  unfold pad14 at hc
  rcases List.mem_append.mp hc with h | h
  · exact hn c h
  · rw [List.eq_of_mem_replicate h]; decide

/-- Lines of values one after the other. -/
theorem valueLine_inj {vs ws : List (List Char)} {s t : List Char} (hn : ∀ c ∈ name.toList, c ≠ '\n') (hv : ∀ w ∈ vs, ∀ c ∈ w, c ≠ ' ' ∧ c ≠ '\n') (hw : ∀ w ∈ ws, ∀ c ∈ w, c ≠ ' ' ∧ c ≠ '\n')
    (h : valueLine name vs ++ s = valueLine name ws ++ t) : vs = ws ∧ s = t := by
  have clean : ∀ us : List (List Char), (∀ w ∈ us, ∀ c ∈ w, c ≠ ' ' ∧ c ≠ '\n') → ∀ c ∈ pad14 name ++ [' ', ':', ' '] ++ (us.map (' ' :: ·)).flatten, c ≠ '\n' := by
    intro us hu c hc
    rcases List.mem_append.mp hc with hc | hc
    · rcases List.mem_append.mp hc with hc | hc
      · exact pad_newline hn c hc
      · simp only [List.mem_cons, List.not_mem_nil, or_false] at hc
        rcases hc with rfl | rfl | rfl <;> decide
    · simp only [List.mem_flatten, List.mem_map] at hc
      obtain ⟨_, ⟨w, hw, rfl⟩, hc⟩ := hc
      rcases List.mem_cons.mp hc with rfl | hc
      · decide
      · exact (hu w hw c hc).2
  unfold valueLine at h
  obtain ⟨h1, h2⟩ := line_inj (s := s) (t := t) (clean vs hv) (clean ws hw) (by simpa using h)
  refine ⟨?_, h2⟩
  have h1 := List.append_cancel_left h1
  exact words_inj (fun w hw' c hc => (hv w hw' c hc).1) (fun w hw' c hc => (hw w hw' c hc).1) h1

theorem numberLine_inj {v w s t : List Char} (hn : ∀ c ∈ name.toList, c ≠ '\n') (hv : ∀ c ∈ v, c ≠ '\n') (hw : ∀ c ∈ w, c ≠ '\n')
    (h : (pad14 name ++ [' ', ':', ' '] ++ v ++ ['\n']) ++ s = (pad14 name ++ [' ', ':', ' '] ++ w ++ ['\n']) ++ t) : v = w ∧ s = t := by
  have clean : ∀ u : List Char, (∀ c ∈ u, c ≠ '\n') → ∀ c ∈ pad14 name ++ [' ', ':', ' '] ++ u, c ≠ '\n' := by
    intro u hu c hc
    rcases List.mem_append.mp hc with hc | hc
    · rcases List.mem_append.mp hc with hc | hc
      · exact pad_newline hn c hc
      · simp only [List.mem_cons, List.not_mem_nil, or_false] at hc
        rcases hc with rfl | rfl | rfl <;> decide
    · exact hu c hc
  obtain ⟨h1, h2⟩ := line_inj (s := s) (t := t) (clean v hv) (clean w hw) (by simpa using h)
  exact ⟨List.append_cancel_left h1, h2⟩

/-- Nothing is lost: from the text one can tell the number of cutouts, the box size and the integers of every cutout, and the other values as far as they are printed. -/
theorem C124_nothing_lost (hf : GoodFmt f) {r r' : ObjRow} (h : (objectLines f r).flatten = (objectLines f r').flatten) : r.ncutout = r'.ncutout ∧ r.boxSize = r'.boxSize ∧
    ∀ (k : Nat) (s s' : Slot), (k : Int) < r.ncutout → r.slots[k]? = some s → r'.slots[k]? = some s' →
      s.fileId = s'.fileId ∧ s.startRow = s'.startRow ∧ s.origStartRow = s'.origStartRow ∧ s.origStartCol = s'.origStartCol ∧
      f.lf s.origRow = f.lf s'.origRow ∧ f.lf s.origCol = f.lf s'.origCol ∧ f.lf s.cutoutRow = f.lf s'.cutoutRow ∧ f.lf s.cutoutCol = f.lf s'.cutoutCol ∧
      f.lf s.dudrow = f.lf s'.dudrow ∧ f.lf s.dudcol = f.lf s'.dudcol ∧ f.lf s.dvdrow = f.lf s'.dvdrow ∧ f.lf s.dvdcol = f.lf s'.dvdcol := by
  have ld (g : Slot → Int) (l : List Slot) : ∀ w ∈ l.map (fun x => f.ld (g x)), ∀ c ∈ w, c ≠ ' ' ∧ c ≠ '\n' := by
    intro w hw
    obtain ⟨x, _, rfl⟩ := List.mem_map.mp hw
    exact hf.ld_chars _
  have lf (g : Slot → ℚ) (l : List Slot) : ∀ w ∈ l.map (fun x => f.lf (g x)), ∀ c ∈ w, c ≠ ' ' ∧ c ≠ '\n' := by
    intro w hw
    obtain ⟨x, _, rfl⟩ := List.mem_map.mp hw
    exact hf.lf_chars _
  unfold objectLines at h
  dsimp only at h
  simp only [List.flatten_cons] at h
  obtain ⟨a1, h⟩ := numberLine_inj (by decide) (fun c hc => (hf.ld_chars _ c hc).2) (fun c hc => (hf.ld_chars _ c hc).2) h
  obtain ⟨a2, h⟩ := numberLine_inj (by decide) (fun c hc => (hf.ld_chars _ c hc).2) (fun c hc => (hf.ld_chars _ c hc).2) h
  obtain ⟨b1, h⟩ := valueLine_inj (by decide) (ld _ _) (ld _ _) h
  obtain ⟨b2, h⟩ := valueLine_inj (by decide) (ld _ _) (ld _ _) h
  obtain ⟨b3, h⟩ := valueLine_inj (by decide) (lf _ _) (lf _ _) h
  obtain ⟨b4, h⟩ := valueLine_inj (by decide) (lf _ _) (lf _ _) h
  obtain ⟨b5, h⟩ := valueLine_inj (by decide) (ld _ _) (ld _ _) h
  obtain ⟨b6, h⟩ := valueLine_inj (by decide) (ld _ _) (ld _ _) h
  obtain ⟨b7, h⟩ := valueLine_inj (by decide) (lf _ _) (lf _ _) h
  obtain ⟨b8, h⟩ := valueLine_inj (by decide) (lf _ _) (lf _ _) h
  obtain ⟨b9, h⟩ := valueLine_inj (by decide) (lf _ _) (lf _ _) h
  obtain ⟨b10, h⟩ := valueLine_inj (by decide) (lf _ _) (lf _ _) h
  obtain ⟨b11, h⟩ := valueLine_inj (by decide) (lf _ _) (lf _ _) h
  obtain ⟨b12, h⟩ := valueLine_inj (by decide) (lf _ _) (lf _ _) h
  have hn := hf.ld_inj _ _ a1
  refine ⟨hn, hf.ld_inj _ _ a2, fun k s s' hk hs hs' => ?_⟩
  have at_ {g : Slot → List Char} (hb : (r.slots.take r.ncutout.toNat).map g = (r'.slots.take r'.ncutout.toNat).map g) : g s = g s' := by
    have := congrArg (fun l => l[k]?) hb
    simp only [List.getElem?_map, List.getElem?_take] at this
    rw [if_pos (by omega), if_pos (by omega), hs, hs'] at this
    simpa using this
  exact ⟨hf.ld_inj _ _ (at_ b1), hf.ld_inj _ _ (at_ b2), hf.ld_inj _ _ (at_ b5), hf.ld_inj _ _ (at_ b6), at_ b3, at_ b4, at_ b7, at_ b8, at_ b9, at_ b10, at_ b11, at_ b12⟩

/-! ### The metadata -/

/-- The strings that are printed without looking whether they are there. -/
def needed : List String := ["cat_file", "coadd_file", "coadd_srclist", "cutout_file", "DESDATA"]

theorem pieces_labels : metaPieces.map (fun e => (e.1, e.2.1)) = metaLabels ∧ ∀ e ∈ metaPieces, e.2.2 = false → e.1 ∈ needed := by decide +kernel

theorem readEntries_length {t : MetaTable} : ∀ {es : List (String × Kind)} {st : Bool} {vs : List Value}, readEntries t es st = .ok vs → vs.length = es.length
  | [], _, _, h => by
    unfold readEntries at h
    injection h with h
    rw [← h]
    rfl
  | e :: es, st, vs, h => by
    unfold readEntries at h
    obtain ⟨r, _, h⟩ := Res.bind_eq_ok.mp h
    obtain ⟨rest, h2, h⟩ := Res.bind_eq_ok.mp h
    injection h with h
    rw [← h, List.length_cons, List.length_cons, readEntries_length h2]

theorem lookup_zip {α β : Type} [BEq α] [LawfulBEq α] {a : α} : ∀ {l : List α} {vs : List β}, vs.length = l.length → a ∈ l → ∃ v, (l.zip vs).lookup a = some v
  | [], _, _, h => by cases h
  | x :: l, [], hl, _ => by cases hl
  | x :: l, v :: vs, hl, h => by
    rw [List.zip_cons_cons, List.lookup_cons]
    split
    · exact ⟨v, rfl⟩
    · rename_i hx
      refine lookup_zip (by simpa using hl) ((List.mem_cons.mp h).resolve_left ?_)
      intro he
      rw [he] at hx
      simp at hx

theorem metaField_some {t : MetaTable} {vs : List Value} (h : readMeta t = .ok vs) {e : String × String × Bool} (he : e ∈ metaPieces) : ∃ v, metaField vs e.1 = some v := by
  have hall : ∀ e ∈ metaPieces, e.1 ∈ metaEntries.map Prod.fst := by decide +kernel
  exact lookup_zip (by rw [readEntries_length h, List.length_map]) (hall e he)

theorem metaPiece_eq {vs : List Value} {e : String × String × Bool} (hs : ∃ v, metaField vs e.1 = some v) (hn : e.2.2 = false → ∃ s, metaField vs e.1 = some (.str (some s))) :
    metaPiece f vs e = .ok (((entryText f (metaField vs e.1)).map (e.2.1.toList ++ · ++ ['\n'])).toList.map fun l => (Stream.err, l)) := by
  obtain ⟨v, hv⟩ := hs
  unfold metaPiece
  rw [hv] at hn ⊢
  cases v with
  | str s =>
    cases s with
    | some s => rfl
    | none =>
      cases hb : e.2.2 with
      | true => rfl
      | false =>
        obtain ⟨s, h⟩ := hn hb
        cases h
  | lng v =>
    dsimp only [entryText]
    split <;> rfl
  | dbl v =>
    dsimp only [entryText]
    split <;> rfl

/-- The metadata of a file that has the five strings: one line per entry with a value, all of them on `stderr`, whatever stream was given. -/
theorem C124_metadata {t : MetaTable} {vs : List Value} (h : readMeta t = .ok vs) (hn : ∀ name ∈ needed, ∃ s, metaField vs name = some (.str (some s))) :
    ∃ out, metaPrint f vs st = .ok out ∧ textOn .err out = (metaLines f vs).flatten ∧ ∀ s, s ≠ .err → textOn s out = [] := by
  have hp : mapRes (metaPiece f vs) metaPieces = .ok (metaPieces.map fun e => ((entryText f (metaField vs e.1)).map (e.2.1.toList ++ · ++ ['\n'])).toList.map fun l => (Stream.err, l)) := by
    rw [← mapRes_ok_map]
    exact mapRes_congr fun e he => metaPiece_eq (metaField_some h he) fun hf => hn _ (pieces_labels.2 e he hf)
  have herr : ∀ p ∈ (metaPieces.map fun e => ((entryText f (metaField vs e.1)).map (e.2.1.toList ++ · ++ ['\n'])).toList.map fun l => (Stream.err, l)).flatten, p.1 = .err := by
    intro p hp
    simp only [List.mem_flatten, List.mem_map] at hp
    obtain ⟨_, ⟨e, _, rfl⟩, hp⟩ := hp
    obtain ⟨l, _, rfl⟩ := List.mem_map.mp hp
    rfl
  refine ⟨_, by unfold metaPrint; rw [hp]; rfl, ?_, fun s hs => textOn_none fun p hp => ?_⟩
  · rw [textOn_all herr]
    unfold metaLines
    rw [← pieces_labels.1, List.filterMap_map]
    generalize metaPieces = l
    induction l with
    | nil => rfl
    | cons e l ih =>
      rw [List.map_cons, List.flatten_cons, List.map_append, List.flatten_append, ih, List.filterMap_cons]
      dsimp only [Function.comp_def]
      cases entryText f (metaField vs e.1) with
      | none => rfl
      | some w => simp
  · rw [herr p hp]
    exact hs.symm

/-- The full claim about `meds_print`: all of it, in order, on the stream given, and nothing elsewhere. -/
def PrintsThere (f : Fmt) (path : String) (h : Handle) (vs : List Value) (st : Stream) : Prop :=
  ∃ out, medsPrint f (some (path, h, vs)) st = .ok out ∧ textOn st out = (headLines f path h.cat.length h.info.length ++ metaLines f vs).flatten ∧ ∀ s, s ≠ st → textOn s out = []

theorem medsPrint_eq {path : String} {h : Handle} {t : MetaTable} {vs : List Value} (hr : readMeta t = .ok vs) (hn : ∀ name ∈ needed, ∃ s, metaField vs name = some (.str (some s))) :
    ∃ out, medsPrint f (some (path, h, vs)) st = .ok ((headLines f path h.cat.length h.info.length).map (fun l => (st, l)) ++ out) ∧ textOn .err out = (metaLines f vs).flatten ∧ ∀ s, s ≠ .err → textOn s out = [] := by
  obtain ⟨out, e1, e2, e3⟩ := C124_metadata (f := f) (st := st) hr hn
  refine ⟨out, ?_, e2, e3⟩
  unfold medsPrint
  dsimp only
  rw [e1]
  rfl

theorem head_text {ls : List (List Char)} {s : Stream} : textOn s (ls.map fun l => (st, l)) = if s = st then ls.flatten else [] := by
  split
  · rename_i he
    subst he
    rw [textOn_all (by intro p hp; obtain ⟨l, _, rfl⟩ := List.mem_map.mp hp; rfl), List.map_map]
    simp [Function.comp_def]
  · rename_i he
    refine textOn_none fun p hp => ?_
    obtain ⟨l, _, rfl⟩ := List.mem_map.mp hp
    exact fun h => he h.symm

/-- The full claim holds if the stream given is `stderr`.  Missing: other streams, see `C124_print`. -/
theorem C124_print_partial {path : String} {h : Handle} {t : MetaTable} {vs : List Value} (hr : readMeta t = .ok vs) (hn : ∀ name ∈ needed, ∃ s, metaField vs name = some (.str (some s))) :
    PrintsThere f path h vs .err := by
  obtain ⟨out, e1, e2, e3⟩ := medsPrint_eq (f := f) (st := .err) (path := path) (h := h) hr hn
  refine ⟨_, e1, ?_, fun s hs => ?_⟩
  · rw [textOn_append, head_text, if_pos rfl, e2, List.flatten_append]
  · rw [textOn_append, head_text, if_neg hs, e3 s hs]
    rfl

/-- On any other stream only the first five lines arrive, the last being the heading of the metadata; the metadata go to `stderr`. -/
theorem C124_print {path : String} {h : Handle} {t : MetaTable} {vs : List Value} (hst : st ≠ .err) (hr : readMeta t = .ok vs) (hn : ∀ name ∈ needed, ∃ s, metaField vs name = some (.str (some s))) :
    ∃ out, medsPrint f (some (path, h, vs)) st = .ok out ∧ textOn st out = (headLines f path h.cat.length h.info.length).flatten ∧ textOn .err out = (metaLines f vs).flatten ∧
      ∀ s, s ≠ st → s ≠ .err → textOn s out = [] := by
  obtain ⟨out, e1, e2, e3⟩ := medsPrint_eq (f := f) (st := st) (path := path) (h := h) hr hn
  refine ⟨_, e1, ?_, ?_, fun s hs he => ?_⟩
  · rw [textOn_append, head_text, if_pos rfl, e3 st hst, List.append_nil]
  · rw [textOn_append, head_text, if_neg hst.symm, e2]
    rfl
  · rw [textOn_append, head_text, if_neg hs, e3 s he]
    rfl

/-- If one of the five strings is not in the file, as in files made by `MEDSMaker` with metadata of the user's choice, `NULL` is printed with `%s`: undefined. -/
theorem C124_null {vs : List Value} {name : String} (hn : name ∈ needed) (h : metaField vs name = some (.str none)) : ∃ e, metaPrint f vs st = .error e := by
  have hall : ∀ name ∈ needed, ∃ e ∈ metaPieces, e.1 = name ∧ e.2.2 = false := by decide +kernel
  obtain ⟨e, he, rfl, hb⟩ := hall name hn
  have hp : metaPiece f vs e = .error .unmodelled := by
    unfold metaPiece
    rw [h]
    dsimp only
    rw [hb]
    rfl
  unfold metaPrint
  cases hm : mapRes (metaPiece f vs) metaPieces with
  | error x => exact ⟨x, rfl⟩
  | ok ys =>
    obtain ⟨i, hi⟩ := List.mem_iff_getElem?.mp he
    obtain ⟨y, _, hy⟩ := mapRes_getElem? hm hi
    rw [hp] at hy
    cases hy

/-- Nothing at all is printed exactly for a `NULL` pointer: of an open file there is at least the head, or the call is undefined. -/
theorem C124_nothing (m : Option (String × Handle × List Value)) : medsPrint f m st = .ok [] ↔ m = none := by
  cases m with
  | none => exact iff_of_true rfl rfl
  | some m =>
    refine iff_of_false (fun h => ?_) (by simp)
    obtain ⟨path, hd, vs⟩ := m
    unfold medsPrint at h
    obtain ⟨p, _, hp⟩ := Res.bind_eq_ok.mp h
    simp at hp

/-! ### Source images and distortions -/

/-- **C124** `meds_image_info_print` writes five lines to its stream and nothing elsewhere: the paths of image, background and segmentation map, zero point and scale.  `wcs_path`, `id` and `flags`
are not printed. -/
theorem C124_image_info (i : ImageInfo) : textOn st (imageInfoPrint f i st) =
      "image_path: ".toList ++ i.imagePath ++ "\nsky_path:   ".toList ++ i.skyPath ++ "\nseg_path:   ".toList ++ i.segPath ++ "\nmagzp:      ".toList ++ f.lf i.magzp ++
        "\nscale:      ".toList ++ f.lf i.scale ++ ['\n'] ∧
    ∀ s, s ≠ st → textOn s (imageInfoPrint f i st) = [] := by
  have h : ∀ p ∈ imageInfoPrint f i st, p.1 = st := by simp [imageInfoPrint]
  refine ⟨?_, fun s hs => textOn_none fun p hp => by rw [h p hp]; exact hs.symm⟩
  rw [textOn_all h]
  simp [imageInfoPrint]

/-- **C124** Nothing that is printed of a source image is ambiguous, if its paths have no line ends. -/
theorem C124_image_info_nothing_lost (hf : GoodFmt f) {i i' : ImageInfo} (hi : ∀ p ∈ [i.imagePath, i.skyPath, i.segPath, i'.imagePath, i'.skyPath, i'.segPath], '\n' ∉ p)
    (h : textOn st (imageInfoPrint f i st) = textOn st (imageInfoPrint f i' st)) :
    i.imagePath = i'.imagePath ∧ i.skyPath = i'.skyPath ∧ i.segPath = i'.segPath ∧ f.lf i.magzp = f.lf i'.magzp ∧ f.lf i.scale = f.lf i'.scale := by
  have hall : ∀ j : ImageInfo, textOn st (imageInfoPrint f j st) = ("image_path: ".toList ++ j.imagePath) ++ '\n' :: (("sky_path:   ".toList ++ j.skyPath) ++ '\n' ::
      (("seg_path:   ".toList ++ j.segPath) ++ '\n' :: (("magzp:      ".toList ++ f.lf j.magzp) ++ '\n' :: (("scale:      ".toList ++ f.lf j.scale) ++ '\n' :: [])))) := by
    intro j
    rw [(C124_image_info j).1]
    simp
  rw [hall, hall] at h
  have hl : ∀ (a b : List Char), '\n' ∉ a → '\n' ∉ b → ∀ c ∈ a ++ b, c ≠ '\n' := by
    intro a b h1 h2 c hc e
    subst e
    exact (List.mem_append.mp hc).elim h1 h2
  have hnum : ∀ q, '\n' ∉ f.lf q := fun q hq => (hf.lf_chars q _ hq).2 rfl
  simp only [List.forall_mem_cons, List.not_mem_nil, false_imp_iff, implies_true, and_true] at hi
  obtain ⟨h1, h2, h3, h1', h2', h3'⟩ := hi
  obtain ⟨e1, h⟩ := line_inj (hl _ _ (by decide) h1) (hl _ _ (by decide) h1') h
  obtain ⟨e2, h⟩ := line_inj (hl _ _ (by decide) h2) (hl _ _ (by decide) h2') h
  obtain ⟨e3, h⟩ := line_inj (hl _ _ (by decide) h3) (hl _ _ (by decide) h3') h
  obtain ⟨e4, h⟩ := line_inj (hl _ _ (by decide) (hnum _)) (hl _ _ (by decide) (hnum _)) h
  obtain ⟨e5, _⟩ := line_inj (hl _ _ (by decide) (hnum _)) (hl _ _ (by decide) (hnum _)) h
  exact ⟨List.append_cancel_left e1, List.append_cancel_left e2, List.append_cancel_left e3, List.append_cancel_left e4, List.append_cancel_left e5⟩

/-- **C124** `meds_distort_print` writes one line to its stream and nothing elsewhere, with the four derivatives; from the line one can tell each as it is written. -/
theorem C124_distort {g : ℚ → List Char} (hg : ∀ q, ∀ c ∈ g q, c ≠ ' ' ∧ c ≠ '\n') (d : Distort) :
    (∃ line, textOn st (distortPrint g d st) = line ++ ['\n'] ∧ '\n' ∉ line) ∧ (∀ s, s ≠ st → textOn s (distortPrint g d st) = []) ∧
    ∀ d', textOn st (distortPrint g d st) = textOn st (distortPrint g d' st) →
      g d.dudrow = g d'.dudrow ∧ g d.dudcol = g d'.dudcol ∧ g d.dvdrow = g d'.dvdrow ∧ g d.dvdcol = g d'.dvdcol := by
  have hall : ∀ d, textOn st (distortPrint g d st) = g d.dudrow ++ ' ' :: (g d.dudcol ++ ' ' :: (g d.dvdrow ++ ' ' :: (g d.dvdcol ++ ['\n']))) := by
    intro d
    simp [distortPrint, textOn]
  have hn : ∀ q, '\n' ∉ g q := fun q hq => (hg q _ hq).2 rfl
  refine ⟨⟨g d.dudrow ++ ' ' :: (g d.dudcol ++ ' ' :: (g d.dvdrow ++ ' ' :: g d.dvdcol)), by rw [hall]; simp, by simp [hn]⟩, ?_, ?_⟩
  · intro s hs
    exact textOn_none (by simp [distortPrint, hs.symm])
  · intro d' h
    rw [hall, hall] at h
    have hw : ∀ q, ∀ c ∈ g q, c ≠ ' ' := fun q c hc => (hg q c hc).1
    have hb : ∀ t : List Char, ∀ c, (' ' :: t).head? = some c → c = ' ' := fun t c hc => by simpa using hc.symm
    obtain ⟨e1, h⟩ := word_inj (hw _) (hw _) (hb _) (hb _) h
    injection h with _ h
    obtain ⟨e2, h⟩ := word_inj (hw _) (hw _) (hb _) (hb _) h
    injection h with _ h
    obtain ⟨e3, h⟩ := word_inj (hw _) (hw _) (hb _) (hb _) h
    injection h with _ h
    exact ⟨e1, e2, e3, List.append_cancel_right h⟩

/-! ### Examples -/

namespace ExPrint

/-- Numbers as Lean writes them; doubles by their integral part. -/
def fmt : Fmt := ⟨fun v => (toString v).toList, fun v => (toString v.floor).toList⟩

def vs : List Value :=
  [.str (some "cat".toList), .str (some "co".toList), .str (some "src".toList), .str (some "cut".toList), .dbl 30, .str (some "d".toList), .lng 2, .lng 4,
   .lng 3, .lng 2, .lng 2, .lng 2, .lng 3, .lng 2, .lng 0, .str (some "cc".toList), .str (some "y1".toList), .lng 32, .lng 256]

theorem vs_read : readMeta exMeta = .ok vs := by decide +kernel

/-- Is the entry a string that is there? -/
def isString : Option Value → Bool
  | some (.str (some _)) => true
  | _ => false

theorem isString_some {x : Option Value} (h : isString x = true) : ∃ s, x = some (.str (some s)) := by
  unfold isString at h
  split at h
  · exact ⟨_, rfl⟩
  · cases h

theorem vs_strings : needed.all (fun n => isString (metaField vs n)) = true := by decide +kernel

theorem vs_needed (name : String) (hn : name ∈ needed) : ∃ s, metaField vs name = some (.str (some s)) := by
  have h := vs_strings
  generalize vs = l at h ⊢
  exact isString_some (List.all_eq_true.mp h name hn)

/-- Numbers in strokes. -/
def strokes : Fmt := ⟨fun v => (if 0 ≤ v then '+' else '-') :: List.replicate v.natAbs '1', fun v => (if 0 ≤ v then '+' else '-') :: List.replicate v.floor.natAbs '1'⟩

/-- The hypothesis of `C124_nothing_lost`. -/
example : GoodFmt strokes where
  ld_chars := by
    intro v c hc
    simp only [strokes, List.mem_cons] at hc
    rcases hc with rfl | hc
    · split <;> decide
    · rw [List.eq_of_mem_replicate hc]; decide
  lf_chars := by
    intro v c hc
    simp only [strokes, List.mem_cons] at hc
    rcases hc with rfl | hc
    · split <;> decide
    · rw [List.eq_of_mem_replicate hc]; decide
  ld_inj := by
    intro v w h
    simp only [strokes, List.cons.injEq] at h
    have h2 := congrArg List.length h.2
    simp only [List.length_replicate] at h2
    have h1 := h.1
    split at h1 <;> split at h1
    · omega
    · exact absurd h1 (by decide)
    · exact absurd h1 (by decide)
    · omega

/-- **C124 (counterexample)** `meds_print(m, stdout)`: the metadata are not on the standard output. -/
theorem C124_counterexample : ∃ (f : Fmt) (h : Handle) (t : MetaTable) (vs : List Value), readMeta t = .ok vs ∧ (∀ name ∈ needed, ∃ s, metaField vs name = some (.str (some s))) ∧
    ¬ PrintsThere f "a.fits" h vs .out := by
  refine ⟨fmt, ⟨⟨[]⟩, [], []⟩, exMeta, vs, vs_read, vs_needed, ?_⟩
  rintro ⟨out, h1, h2, h3⟩
  obtain ⟨out', e1, e2, e3, _⟩ := C124_print (f := fmt) (st := .out) (path := "a.fits") (h := ⟨⟨[]⟩, [], []⟩) (by decide) vs_read vs_needed
  rw [h1] at e1
  injection e1 with e1
  subst e1
  rw [h3 .err (by decide)] at e3
  revert e3
  decide +kernel

/-- The printed text of a small object. -/
example : (match objPrint fmt ⟨1, 4, [{ Slot.dflt with fileId := 3, startRow := 16, origRow := 10 }, Slot.dflt]⟩ (.file 2) with
    | .ok o => String.ofList ((textOn (.file 2) o).take 79)
    | .error _ => "") = "ncutout        : 1\nbox_size       : 4\nfile_id        :  3\nstart_row      :  16\n" := by decide +kernel

/-- An object of the file that `C41_counterexample` is about, which meets the hypotheses of `C124_object`. -/
example : (match (do let h ← medsOpen exCols exFile; let o ← getObj h 0; objPrint fmt o .out) with
    | .ok o => String.ofList ((textOn .out o).take 82)
    | .error _ => "") = "ncutout        : 2\nbox_size       : 2\nfile_id        :  0 0\nstart_row      :  0 4\n" := by decide +kernel

/-- Nothing is printed of a file that could not be opened. -/
example : medsPrint fmt none .out = .ok [] := rfl

/-- A file without the column `cat_file`. -/
example : (readMeta [("magzp_ref", .num 30)]).toOption.bind (fun vs => metaField vs "cat_file") = some (.str none) := by decide +kernel

/-- A source image. -/
def info : ImageInfo := ⟨"a.fits".toList, "w.fits".toList, "b.fits".toList, "s.fits".toList, 30, 1⟩

example : String.ofList (textOn .out (imageInfoPrint ⟨fun v => (toString v).toList, fun v => (toString v.num).toList⟩ info .out)) =
    "image_path: a.fits\nsky_path:   b.fits\nseg_path:   s.fits\nmagzp:      30\nscale:      1\n" := by decide +kernel

example : String.ofList (textOn .err (distortPrint (fun v => (toString v.num).toList) ⟨1, 0, -2, 3⟩ .err)) = "1 0 -2 3\n" := by decide +kernel

end ExPrint

end Meds.CPrint
