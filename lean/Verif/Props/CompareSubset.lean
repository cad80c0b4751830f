import Verif.Props.CompareScript
import Verif.Props.RangeTotal
import Verif.Props.NumberExtract
import Verif.Props.RoundTrip
import Verif.Props.CopyAll

/-!
# Comparing a file with its subsets (C93)
-/

namespace Meds.Compare
open Spec Extract

theorem exists_matches {m1 m2 : MEDS} {name : String} (hd : KeysDiffer m1 name) {i1 i2 : Nat} {v : Int} (q1 : KeyIs m1 name i1 v) (q2 : KeyIs m2 name i2 v) :
    ∃ l, Matches m1 m2 name l ∧ l ≠ [] := by
  obtain ⟨k1, e1⟩ := idColumn_of_key q1
  obtain ⟨k2, e2⟩ := idColumn_of_key q2
  have n1 := (idColumn_iff e1).mp q1
  have n2 := (idColumn_iff e2).mp q2
  have hnd : (m1.cat.rows.map k1).Nodup := by
    rw [List.nodup_iff_injective_getElem]
    rintro ⟨i, hi⟩ ⟨j, hj⟩ e
    have := hd i j _ ((idColumn_iff e1).mpr (List.getElem?_eq_getElem hi)) ((idColumn_iff e1).mpr (by rw [List.getElem?_eq_getElem hj]; exact congrArg some e.symm))
    exact Fin.ext this
  have hm : ∃ l', matchIds (m1.cat.rows.map k1) (m2.cat.rows.map k2) = .ok l' := by
    unfold matchIds
    rw [if_neg, if_neg (by rw [not_not]; exact hnd)]
    · exact ⟨_, rfl⟩
    · rintro (h | h)
      · rw [h] at n1; simp at n1
      · rw [h] at n2; simp at n2
  obtain ⟨l', hm⟩ := hm
  refine ⟨l', ⟨matchIds_sorted hm, fun a b => ?_⟩, List.ne_nil_of_mem ((mem_matchIds hm (i1 := i1) (i2 := i2)).mpr ⟨v, n1, n2⟩)⟩
  rw [mem_matchIds hm]
  simp only [idColumn_iff e1, idColumn_iff e2]

/-- `mg` holds some of the objects of `m`, object `i` being `inds[i]` there. -/
structure SubsetOf (m mg : MEDS) (inds : List Nat) : Prop where
  dtype : mg.cat.dtype = m.cat.dtype
  len : inds.length = mg.size
  nodup : inds.Nodup
  same : ∀ i j : Nat, inds[i]? = some j → SameView ["image", "weight", "seg", "bmask"] mg i m j ∧
    ∃ o o', m.cat.rows[j]? = some o ∧ mg.cat.rows[i]? = some o' ∧ SameButStarts o o'

section
variable {m mg : MEDS} {inds : List Nat} (S : SubsetOf m mg inds)
include S

theorem SubsetOf.get {i : Nat} (hi : i < mg.size) : ∃ j, inds[i]? = some j := ⟨inds[i]'(by rw [S.len]; exact hi), List.getElem?_eq_getElem _⟩

theorem SubsetOf.key {name : String} {i j : Nat} {v : Int} (hij : inds[i]? = some j) : KeyIs mg name i v ↔ KeyIs m name j v := by
  obtain ⟨_, o, o', r1, r2, ss, e, _⟩ := S.same i j hij
  unfold KeyIs
  rw [r1, r2, S.dtype]
  subst e
  simp

theorem SubsetOf.ncutout {i j : Nat} {n : Int} (hij : inds[i]? = some j) : HasNcutout mg i n ↔ HasNcutout m j n := by
  obtain ⟨_, o, o', r1, r2, ss, e, _⟩ := S.same i j hij
  unfold HasNcutout
  rw [r1, r2]
  subst e
  simp

theorem SubsetOf.keysDiffer {name : String} (h : KeysDiffer m name) : KeysDiffer mg name := by
  intro i i' v hi hi'
  have hb : ∀ {i v}, KeyIs mg name i v → i < mg.size := fun ⟨o, e, _⟩ => (List.getElem?_eq_some_iff.mp e).1
  obtain ⟨j, hj⟩ := S.get (hb hi)
  obtain ⟨j', hj'⟩ := S.get (hb hi')
  have := h j j' v ((S.key hj).mp hi) ((S.key hj').mp hi')
  subst this
  by_contra hne
  have l1 := (List.getElem?_eq_some_iff.mp hj).1
  have l2 := (List.getElem?_eq_some_iff.mp hj').1
  rcases Nat.lt_or_gt_of_ne hne with h | h
  · exact (List.nodup_iff_getElem?_ne_getElem?.mp S.nodup) i i' h l2 (by rw [hj, hj'])
  · exact (List.nodup_iff_getElem?_ne_getElem?.mp S.nodup) i' i h l1 (by rw [hj, hj'])

end

/-- What a file needs to pass the comparison with itself. -/
def _root_.Meds.Spec.Sound (m : MEDS) (name : String) : Prop :=
  KeysDiffer m name ∧ (∀ i < m.size, ∃ v, KeyIs m name i v) ∧
    ∀ t ∈ ["image", "weight", "bmask", "seg"], ∀ i n, HasNcutout m i n → ∀ k : Nat, (k : Int) < n → ∃ im, m.getCutout i k t = .ok im

section
variable {m mg : MEDS} {inds : List Nat} {a : Args} {draw : String → Nat → Nat → List Nat}

theorem SubsetOf.planes {t : String} (S : SubsetOf m mg inds) (hs : Spec.Sound m a.idName) (ht : t ∈ ["image", "weight", "bmask", "seg"]) {same : Bool} {i j : Nat} {v : Int}
    (h1 : KeyIs m a.idName j v) (h2 : KeyIs mg a.idName i v) : PlaneAgrees same t m mg (j, i) ∧ PlaneAgrees same t mg m (i, j) := by
  have hi : i < mg.size := by obtain ⟨o, e, _⟩ := h2; exact (List.getElem?_eq_some_iff.mp e).1
  obtain ⟨j', hj'⟩ := S.get hi
  have := hs.1 j j' v h1 ((S.key hj').mp h2)
  subst this
  obtain ⟨v', _⟩ := S.same i j hj'
  obtain ⟨o, e, _⟩ := h1
  have n1 : HasNcutout m j o.ncutout := ⟨o, e, rfl⟩
  have n2 : HasNcutout mg i o.ncutout := (S.ncutout hj').mpr n1
  have ht' : t ∈ ["image", "weight", "seg", "bmask"] := by revert ht; simp only [List.mem_cons, List.not_mem_nil, or_false]; tauto
  constructor
  · refine ⟨_, _, n1, n2, fun _ => rfl, fun k hk _ => ?_⟩
    obtain ⟨im, him⟩ := hs.2.2 t ht j _ n1 k hk
    exact ⟨im, im, him, by rw [v'.cutout t ht' k]; exact him, rfl, rfl, fun _ => rfl⟩
  · refine ⟨_, _, n2, n1, fun _ => rfl, fun k hk _ => ?_⟩
    obtain ⟨im, him⟩ := hs.2.2 t ht j _ n1 k hk
    exact ⟨im, im, by rw [v'.cutout t ht' k]; exact him, him, rfl, rfl, fun _ => rfl⟩

theorem SubsetOf.passes (S : SubsetOf m mg inds) (hs : Spec.Sound m a.idName) (hne : 0 < mg.size) (hp : a.png = none) :
    Spec.Passes m mg a draw ∧ Spec.Passes mg m a draw := by
  obtain ⟨j, hj⟩ := S.get hne
  have hjm : j < m.size := by
    obtain ⟨_, o, _, r1, _⟩ := S.same 0 j hj
    exact (List.getElem?_eq_some_iff.mp r1).1
  obtain ⟨v, hv⟩ := hs.2.1 j hjm
  have hv' := (S.key hj).mpr hv
  constructor
  · obtain ⟨l, hl, hl'⟩ := exists_matches hs.1 hv hv'
    refine ⟨⟨by rw [S.dtype], by rw [S.dtype], by rw [S.dtype]⟩, hs.1, l, hl, hl', ?_, fun h => absurd hp h⟩
    rintro t ht k _ ⟨i1, i2⟩ hk
    obtain ⟨v, q1, q2⟩ := (hl.2 i1 i2).mp (List.mem_of_getElem? hk)
    exact (S.planes hs ht q1 q2).1
  · obtain ⟨l, hl, hl'⟩ := exists_matches (S.keysDiffer hs.1) hv' hv
    refine ⟨⟨by rw [S.dtype], by rw [S.dtype], by rw [S.dtype]⟩, S.keysDiffer hs.1, l, hl, hl', ?_, fun h => absurd hp h⟩
    rintro t ht k _ ⟨i1, i2⟩ hk
    obtain ⟨v, q1, q2⟩ := (hl.2 i1 i2).mp (List.mem_of_getElem? hk)
    exact (S.planes hs ht q2 q1).2

variable {f g : Fits} (hd : Spec.DrawsBelow draw) (hp : a.png = none) (ho : MEDS.openFile f = .ok m) (hs : Spec.Sound m a.idName)
include hd hp ho hs

/-- **C93** `meds-compare` finds no difference between a file and a range of objects extracted from it, whichever comes first on the command line. -/
theorem C93_range {x y : Int} {copyAll : Bool} (hord : CutoutsInOrder m.cat.rows) (hpsf : f.has "psf" = true → PsfInOrder m.cat)
    (hx : extractRange f x y copyAll = .ok g) (hin : x < m.size) :
    compareMain (some f) (some g) a draw = 0 ∧ compareMain (some g) (some f) a draw = 0 := by
  obtain ⟨mg, h1, h2, _, _, h5, h6, h7, h8⟩ := C18_range_preserves_objects ho hord hpsf hx
  have S : SubsetOf m mg ((List.range mg.size).map (x.toNat + ·)) := by
    refine ⟨h2, by simp, ?_, ?_⟩
    · exact (List.nodup_range).map (fun i j h => by simpa using h)
    · intro i j hij
      rw [List.getElem?_map, Option.map_eq_some_iff] at hij
      obtain ⟨i', hi', rfl⟩ := hij
      obtain ⟨hl, e⟩ := List.getElem?_eq_some_iff.mp hi'
      rw [List.getElem_range] at e
      subst e
      rw [List.length_range] at hl
      obtain ⟨v, r⟩ := h8 i hl
      exact ⟨⟨fun t ht => v.cutout t (by revert ht; simp only [List.mem_cons, List.not_mem_nil, or_false]; tauto),
        fun t ht => v.mosaic t (by revert ht; simp only [List.mem_cons, List.not_mem_nil, or_false]; tauto),
        fun t ht => v.list t (by revert ht; simp only [List.mem_cons, List.not_mem_nil, or_false]; tauto),
        v.psf, v.psfList, v.source, v.path, v.rowcol, v.jacobian, v.matrix⟩, r⟩
  obtain ⟨p1, p2⟩ := S.passes (a := a) (draw := draw) hs (by omega) hp
  exact ⟨(C92_status_partial hd).mpr ⟨f, g, m, mg, rfl, rfl, ho, h1, p1⟩, (C92_status_partial hd).mpr ⟨g, f, mg, m, rfl, rfl, h1, ho, p2⟩⟩

/-- **C93** Nor between a file and objects extracted by their numbers. -/
theorem C93_numbers {sorts : Bool} {numbers : List Int} (hst : CutoutsTogether f m.cat.rows) (hpsf : f.has "psf" = true → PsfTogether f m.cat)
    (hx : extractNumbers sorts f numbers = .ok g) (hin : numbers ≠ []) :
    compareMain (some f) (some g) a draw = 0 ∧ compareMain (some g) (some f) a draw = 0 := by
  obtain ⟨mg, inds, h1, h2, _, _, h5, h6, h7, _, h8, _⟩ := C21_numbers_preserve_objects ho hst hpsf hx
  have S : SubsetOf m mg inds := ⟨h2, h6, h7, h8⟩
  obtain ⟨p1, p2⟩ := S.passes (a := a) (draw := draw) hs (by rw [h5]; exact List.length_pos_iff.mpr hin) hp
  exact ⟨(C92_status_partial hd).mpr ⟨f, g, m, mg, rfl, rfl, ho, h1, p1⟩, (C92_status_partial hd).mpr ⟨g, f, mg, m, rfl, rfl, h1, ho, p2⟩⟩

/-- **C93** Nor between a file and itself. -/
theorem C93_self (hne : 0 < m.size) : compareMain (some f) (some f) a draw = 0 := by
  have S : SubsetOf m m (List.range m.size) := by
    refine ⟨rfl, by simp, List.nodup_range, ?_⟩
    intro i j hij
    obtain ⟨hl, e⟩ := List.getElem?_eq_some_iff.mp hij
    rw [List.getElem_range] at e
    subst e
    rw [List.length_range] at hl
    refine ⟨⟨fun _ _ _ => rfl, fun _ _ => rfl, fun _ _ => rfl, fun _ => rfl, rfl, fun _ => rfl, fun _ => rfl, fun _ => rfl, fun _ => rfl, fun _ => rfl⟩,
      m.cat.rows[i]'hl, m.cat.rows[i]'hl, List.getElem?_eq_getElem hl, List.getElem?_eq_getElem hl, _, rfl, ?_⟩
    exact List.forall₂_same.mpr (fun _ _ => rfl)
  exact (C92_status_partial hd).mpr ⟨f, f, m, m, rfl, rfl, ho, ho, (S.passes (a := a) (draw := draw) hs hne hp).1⟩

end

/-- **C93 (hypotheses)** Files written by the maker are sound, when the types compared were asked for, the ids of the input differ and its box sizes are positive. -/
theorem C93_written_sound {cfg : MakerCfg} {hn : Bool} {objs : List Maker.InputObj} {images : List SrcImage} {psf : Option (List PsfModel)}
    {psfInfo : Option String} {md : String} {mk mk' : Maker} {f : Fits} {m : MEDS} (hi : Maker.init cfg hn objs images psf psfInfo md = .ok mk)
    (hw : mk.write = .ok (mk', f)) (ho : MEDS.openFile f = .ok m) (hty : "weight" ∈ cfg.cutoutTypes ∧ "seg" ∈ cfg.cutoutTypes ∧ "bmask" ∈ cfg.cutoutTypes)
    (hids : (objs.map (·.id)).Nodup) (hbox : ∀ a ∈ objs, 0 < a.boxSize) : Sound m "id" := by
  have hF := C05_catalogue_is_input hi hw ho
  refine ⟨?_, ?_, ?_⟩
  · intro i j v hi hj
    have hk : ∀ {i}, KeyIs m "id" i v → (m.cat.rows.map (·.id))[i]? = some v := fun {i} h => (idColumn_iff (m := m) (name := "id") rfl).mp h
    obtain ⟨l1, e1⟩ := List.getElem?_eq_some_iff.mp (hk hi)
    obtain ⟨l2, e2⟩ := List.getElem?_eq_some_iff.mp (hk hj)
    have hnd : (m.cat.rows.map (·.id)).Nodup := by
      have : m.cat.rows.map (·.id) = (objs.filter (fun a => kept cfg images a.sky)).map (·.id) := by
        generalize objs.filter (fun a => kept cfg images a.sky) = K at hF
        generalize m.cat.rows = R at hF
        induction hF with
        | nil => rfl
        | cons h _ ih => rw [List.map_cons, List.map_cons, ih, h.1]
      rw [this]
      exact hids.sublist (List.filter_sublist.map _)
    exact (List.Nodup.getElem_inj_iff hnd).mp (e1.trans e2.symm)
  · intro i hi
    exact ⟨_, _, List.getElem?_eq_getElem hi, .inl ⟨rfl, rfl⟩⟩
  · rintro t ht i n ⟨o, e, rfl⟩ k hk
    obtain ⟨_, h4, _⟩ := C04_epochs_are_covering_images hi hw ho e
    obtain ⟨s, j, hs, _⟩ := h4 k hk
    obtain ⟨_, a, ha, _, hb, _⟩ := C08_boxes_even hi hw ho e
    obtain ⟨_, _, c, _, _, hc, _⟩ := C01_cutouts_read_back hi hw ho ⟨e, hk, hs⟩ (by have := hbox a ha; omega) (t := t) (by
      simp only [List.mem_cons, List.not_mem_nil, or_false] at ht
      rcases ht with rfl | rfl | rfl | rfl
      · exact .inl rfl
      · exact .inr hty.1
      · exact .inr hty.2.2
      · exact .inr hty.2.1)
    exact ⟨c, hc⟩

section Examples

theorem sound_example : Sound Ex.med "id" := by
  obtain ⟨mk, mk', h1, h2⟩ := Ex.run_file
  exact C93_written_sound h1 h2 Ex.open_file (by decide) (by decide) (by decide)

-- the second object of the example file taken out, compared in both orders; and both objects by number
example : ∃ g, extractRange Ex.file 1 1 false = .ok g ∧ compareMain (some Ex.file) (some g) args (fun _ _ _ => []) = 0 ∧
    compareMain (some g) (some Ex.file) args (fun _ _ _ => []) = 0 := by
  obtain ⟨g, _, h, _⟩ := Ex.extracted_iff (f := Ex.file) (a := 1) (b := 1) (c := false) (test := fun _ => true) (by decide +kernel)
  exact ⟨g, h, C93_range (fun _ _ _ j hj => by simp at hj) rfl Ex.open_file sound_example Ex.file_in_order (fun _ => Ex.file_psf_in_order) h (by decide +kernel)⟩

end Examples

end Meds.Compare
