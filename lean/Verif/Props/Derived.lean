import Verif.Props.RangeExtract
import Verif.Props.NumberExtract
import Verif.Props.CopyAll
import Verif.Props.RangeTotal
import Verif.Props.Reject
import Verif.Model.Uberseg
import Verif.Model.Coadd
import Verif.Examples.Coadd

/-!
# What is computed from an extracted file (C76, C77)
-/

namespace Meds.Spec
open MEDS

/-- Object `i` of `m` and object `j` of `m'` give the same derived images: composite weights and their mosaics, interpolated seg maps, weights cut by a disc,
and the uberseg weights whichever loop over the pixels is used. -/
structure SameDerived (m : MEDS) (i : Nat) (m' : MEDS) (j : Nat) : Prop where
  cweight : ∀ (k : Nat) (restrict : Bool), m.getCweightCutout i k restrict = m'.getCweightCutout j k restrict
  cweightMosaic : ∀ restrict : Bool, m.getCweightMosaic i restrict = m'.getCweightMosaic j restrict
  cweightList : ∀ restrict : Bool, m.getCweightCutoutList i restrict = m'.getCweightCutoutList j restrict
  interp : ∀ k : Nat, m.interpolateCoaddSeg i k = m'.interpolateCoaddSeg j k
  interpMosaic : m.interpolateCoaddSegMosaic i = m'.interpolateCoaddSegMosaic j
  csegWeight : ∀ (k : Nat) (canonical : Bool), m.getCsegWeight i k canonical = m'.getCsegWeight j k canonical
  uberseg : ∀ loop (k : Nat), getUbersegWith loop m i k = getUbersegWith loop m' j k
  ubersegList : ∀ loop, getUbersegListWith loop m i = getUbersegListWith loop m' j
  jacobians : m.getJacobianList i = m'.getJacobianList j

/-- The composite seg maps, which are filled with the object's number. -/
structure SameCseg (m : MEDS) (i : Nat) (m' : MEDS) (j : Nat) : Prop where
  cseg : ∀ k : Nat, m.getCsegCutout i k = m'.getCsegCutout j k
  csegMosaic : m.getCsegMosaic i = m'.getCsegMosaic j
  csegList : m.getCsegCutoutList i = m'.getCsegCutoutList j

end Meds.Spec

namespace Meds.Derived
open Spec MEDS Extract

variable {types : List String} {m m' : MEDS} {i j : Nat} {o o' : ObjRow}

theorem rows_agree (h : SameButStarts o o') : o'.number = o.number ∧ o'.ncutout = o.ncutout ∧ o'.boxSize = o.boxSize := by
  obtain ⟨ss, rfl, _⟩ := h
  exact ⟨rfl, rfl, rfl⟩

theorem row_ok (h : m.cat.rows[i]? = some o) : m.row (i : Int) = .ok o := pyGet_nat_some h

theorem makeComposite_eq (v : SameView types m i m' j) (k : Nat) (im cs : Img ℚ) (r : Bool) :
    m.makeComposite i k im cs r = m'.makeComposite j k im cs r := by
  unfold makeComposite
  have h0 := v.rowcol 0
  have j0 := v.matrix 0
  simp only [Nat.cast_zero] at h0 j0
  rw [h0, j0, v.rowcol k, v.matrix k]

theorem interpolateImage_eq (v : SameView types m i m' j) (hs : "seg" ∈ types) (jm : Mat2) (cen : Option (ℚ × ℚ)) :
    m.interpolateImage i jm cen = m'.interpolateImage j jm cen := by
  unfold interpolateImage
  have h0 := v.rowcol 0
  have j0 := v.matrix 0
  have c0 := v.cutout _ hs 0
  simp only [Nat.cast_zero] at h0 j0 c0
  rw [h0, j0, c0]

theorem interp_eq (v : SameView types m i m' j) (hs : "seg" ∈ types) (k : Nat) : m.interpolateCoaddSeg i k = m'.interpolateCoaddSeg j k := by
  unfold interpolateCoaddSeg
  have c0 := v.cutout _ hs 0
  simp only [Nat.cast_zero] at c0
  simp only [c0, v.rowcol k, v.matrix k, interpolateImage_eq v hs]

theorem sameDerived (v : SameView types m i m' j) (hw : "weight" ∈ types) (hs : "seg" ∈ types) (hd : m.cat.dtype = m'.cat.dtype)
    (ho : m.cat.rows[i]? = some o) (ho' : m'.cat.rows[j]? = some o') (hn : o.number = o'.number ∧ o.ncutout = o'.ncutout):
    SameDerived m i m' j := by
  have c0 := v.cutout _ hs 0
  simp only [Nat.cast_zero] at c0
  have hnum : m.numberColumn i = m'.numberColumn j := by
    unfold numberColumn
    rw [hd, row_ok ho, row_ok ho']
    simp only [Res.ok_bind, hn.1]
  have hcw : ∀ (k : Nat) (r : Bool), m.getCweightCutout i k r = m'.getCweightCutout j k r := by
    intro k r
    unfold getCweightCutout
    simp only [v.cutout _ hw k, c0, makeComposite_eq v]
  have hcm : ∀ r : Bool, m.getCweightMosaic i r = m'.getCweightMosaic j r := by
    intro r
    unfold getCweightMosaic
    simp only [v.mosaic _ hw, c0, makeComposite_eq v]
  have hu : ∀ loop (k : Nat), getUbersegWith loop m i k = getUbersegWith loop m' j k := by
    intro loop k
    unfold getUbersegWith
    rw [hcw, interp_eq v hs, hnum]
  refine ⟨hcw, hcm, ?_, interp_eq v hs, ?_, ?_, hu, ?_, ?_⟩
  · intro r
    unfold getCweightCutoutList
    rw [hcm]
  · unfold interpolateCoaddSegMosaic
    have : m.interpolatePart (i : Int) = m'.interpolatePart (j : Int) := by
      funext x
      unfold interpolatePart
      rw [interp_eq v hs]
    rw [v.mosaic _ hs, this]
  · intro k c
    unfold getCsegWeight csegCentre
    rw [v.cutout _ hs k, v.cutout _ hw k, hnum, v.rowcol k]
  · intro loop
    unfold getUbersegListWith
    rw [row_ok ho, row_ok ho']
    simp only [Res.ok_bind, hn.2, hu]
  · unfold getJacobianList
    have l1 : i < m.size := (List.getElem?_eq_some_iff.mp ho).1
    have l2 : j < m'.size := (List.getElem?_eq_some_iff.mp ho').1
    have q1 : m.checkIndices i none = m'.checkIndices j none := by
      unfold checkIndices
      rw [if_neg (by omega), if_neg (by omega), row_ok ho, row_ok ho']
      simp only [Res.ok_bind, hn.2]
    rw [q1, row_ok ho, row_ok ho']
    simp only [Res.ok_bind, hn.2, v.jacobian]

theorem sameCseg (v : SameView types m i m' j) (hs : "seg" ∈ types) (hn : m.getNumber i = m'.getNumber j) : SameCseg m i m' j := by
  have c0 := v.cutout _ hs 0
  simp only [Nat.cast_zero] at c0
  have hm : m.getCsegMosaic i = m'.getCsegMosaic j := by
    unfold getCsegMosaic
    simp only [v.mosaic _ hs, c0, hn, makeComposite_eq v]
  refine ⟨?_, hm, ?_⟩
  · intro k
    unfold getCsegCutout
    simp only [v.cutout _ hs k, c0, hn, makeComposite_eq v]
  · unfold getCsegCutoutList
    rw [hm]

/-- **C76** A range extracted from a file stored in catalogue order: everything that is computed from an object's cutouts is the same in the new file; for the
composite seg maps this needs a `number` column. -/
theorem C76_range_partial {f g : Fits} {m : MEDS} {a b : Int} {copyAll : Bool} (ho : MEDS.openFile f = .ok m) (hord : CutoutsInOrder m.cat.rows)
    (hpsf : f.has "psf" = true → PsfInOrder m.cat) (hx : extractRange f a b copyAll = .ok g) :
    ∃ mg, MEDS.openFile g = .ok mg ∧ ∀ i : Nat, i < mg.size →
      SameDerived mg i m (a.toNat + i) ∧ (m.cat.dtype.hasNumber = true → SameCseg mg i m (a.toNat + i)) := by
  obtain ⟨mg, h1, h2, _, _, _, h6, _, h8⟩ := C18_range_preserves_objects ho hord hpsf hx
  refine ⟨mg, h1, ?_⟩
  intro i hi
  obtain ⟨v, o, o', r1, r2, r3⟩ := h8 i hi
  obtain ⟨n1, n2, _⟩ := rows_agree r3
  refine ⟨sameDerived v (by decide) (by decide) h2 r2 r1 ⟨n1, n2⟩, fun hn => sameCseg v (by decide) ?_⟩
  obtain ⟨q, _, q1, q2⟩ := C55_number_kept_partial ho hx h1 hn hi
  rw [q1, ← q2]
  congr 1
  push_cast
  omega

/-- **C76** Objects extracted by number. -/
theorem C76_numbers {sorts : Bool} {f g : Fits} {m : MEDS} {numbers : List Int} (ho : MEDS.openFile f = .ok m)
    (hst : CutoutsTogether f m.cat.rows) (hpsf : f.has "psf" = true → PsfTogether f m.cat) (hx : extractNumbers sorts f numbers = .ok g) :
    ∃ (mg : MEDS) (inds : List Nat), MEDS.openFile g = .ok mg ∧ inds.length = mg.size ∧ inds.Nodup ∧ (mg.cat.rows.map (·.number)).Perm numbers ∧
      ∀ i j : Nat, inds[i]? = some j → SameDerived mg i m j ∧ (m.cat.dtype.hasNumber = true → SameCseg mg i m j) := by
  obtain ⟨mg, inds, h1, h2, _, _, _, h6, h7, h7', h8, _⟩ := C21_numbers_preserve_objects ho hst hpsf hx
  refine ⟨mg, inds, h1, h6, h7, h7', ?_⟩
  intro i j hij
  obtain ⟨v, o, o', r1, r2, r3⟩ := h8 i j hij
  obtain ⟨n1, n2, _⟩ := rows_agree r3
  refine ⟨sameDerived v (by decide) (by decide) h2 r2 r1 ⟨n1, n2⟩, fun hn => sameCseg v (by decide) ?_⟩
  unfold getNumber
  rw [h2, hn, row_ok r1, row_ok r2]
  simp only [if_true, Res.ok_bind, n1]

/-- **C76** is false without a `number` column: the composite seg map of the extracted object is filled with another number. -/
theorem C76_counterexample : ∃ f m g mg, MEDS.openFile f = .ok m ∧ CutoutsInOrder m.cat.rows ∧ extractRange f 1 1 false = .ok g ∧
    MEDS.openFile g = .ok mg ∧ m.getCsegCutout 1 0 = .ok ⟨2, 2, [2, 2, 2, 2]⟩ ∧ mg.getCsegCutout 0 0 = .ok ⟨2, 2, [1, 1, 1, 1]⟩ := by
  obtain ⟨g, mg, h1, h2, h3⟩ := Ex.extracted_iff
    (f := ⟨[("object_data", .objects { Ex.med.cat with dtype := { Ex.med.cat.dtype with hasNumber := false } })] ++ Ex.file.hdus⟩) (a := 1) (b := 1) (c := false)
    (test := fun mg => decide (mg.getCsegCutout 0 0 = .ok ⟨2, 2, [1, 1, 1, 1]⟩)) (by decide +kernel)
  simp only [decide_eq_true_eq] at h3
  refine ⟨_, { Ex.med with cat := { Ex.med.cat with dtype := { Ex.med.cat.dtype with hasNumber := false } }, fits := ⟨[("object_data", .objects { Ex.med.cat with dtype := { Ex.med.cat.dtype with hasNumber := false } })] ++ Ex.file.hdus⟩ },
    g, mg, by decide +kernel, Ex.file_in_order, h1, h2, by decide +kernel, h3⟩

-- the uberseg weight of an epoch, before and after extraction
example : Ex.extracted Ex.segFile 1 1 false (fun mg => decide (getUbersegSlow mg 0 1 = getUbersegSlow Ex.segMed 1 1) &&
    decide ((getUbersegSlow mg 0 1).isOk = true) && decide (mg.getCsegMosaic 0 = Ex.segMed.getCsegMosaic 1)) = true := by decide +kernel

/-! ### Coadds (C77) -/

open Coadd

theorem slot_agree (ho : m.cat.rows[i]? = some o) (ho' : m'.cat.rows[j]? = some o') (h : SameButStarts o o') (k : Nat) :
    (∃ e, m.slot i k = .error e ∧ m'.slot j k = .error e) ∨
      ∃ s s', m.slot i k = .ok s ∧ m'.slot j k = .ok s' ∧ s'.fileId = s.fileId ∧ s'.origRow = s.origRow ∧ s'.origCol = s.origCol := by
  obtain ⟨ss, rfl, hf⟩ := h
  unfold slot
  rw [row_ok ho, row_ok ho']
  simp only [Res.ok_bind]
  have hlen := hf.length_eq
  by_cases hk : k < o.slots.length
  · right
    refine ⟨_, _, pyGet_nat_some (List.getElem?_eq_getElem hk), pyGet_nat_some (List.getElem?_eq_getElem (hlen ▸ hk)), ?_⟩
    have := List.forall₂_iff_get.mp hf
    have e := this.2 k hk (hlen ▸ hk)
    simp only [List.get_eq_getElem] at e
    rw [e]
    exact ⟨rfl, rfl, rfl⟩
  · left
    refine ⟨.indexError, ?_, ?_⟩
    · unfold pyGet pyIndex
      rw [if_pos (by omega), if_neg (by omega)]
    · unfold pyGet pyIndex
      rw [if_pos (by omega), if_neg (by omega)]

/-- The observations of an object do not depend on the rest of the file. -/
theorem getObslist_eq (v : SameView types m i m' j) (h1 : "image" ∈ types) (h2 : "weight" ∈ types) (h3 : "bmask" ∈ types) (h4 : "seg" ∈ types)
    (ho : m.cat.rows[i]? = some o) (ho' : m'.cat.rows[j]? = some o') (h : SameButStarts o o') (ext : Ext) (cfg : Cfg) :
    getObslist ext cfg m i = getObslist ext cfg m' j := by
  have hstep : ∀ ls, epochStep ext cfg m i ls = epochStep ext cfg m' j ls := by
    intro ls
    funext st k
    unfold epochStep
    rcases slot_agree ho ho' h (k + 1) with ⟨e, e1, e2⟩ | ⟨s, s', e1, e2, e3, e4, e5⟩
    · rw [e1, e2]
      rfl
    · rw [e1, e2]
      simp only [Res.ok_bind, makeObs, v.jacobian, e3, e4, e5]
  unfold getObslist
  simp only [v.list _ h1, v.list _ h2, v.list _ h3, interp_eq v h4, hstep]

/-- The same coadd, when it is made on the same grid. -/
theorem getCoaddObs_eq (v : SameView types m i m' j) (h1 : "image" ∈ types) (h2 : "weight" ∈ types) (h3 : "bmask" ∈ types) (h4 : "seg" ∈ types)
    (ho : m.cat.rows[i]? = some o) (ho' : m'.cat.rows[j]? = some o') (h : SameButStarts o o') (ext : Ext) (cfg : Cfg) (combine : List Obs → Stamp)
    (jm : Mat2) : getCoaddObs ext cfg combine jm m i = getCoaddObs ext cfg combine jm m' j := by
  unfold getCoaddObs
  simp only [getObslist_eq v h1 h2 h3 h4 ho ho' h, interpolateImage_eq v h4]

/-- The median of equal values. -/
theorem median_const {l : List ℚ} {x : ℚ} (h0 : l ≠ []) (h : ∀ y ∈ l, y = x) : Reject.median l = x := by
  have hs : ∀ y ∈ l.insertionSort (· ≤ ·), y = x := fun y hy => h y ((List.mem_insertionSort _).mp hy)
  have hg : ∀ k, k < l.length → (l.insertionSort (· ≤ ·)).getD k 0 = x := by
    intro k hk
    have hk' : k < (l.insertionSort (· ≤ ·)).length := by rwa [List.length_insertionSort]
    rw [List.getD_eq_getElem?_getD, List.getElem?_eq_getElem hk', Option.getD_some]
    exact hs _ (List.getElem_mem hk')
  have hl : 0 < l.length := List.length_pos_iff.mpr h0
  unfold Reject.median
  simp only
  split
  · exact hg _ (by omega)
  · rw [hg _ (by omega), hg _ (by omega)]
    ring

/-- The target of a file in which all objects have the same jacobian at epoch 1. -/
theorem targetJacobian_const {jm : Mat2} (h : ∀ o ∈ m.cat.rows, o.ncutout > 1 → ∃ s, o.slots[1]? = some s ∧ jm = ⟨s.dudrow, s.dudcol, s.dvdrow, s.dvdcol⟩)
    (h0 : ∃ o ∈ m.cat.rows, o.ncutout > 1) : targetJacobian m = .ok jm := by
  have hall : ∀ o ∈ m.cat.rows.filter (fun o => decide (o.ncutout > 1)), ∃ s, pyGet o.slots 1 = .ok s ∧ jm = ⟨s.dudrow, s.dudcol, s.dvdrow, s.dvdcol⟩ := by
    intro o ho
    rw [List.mem_filter, decide_eq_true_eq] at ho
    obtain ⟨s, hs, e⟩ := h o ho.1 ho.2
    exact ⟨s, pyGet_nat_some (k := 1) hs, e⟩
  obtain ⟨o, ho, hn⟩ := h0
  have hne : o ∈ m.cat.rows.filter (fun o => decide (o.ncutout > 1)) := by
    rw [List.mem_filter, decide_eq_true_eq]
    exact ⟨ho, hn⟩
  unfold targetJacobian
  generalize m.cat.rows.filter (fun o => decide (o.ncutout > 1)) = l at hall hne
  have key : ∃ ss : List Slot, mapRes (fun o : ObjRow => pyGet o.slots 1) l = .ok ss ∧ ss.length = l.length ∧
      ∀ s ∈ ss, jm = ⟨s.dudrow, s.dudcol, s.dvdrow, s.dvdcol⟩ := by
    clear hne
    induction l with
    | nil => exact ⟨[], rfl, rfl, by simp⟩
    | cons x l ih =>
      obtain ⟨ss, e1, e2, e3⟩ := ih (fun o ho => hall o (List.mem_cons_of_mem _ ho))
      obtain ⟨s, f1, f2⟩ := hall x List.mem_cons_self
      refine ⟨s :: ss, ?_, by simp [e2], ?_⟩
      · simp only [mapRes, f1, e1]
      · intro t ht
        rcases List.mem_cons.mp ht with rfl | ht
        · exact f2
        · exact e3 t ht
  obtain ⟨ss, e1, e2, e3⟩ := key
  have hpos : 0 < ss.length := by rw [e2]; exact List.length_pos_of_mem hne
  have hnil : ∀ f : Slot → ℚ, ss.map f ≠ [] := by
    intro f e
    rw [List.map_eq_nil_iff] at e
    rw [e] at hpos
    exact absurd hpos (by simp)
  rw [e1]
  simp only [Res.ok_bind]
  rw [if_neg (by omega)]
  have hm : ∀ (f : Slot → ℚ) (x : ℚ), (∀ s ∈ ss, f s = x) → Reject.median (ss.map f) = x := by
    intro f x hf
    refine median_const (hnil f) ?_
    intro y hy
    obtain ⟨s, hs, rfl⟩ := List.mem_map.mp hy
    exact hf s hs
  rw [hm (·.dudrow) jm.a (fun s hs => by rw [e3 s hs]), hm (·.dudcol) jm.b (fun s hs => by rw [e3 s hs]),
    hm (·.dvdrow) jm.c (fun s hs => by rw [e3 s hs]), hm (·.dvdcol) jm.d (fun s hs => by rw [e3 s hs])]

/-- **C77** (part) An object coadded from an extracted range: the observations that enter are always those of the original file; the coadd is the same when the
target jacobian is. -/
theorem C77_same_target_partial {f g : Fits} {m : MEDS} {a b : Int} {copyAll : Bool} (ho : MEDS.openFile f = .ok m) (hord : CutoutsInOrder m.cat.rows)
    (hpsf : f.has "psf" = true → PsfInOrder m.cat) (hx : extractRange f a b copyAll = .ok g) :
    ∃ mg, MEDS.openFile g = .ok mg ∧ ∀ i : Nat, i < mg.size → ∀ (ext : Ext) (cfg : Cfg),
      getObslist ext cfg mg i = getObslist ext cfg m ((a.toNat + i : Nat) : Int) ∧
      (targetJacobian mg = targetJacobian m → ∀ psc, coaddObject ext cfg psc mg i = coaddObject ext cfg psc m ((a.toNat + i : Nat) : Int)) := by
  obtain ⟨mg, h1, _, _, _, _, _, _, h8⟩ := C18_range_preserves_objects ho hord hpsf hx
  refine ⟨mg, h1, ?_⟩
  intro i hi ext cfg
  obtain ⟨v, o, o', r1, r2, r3⟩ := h8 i hi
  refine ⟨(getObslist_eq v.symm (by decide) (by decide) (by decide) (by decide) r1 r2 r3 ext cfg).symm, ?_⟩
  intro ht psc
  unfold coaddObject
  rw [ht]
  simp only [fun c jm => getCoaddObs_eq v.symm (by decide) (by decide) (by decide) (by decide) r1 r2 r3 ext cfg c jm]

/-- **C77** (part) ... which holds when every object with more than one cutout has the same jacobian at its first epoch and one such object was extracted. -/
theorem C77_one_jacobian_partial {f g : Fits} {m : MEDS} {a b : Int} {copyAll : Bool} (ho : MEDS.openFile f = .ok m) (hord : CutoutsInOrder m.cat.rows)
    (hpsf : f.has "psf" = true → PsfInOrder m.cat) (hx : extractRange f a b copyAll = .ok g) {jm : Mat2}
    (hj : ∀ o ∈ m.cat.rows, o.ncutout > 1 → ∃ s, o.slots[1]? = some s ∧ jm = ⟨s.dudrow, s.dudcol, s.dvdrow, s.dvdcol⟩) :
    ∃ mg, MEDS.openFile g = .ok mg ∧ ((∃ o ∈ mg.cat.rows, o.ncutout > 1) → ∀ i : Nat, i < mg.size → ∀ (ext : Ext) (cfg : Cfg) psc,
      coaddObject ext cfg psc mg i = coaddObject ext cfg psc m ((a.toNat + i : Nat) : Int)) := by
  obtain ⟨mg, h1, h2⟩ := C77_same_target_partial ho hord hpsf hx
  refine ⟨mg, h1, ?_⟩
  intro hex i hi ext cfg psc
  obtain ⟨mg', h1', _, _, _, _, _, _, h8⟩ := C18_range_preserves_objects ho hord hpsf hx
  rw [h1] at h1'
  injection h1' with h1'
  subst h1'
  refine (h2 i hi ext cfg).2 ?_ psc
  have hrows : ∀ o' ∈ mg.cat.rows, ∃ o ∈ m.cat.rows, SameButStarts o o' := by
    intro o' ho'
    obtain ⟨k, hk⟩ := List.mem_iff_getElem?.mp ho'
    obtain ⟨_, o, o'', r1, r2, r3⟩ := h8 k (List.getElem?_eq_some_iff.mp hk).1
    rw [hk] at r2
    injection r2 with r2
    subst r2
    exact ⟨o, List.mem_of_getElem? r1, r3⟩
  have e1 : targetJacobian mg = .ok jm := by
    refine targetJacobian_const ?_ hex
    intro o' ho' hn
    obtain ⟨o, hm, hs⟩ := hrows o' ho'
    rw [(rows_agree hs).2.1] at hn
    obtain ⟨s, q1, q2⟩ := hj o hm hn
    obtain ⟨ss, rfl, hf⟩ := hs
    have hl := hf.length_eq
    obtain ⟨l1, q1⟩ := List.getElem?_eq_some_iff.mp q1
    have l2 : 1 < ss.length := hl ▸ l1
    refine ⟨ss[1], List.getElem?_eq_getElem l2, ?_⟩
    have e := (List.forall₂_iff_get.mp hf).2 1 l1 l2
    simp only [List.get_eq_getElem] at e
    rw [e, q1]
    exact q2
  have e2 : targetJacobian m = .ok jm := by
    refine targetJacobian_const hj ?_
    obtain ⟨o', ho', hn⟩ := hex
    obtain ⟨o, hm, hs⟩ := hrows o' ho'
    rw [(rows_agree hs).2.1] at hn
    exact ⟨o, hm, hn⟩
  rw [e1, e2]

/-- **C77** is false: the target jacobian is the median over the objects of the file, so an object coadded from an extracted file can get another coadd (here the
seg map of the first of two objects). -/
theorem C77_counterexample : ∃ f m g mg, MEDS.openFile f = .ok m ∧ CutoutsInOrder m.cat.rows ∧ extractRange f 0 0 false = .ok g ∧ MEDS.openFile g = .ok mg ∧
    ∃ (ext : Ext) (cfg : Cfg) (psc : Mat2 → List Obs → Stamp) (c c' : CoaddObs), coaddObject ext cfg psc m 0 = .ok (some c, 0) ∧
      coaddObject ext cfg psc mg 0 = .ok (some c', 0) ∧
      c.seg = ⟨4, 4, [28, 29, 30, 31, 36, 37, 30, 31, 44, 44, 37, 38, 52, 52, 53, 46]⟩ ∧
      c'.seg = ⟨4, 4, [28, 29, 30, 31, 28, 29, 30, 31, 44, 44, 45, 46, 52, 52, 53, 54]⟩ := by
  have ho : MEDS.openFile Ex.patchedFile = .ok Ex.patchedMed := by decide +kernel
  have key : ∀ (r : Res (Option CoaddObs × Int)) (l : Img ℚ),
      (match r with | .ok (some c, 0) => decide (c.seg = l) | _ => false) = true → ∃ c, r = .ok (some c, 0) ∧ c.seg = l := by
    intro r l h
    split at h
    · exact ⟨_, rfl, decide_eq_true_eq.mp h⟩
    · cases h
  obtain ⟨g, mg, h1, h2, h3⟩ := Ex.extracted_iff (f := Ex.patchedFile) (a := 0) (b := 0) (c := false)
    (test := fun mg => match coaddObject Ex.coaddExt Ex.coaddCfg Ex.psc mg 0 with
      | .ok (some c, 0) => decide (c.seg = ⟨4, 4, [28, 29, 30, 31, 28, 29, 30, 31, 44, 44, 45, 46, 52, 52, 53, 54]⟩)
      | _ => false) (by decide +kernel)
  obtain ⟨c', k1, k2⟩ := key _ _ h3
  obtain ⟨c, k3, k4⟩ := key (coaddObject Ex.coaddExt Ex.coaddCfg Ex.psc Ex.patchedMed 0)
    ⟨4, 4, [28, 29, 30, 31, 36, 37, 30, 31, 44, 44, 37, 38, 52, 52, 53, 46]⟩ (by decide +kernel)
  refine ⟨_, _, g, mg, ho, ?_, h1, h2, Ex.coaddExt, Ex.coaddCfg, Ex.psc, c, c', k3, k1, k4, k2⟩
  obtain ⟨mk, mk', w1, w2⟩ := Ex.patched_run
  exact C18_written_in_order w1 w2 ho

-- extracting everything keeps the target jacobian
example : Ex.extracted Ex.patchedFile 0 1 false (fun mg => decide (targetJacobian mg = targetJacobian Ex.patchedMed) &&
    decide ((targetJacobian mg).isOk = true)) = true := by decide +kernel

-- two objects at the same place: one jacobian
example : Ex.check Ex.cfg [Ex.obj 10 4 5 5, Ex.obj 11 2 5 5] Ex.coaddImages (some [Ex.psf 0, Ex.psf 1, Ex.psf 1, Ex.psf 1]) (fun m =>
    decide (∀ o ∈ m.cat.rows, o.ncutout > 1 ∧ (o.slots[1]?.map (fun s => (s.dudrow, s.dudcol, s.dvdrow, s.dvdcol))) = some (9/20, 1, 1, 1/2))) = true := by
  decide +kernel

end Meds.Derived
