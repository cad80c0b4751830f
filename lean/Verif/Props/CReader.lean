import Verif.Spec.CReader
import Verif.Lemmas.Reader
import Verif.Examples.Maker

/-!
# The C reader (C39 – C42)
-/

namespace Meds.C
open Spec

variable {cols : List String} {f : Fits} {h : Handle} {m : MEDS}

/-! ### Opening -/

theorem index_nat {α : Type} {l : List α} {k : Nat} {x : α} (hk : l[k]? = some x) : index l (k : Int) = .ok x := by
  simp [index, hk]

theorem index_ok {α : Type} {l : List α} {i : Int} {x : α} (hi : index l i = .ok x) : 0 ≤ i ∧ l[i.toNat]? = some x := by
  unfold index at hi
  split at hi
  · rename_i h0
    cases hl : l[i.toNat]? with
    | none => rw [hl] at hi; cases hi
    | some y => rw [hl] at hi; injection hi with hi; exact ⟨h0, by rw [hi]⟩
  · cases hi

/-- What `meds_open` has loaded: the same file and info, and one object per row with the first `ncutout` entries of its columns. -/
theorem open_ok (ho : medsOpen cols f = .ok h) (hm : MEDS.openFile f = .ok m) :
    h.fits = m.fits ∧ h.info = m.info ∧ m.fits = f ∧ f.find "object_data" = some (.objects m.cat) ∧ mapRes (loadRow (ncutoutMax m.cat)) m.cat.rows = .ok h.cat := by
  unfold medsOpen at ho
  obtain ⟨cat, hcat, ho⟩ := Res.bind_eq_ok.mp ho
  obtain ⟨info, hinfo, ho⟩ := Res.bind_eq_ok.mp ho
  unfold MEDS.openFile at hm
  cases h1 : f.find "object_data" with
  | none => rw [h1] at hm; cases hm
  | some d1 =>
    rw [h1] at hm
    cases d1 with
    | objects t =>
      dsimp only at hm
      cases h2 : f.find "image_info" with
      | none => rw [h2] at hm; cases hm
      | some d2 =>
        rw [h2] at hm
        cases d2 with
        | info i =>
          dsimp only at hm
          cases h3 : f.find "metadata" with
          | none => rw [h3] at hm; cases hm
          | some d3 =>
            rw [h3] at hm ho
            cases d3 with
            | metadata md =>
              dsimp only at hm ho
              injection hm with hm
              injection ho with ho
              subst hm ho
              unfold readObjects at hcat
              rw [h1] at hcat
              dsimp only at hcat
              unfold readInfo at hinfo
              rw [h2] at hinfo
              dsimp only at hinfo
              split at hcat
              · cases hcat
              · split at hinfo
                · cases hinfo
                · split at hinfo
                  · injection hinfo with hinfo
                    exact ⟨rfl, hinfo.symm, rfl, rfl, hcat⟩
                  · cases hinfo
            | _ => cases hm
        | _ => cases hm
    | _ => cases hm

theorem loadRow_ok {w : Nat} {r : ObjRow} {o : Obj} (hl : loadRow w r = .ok o) :
    0 ≤ r.ncutout ∧ r.ncutout ≤ w ∧ o.ncutout = r.ncutout ∧ o.boxSize = r.boxSize ∧
      o.arrays = r.slots.take r.ncutout.toNat ++ (List.replicate w Slot.dflt).drop r.ncutout.toNat := by
  unfold loadRow at hl
  split at hl
  · rename_i hh
    injection hl with hl
    subst hl
    exact ⟨hh.1, hh.2, rfl, rfl, rfl⟩
  · cases hl

theorem width_eq {t : ObjTable} (hw : OneWidth t) {r : ObjRow} (hr : r ∈ t.rows) : r.slots.length = ncutoutMax t := by
  unfold ncutoutMax
  split
  · rename_i h0; rw [h0] at hr; cases hr
  · rename_i a l h0
    exact hw r hr a (by rw [h0]; simp)

/-- An object that C has loaded, next to the row it came from. -/
theorem loaded (ho : medsOpen cols f = .ok h) (hm : MEDS.openFile f = .ok m) (hw : OneWidth m.cat) {i : Nat} {r : ObjRow} (hr : m.cat.rows[i]? = some r) :
    ∃ o, h.cat[i]? = some o ∧ 0 ≤ r.ncutout ∧ r.ncutout ≤ r.slots.length ∧ o.ncutout = r.ncutout ∧ o.boxSize = r.boxSize ∧ o.arrays.length = r.slots.length ∧
      ∀ k : Nat, (k : Int) < r.ncutout → o.arrays[k]? = r.slots[k]? := by
  obtain ⟨_, _, _, _, hc⟩ := open_ok ho hm
  obtain ⟨o, h1, h2⟩ := mapRes_getElem? hc hr
  obtain ⟨e1, e2, e3, e4, e5⟩ := loadRow_ok h2
  have hwid := width_eq hw (List.mem_of_getElem? hr)
  refine ⟨o, h1, e1, by omega, e3, e4, ?_, ?_⟩
  · rw [e5]; simp; omega
  · intro k hk
    rw [e5, List.getElem?_append_left (by simp; omega), List.getElem?_take, if_pos (by omega)]

theorem cat_length (ho : medsOpen cols f = .ok h) (hm : MEDS.openFile f = .ok m) : h.cat.length = m.cat.rows.length :=
  mapRes_length (open_ok ho hm).2.2.2.2

/-! ### Index checks (C40) -/

theorem getObj_nat {i : Nat} {o : Obj} (hi : h.cat[i]? = some o) : getObj h (i : Int) = .ok o := by
  have hlt : i < h.cat.length := (List.getElem?_eq_some_iff.mp hi).1
  unfold getObj checkIobj
  rw [decide_eq_false (by omega), decide_eq_false (by omega)]
  exact index_nat hi

theorem getObj_bad {iobj : Int} (hb : ¬ (0 ≤ iobj ∧ iobj < h.cat.length)) : getObj h iobj = .error .nullResult := by
  unfold getObj checkIobj
  by_cases h0 : iobj < 0
  · rw [decide_eq_true h0]; rfl
  · rw [decide_eq_false h0, decide_eq_true (show (h.cat.length : Int) ≤ iobj by omega)]; rfl

theorem check_valid (ho : medsOpen cols f = .ok h) (hm : MEDS.openFile f = .ok m) (hw : OneWidth m.cat) {i k : Int} (hv : ValidPair m.cat.rows i k) :
    ∃ (r : ObjRow) (s : Slot) (o : Obj), m.cat.rows[i.toNat]? = some r ∧ r.slots[k.toNat]? = some s ∧ checkIobjIcutout h i k = .ok o ∧ index o.arrays k = .ok s ∧
      o.boxSize = r.boxSize ∧ o.ncutout = r.ncutout ∧ index o.arrays 0 = .ok (r.slots.head?.getD Slot.dflt) ∧ 0 < r.ncutout ∧ r.ncutout ≤ r.slots.length ∧ h.cat[i.toNat]? = some o := by
  obtain ⟨hi, hk, r, hr, hkr⟩ := hv
  obtain ⟨o, h1, h2, h3, h4, h5, h6, h7⟩ := loaded ho hm hw hr
  have hk' : k.toNat < r.slots.length := by omega
  have e : (k.toNat : Int) = k := Int.toNat_of_nonneg hk
  have ei : (i.toNat : Int) = i := Int.toNat_of_nonneg hi
  have hs : r.slots[k.toNat]? = some r.slots[k.toNat] := List.getElem?_eq_getElem hk'
  refine ⟨r, r.slots[k.toNat], o, hr, hs, ?_, ?_, h5, h4, ?_, by omega, h3, h1⟩
  · unfold checkIobjIcutout
    rw [← ei, getObj_nat h1]
    simp only [Res.ok_bind]
    rw [if_neg (by omega)]
  · have := h7 k.toNat (by omega)
    rw [hs] at this
    have h8 := index_nat this
    rw [e] at h8
    exact h8
  · have := h7 0 (by omega)
    have h0 : r.slots[0]? = some r.slots[0] := List.getElem?_eq_getElem (by omega)
    rw [h0] at this
    rw [List.head?_eq_getElem?, h0]
    exact index_nat this

theorem check_invalid (ho : medsOpen cols f = .ok h) (hm : MEDS.openFile f = .ok m) (hw : OneWidth m.cat) {i k : Int} (hv : ¬ ValidPair m.cat.rows i k) :
    checkIobjIcutout h i k = .error .nullResult := by
  unfold checkIobjIcutout
  by_cases hi : 0 ≤ i ∧ i < h.cat.length
  · have hlen := cat_length ho hm
    have hlt : i.toNat < m.cat.rows.length := by omega
    have ei : (i.toNat : Int) = i := Int.toNat_of_nonneg hi.1
    have hr : m.cat.rows[i.toNat]? = some m.cat.rows[i.toNat] := List.getElem?_eq_getElem hlt
    obtain ⟨o, h1, h2, h3, h4, _⟩ := loaded ho hm hw hr
    rw [← ei, getObj_nat h1]
    simp only [Res.ok_bind]
    rw [if_pos]
    by_contra hc
    exact hv ⟨hi.1, by omega, _, hr, by omega⟩
  · rw [getObj_bad hi]; rfl

/-- **C40** Every accessor refuses every pair of integers that is not an object with such an epoch: NULL, 0, or -9999 for the file id. -/
theorem C40_bad_indices (ho : medsOpen cols f = .ok h) (hm : MEDS.openFile f = .ok m) (hw : OneWidth m.cat) {i k : Int} (hv : ¬ ValidPair m.cat.rows i k) :
    getCutoutCen h i k = .error .nullResult ∧ getSourceFileId h i k = .ok (-9999) ∧ getSourceInfo h i k = .error .nullResult ∧
      getSourcePath h i k = .error .nullResult ∧ getDistortion h i k = .error .nullResult ∧ getCutout h i k = .error .nullResult ∧
      getWeightCutout h i k = .error .nullResult ∧ getSegCutout h i k = .error .nullResult := by
  have hc := check_invalid ho hm hw hv
  have hf : getSourceFileId h i k = .ok (-9999) := by unfold getSourceFileId; rw [hc]; rfl
  have hs : getSourceInfo h i k = .error .nullResult := by unfold getSourceInfo; rw [hf]; rfl
  refine ⟨?_, hf, hs, ?_, ?_, ?_, ?_, ?_⟩
  · unfold getCutoutCen; rw [hc]; rfl
  · unfold getSourcePath; rw [hs]; rfl
  · unfold getDistortion; rw [hc]; rfl
  · unfold getCutout cutout cutoutp; rw [hc]; rfl
  · unfold getWeightCutout cutout cutoutp; rw [hc]; rfl
  · unfold getSegCutout cutout cutoutp; rw [hc]; rfl

/-- **C40** Bad object numbers: NULL, zero cutouts, no mosaics; and no mosaics of objects without cutouts. -/
theorem C40_bad_objects (ho : medsOpen cols f = .ok h) (hm : MEDS.openFile f = .ok m) (hw : OneWidth m.cat) (i : Int) :
    (¬ (0 ≤ i ∧ i < m.size) → getObj h i = .error .nullResult ∧ getNcutout h i = .ok 0) ∧
      (¬ ValidPair m.cat.rows i 0 → getMosaic h i = .error .nullResult ∧ getWeightMosaic h i = .error .nullResult ∧ getSegMosaic h i = .error .nullResult) := by
  constructor
  · intro hb
    have hlen := cat_length ho hm
    have hg : getObj h i = .error .nullResult := getObj_bad (by rw [hlen]; exact hb)
    exact ⟨hg, by unfold getNcutout; rw [hg]⟩
  · intro hv
    have hc := check_invalid ho hm hw hv
    refine ⟨?_, ?_, ?_⟩
    · unfold getMosaic mosaic mosaicp; rw [hc]; rfl
    · unfold getWeightMosaic mosaic mosaicp; rw [hc]; rfl
    · unfold getSegMosaic mosaic mosaicp; rw [hc]; rfl

/-- **C40** No accessor of the catalogue ever reads outside its arrays, whatever the arguments. -/
theorem C40_no_stray_access (ho : medsOpen cols f = .ok h) (hm : MEDS.openFile f = .ok m) (hw : OneWidth m.cat) (i k : Int) :
    getObj h i ≠ .error .unmodelled ∧ getNcutout h i ≠ .error .unmodelled ∧ getCutoutCen h i k ≠ .error .unmodelled ∧
      getSourceFileId h i k ≠ .error .unmodelled ∧ getDistortion h i k ≠ .error .unmodelled := by
  have hg : getObj h i = .error .nullResult ∨ ∃ o, getObj h i = .ok o := by
    by_cases hi : 0 ≤ i ∧ i < h.cat.length
    · right
      have hlt : i.toNat < h.cat.length := by omega
      have ei : (i.toNat : Int) = i := Int.toNat_of_nonneg hi.1
      exact ⟨_, by rw [← ei]; exact getObj_nat (List.getElem?_eq_getElem hlt)⟩
    · left; exact getObj_bad hi
  refine ⟨?_, ?_, ?_⟩
  · rcases hg with hg | ⟨o, hg⟩ <;> rw [hg] <;> simp
  · unfold getNcutout
    rcases hg with hg | ⟨o, hg⟩ <;> rw [hg] <;> simp
  · by_cases hv : ValidPair m.cat.rows i k
    · obtain ⟨r, s, o, _, _, h3, h4, _, _, h7, _⟩ := check_valid ho hm hw hv
      refine ⟨?_, ?_, ?_⟩
      · unfold getCutoutCen; rw [h3]; simp only [Res.ok_bind]; rw [h4]; simp
      · unfold getSourceFileId; rw [h3]; dsimp only; rw [h4]; simp
      · unfold getDistortion; rw [h3]; simp only [Res.ok_bind]; rw [h7]; simp
    · obtain ⟨b1, b2, _, _, b5, _⟩ := C40_bad_indices ho hm hw hv
      rw [b1, b2, b5]; simp

/-- **C40** With file ids that point into `image_info`, as the maker writes them, the source accessors stay inside that array as well. -/
theorem C40_source_info (ho : medsOpen cols f = .ok h) (hm : MEDS.openFile f = .ok m) (hw : OneWidth m.cat)
    (hid : ∀ r ∈ m.cat.rows, ∀ s ∈ r.slots, s.fileId < m.info.length) (i k : Int) :
    getSourceInfo h i k ≠ .error .unmodelled ∧ getSourcePath h i k ≠ .error .unmodelled := by
  have key : getSourceInfo h i k = .error .nullResult ∨ ∃ r, getSourceInfo h i k = .ok r := by
    by_cases hv : ValidPair m.cat.rows i k
    · obtain ⟨r, s, o, h1, h2, h3, h4, _⟩ := check_valid ho hm hw hv
      have hlt := hid r (List.mem_of_getElem? h1) s (List.mem_of_getElem? h2)
      unfold getSourceInfo getSourceFileId
      rw [h3]; dsimp only; rw [h4]
      simp only [Res.ok_bind]
      split
      · left; rfl
      · right
        rename_i h0
        have hinf := (open_ok ho hm).2.1
        have e : (s.fileId.toNat : Int) = s.fileId := Int.toNat_of_nonneg (by omega)
        exact ⟨_, by rw [← e]; exact index_nat (List.getElem?_eq_getElem (show s.fileId.toNat < h.info.length by rw [hinf]; omega))⟩
    · left; exact (C40_bad_indices ho hm hw hv).2.2.1
  constructor
  · rcases key with e | ⟨r, e⟩ <;> rw [e] <;> simp
  · unfold getSourcePath
    rcases key with e | ⟨r, e⟩ <;> rw [e] <;> simp

/-! ### Agreement with the Python reader (C39) -/

/-- A block of pixels seen through the row pointers. -/
theorem fromPtr_same {pix : List ℚ} {n b : Nat} (hn : 0 < n) (hb : 0 < b) (hl : pix.length = n * b * b) :
    ∃ c, cutoutFromPtr pix n b b = .ok c ∧ SameImage c ⟨n * b, b, pix⟩ ∧ c.cutoutNrow = b ∧ c.ncutout = n ∧
      ∀ j a d : Nat, j < n → a < b → d < b → c.mosaicGet j a d = c.get ((j * b + a : Nat) : Int) d := by
  have hnb : 0 < n * b := Nat.mul_pos hn hb
  unfold cutoutFromPtr
  rw [if_neg (by push_neg; exact_mod_cast hnb)]
  refine ⟨_, rfl, ⟨by push_cast; rfl, rfl, rfl, ?_⟩, rfl, rfl, ?_⟩
  · intro a d ha hd
    change a < n * b at ha
    change d < b at hd
    have hlt : a * b + d < pix.length := by rw [hl]; exact Img.idx_lt ha hd
    refine ⟨pix[a * b + d], ?_, ?_⟩
    · simp only [Img.get?]
      rw [if_pos ⟨ha, hd⟩, List.getElem?_eq_getElem hlt]
    · unfold Cutout.get
      have e : ((n : Int) * b).toNat = n * b := by exact_mod_cast Int.toNat_natCast (n * b)
      have h1 : index ((List.range ((n : Int) * b).toNat).map (fun i : Nat => (i : Int) * b)) (a : Int) = .ok ((a : Int) * b) :=
        index_nat (by rw [e, List.getElem?_map, List.getElem?_range ha]; rfl)
      simp only [h1, Res.ok_bind]
      rw [show (a : Int) * b + d = ((a * b + d : Nat) : Int) by push_cast; ring]
      exact index_nat (List.getElem?_eq_getElem hlt)
  · intro j a d _ _ _
    unfold Cutout.mosaicGet Cutout.get
    simp only
    push_cast
    rfl

/-- A slice that Python reads and can reshape is inside the array, and is what C reads. -/
theorem slice_ok {pix sl : List ℚ} {a n : Int} (hs : readSlice pix a (a + n) = .ok sl) (hl : (sl.length : Int) = n) :
    0 ≤ a ∧ 0 < n ∧ a + n ≤ pix.length ∧ sl = (pix.drop a.toNat).take n.toNat := by
  unfold readSlice at hs
  split at hs
  · cases hs
  · split at hs
    · cases hs
    · rename_i h1 h2
      injection hs with hs
      subst hs
      simp only [List.length_drop, List.length_take] at hl
      refine ⟨by omega, by omega, by omega, ?_⟩
      rw [List.drop_take]
      congr 1
      omega

theorem slice_of {pix : List ℚ} {a n : Int} (h0 : 0 ≤ a) (h1 : 0 < n) (h2 : a + n ≤ pix.length) :
    readSlice pix a (a + n) = .ok ((pix.drop a.toNat).take n.toNat) := by
  unfold readSlice
  rw [if_neg (by omega), if_neg (by omega), List.drop_take]
  congr 2
  omega

/-- The common step: a read in Python that can be reshaped to `n` boxes, and the read in C. -/
theorem read_agree (hf : h.fits = m.fits) {t : String} {a : Int} {n : Nat} {box : Int} (hn : 0 < n) :
    (∀ im, (do let ext ← m.extensionName t; let sl ← m.fits.imageSlice ext a (a + box * box * n); reshape sl (n * box) box) = .ok im →
      ∃ c, (do let p ← readPix h (t ++ "_cutouts") a (box * box * n); cutoutFromPtr p n box box) = .ok c ∧ SameImage c im ∧ c.cutoutNrow = box ∧ c.ncutout = n ∧
        ∀ j r d : Nat, j < n → (r : Int) < box → (d : Int) < box → c.mosaicGet j r d = c.get ((j * box.toNat + r : Nat) : Int) d) ∧
    (∀ c, (do let p ← readPix h (t ++ "_cutouts") a (box * box * n); cutoutFromPtr p n box box) = .ok c →
      ∃ im, (do let ext ← m.extensionName t; let sl ← m.fits.imageSlice ext a (a + box * box * n); reshape sl (n * box) box) = .ok im) := by
  constructor
  · intro im him
    obtain ⟨ext, he, him1⟩ := Res.bind_eq_ok.mp him
    obtain ⟨sl, hsl, him2⟩ := Res.bind_eq_ok.mp him1
    clear him him1
    unfold MEDS.extensionName at he
    simp only at he
    split at he
    · injection he with he
      subst he
      obtain ⟨q1, q2, q3, q4⟩ := reshape_ok him2
      unfold Fits.imageSlice at hsl
      cases hfi : m.fits.find (t ++ "_cutouts") with
      | none => rw [hfi] at hsl; cases hsl
      | some d =>
        rw [hfi] at hsl
        cases d with
        | image pix =>
          dsimp only at hsl
          obtain ⟨s1, s2, s3, s4⟩ := slice_ok hsl (by rw [q3]; ring)
          have hbox : 0 < box := by
            rcases lt_or_eq_of_le q2 with h' | h'
            · exact h'
            · rw [← h'] at s2; simp at s2
          obtain ⟨b, rfl⟩ : ∃ b : Nat, box = b := ⟨box.toNat, by omega⟩
          have hb : 0 < b := by omega
          have hlen : sl.length = n * b * b := by exact_mod_cast q3
          obtain ⟨c, c1, c2, c3, c4, c5⟩ := fromPtr_same hn hb hlen
          refine ⟨c, ?_, ?_, c3, c4, ?_⟩
          · unfold readPix
            rw [hf, hfi]
            dsimp only
            rw [if_pos ⟨s1, s2, s3⟩]
            simp only [Res.ok_bind]
            rw [← s4]
            exact c1
          · rw [q4]
            have e1 : ((n : Int) * b).toNat = n * b := by exact_mod_cast Int.toNat_natCast (n * b)
            rw [e1, Int.toNat_natCast]
            exact c2
          · intro j r d hj hr hd
            rw [Int.toNat_natCast]
            exact c5 j r d hj (by omega) (by omega)
        | _ => cases hsl
    · cases he
  · intro c hc
    obtain ⟨p, hp, hc⟩ := Res.bind_eq_ok.mp hc
    unfold readPix at hp
    rw [hf] at hp
    cases hfi : m.fits.find (t ++ "_cutouts") with
    | none => rw [hfi] at hp; cases hp
    | some d =>
      rw [hfi] at hp
      cases d with
      | image pix =>
        dsimp only at hp
        split at hp
        · rename_i hcond
          injection hp with hp
          unfold cutoutFromPtr at hc
          split at hc
          · cases hc
          · rename_i hpos
            have hbox : 0 < box := by
              by_contra hneg
              exact hpos (mul_nonpos_of_nonneg_of_nonpos (by omega) (by omega))
            have hlen : (p.length : Int) = n * box * box := by
              rw [← hp, List.length_take, List.length_drop]
              have : (n : Int) * box * box = box * box * n := by ring
              omega
            rw [show m.extensionName t = .ok (t ++ "_cutouts") by
              unfold MEDS.extensionName Fits.has; simp [hfi]]
            simp only [Res.ok_bind]
            unfold Fits.imageSlice
            rw [hfi]
            dsimp only
            rw [slice_of hcond.1 hcond.2.1 hcond.2.2, hp]
            simp only [Res.ok_bind]
            unfold reshape
            rw [if_pos ⟨by positivity, hbox.le, hlen⟩]
            exact ⟨_, rfl⟩
        · cases hp
      | _ => cases hp

/-- The Python and C reads of one cutout, reduced to the common step. -/
theorem cutout_forms (ho : medsOpen cols f = .ok h) (hm : MEDS.openFile f = .ok m) (hw : OneWidth m.cat) {t : String} (ht : t ≠ "psf") {i k : Nat}
    (hv : ValidPair m.cat.rows i k) :
    ∃ (a box : Int), m.getCutout i k t = (do let ext ← m.extensionName t; let sl ← m.fits.imageSlice ext a (a + box * box * (1 : Nat)); reshape sl ((1 : Nat) * box) box) ∧
      cutout (t ++ "_cutouts") h i k = (do let p ← readPix h (t ++ "_cutouts") a (box * box * (1 : Nat)); cutoutFromPtr p (1 : Nat) box box) := by
  obtain ⟨r, s, o, h1, h2, h3, h4, h5, h6, h7, h8, h9, _⟩ := check_valid ho hm hw hv
  have hkr : (k : Int) < r.ncutout := by
    obtain ⟨_, _, r', hr', hk'⟩ := hv
    rw [h1] at hr'
    injection hr' with hr'
    subst hr'
    exact hk'
  rw [Int.toNat_natCast] at h1 h2
  refine ⟨s.startRow, r.boxSize, ?_, ?_⟩
  · unfold MEDS.getCutout
    rw [if_neg ht, MEDS.checkIndices_some h1 hkr]
    simp only [Res.ok_bind]
    rw [show m.row (i : Int) = .ok r from pyGet_nat_some h1]
    simp only [Res.ok_bind]
    rw [show m.slot (i : Int) (k : Int) = .ok s by
      unfold MEDS.slot
      rw [show m.row (i : Int) = .ok r from pyGet_nat_some h1]
      simp only [Res.ok_bind]
      exact pyGet_nat_some h2]
    simp only [Res.ok_bind, Nat.cast_one, mul_one, one_mul]
  · unfold cutout cutoutp
    rw [h3]
    simp only [Res.ok_bind]
    rw [h4]
    simp only [Res.ok_bind, Nat.cast_one, mul_one, h5]
    cases readPix h (t ++ "_cutouts") s.startRow (r.boxSize * r.boxSize) <;> rfl

theorem mosaic_forms (ho : medsOpen cols f = .ok h) (hm : MEDS.openFile f = .ok m) (hw : OneWidth m.cat) {t : String} {i : Nat}
    (hv : ValidPair m.cat.rows i 0) :
    ∃ (a box : Int) (n : Nat), 0 < n ∧ (∃ r, m.cat.rows[i]? = some r ∧ r.ncutout = n ∧ r.boxSize = box) ∧
      m.getMosaic i t = (do let ext ← m.extensionName t; let sl ← m.fits.imageSlice ext a (a + box * box * n); reshape sl (n * box) box) ∧
      mosaic (t ++ "_cutouts") h i = (do let p ← readPix h (t ++ "_cutouts") a (box * box * n); cutoutFromPtr p n box box) := by
  obtain ⟨r, s, o, h1, h2, h3, h4, h5, h6, h7, h8, h9, _⟩ := check_valid ho hm hw hv
  rw [Int.toNat_natCast] at h1
  have h2 : r.slots[0]? = some s := h2
  obtain ⟨n, hn⟩ : ∃ n : Nat, r.ncutout = n := ⟨r.ncutout.toNat, by omega⟩
  refine ⟨s.startRow, r.boxSize, n, by omega, ⟨r, h1, hn, rfl⟩, ?_, ?_⟩
  · unfold MEDS.getMosaic
    rw [MEDS.checkIndices_none h1 h8]
    simp only [Res.ok_bind]
    rw [show m.row (i : Int) = .ok r from pyGet_nat_some h1]
    simp only [Res.ok_bind]
    rw [show m.slot (i : Int) 0 = .ok s by
      unfold MEDS.slot
      rw [show m.row (i : Int) = .ok r from pyGet_nat_some h1]
      simp only [Res.ok_bind]
      exact pyGet_nat_some h2]
    simp only [Res.ok_bind, hn]
  · unfold mosaic mosaicp
    rw [h3]
    simp only [Res.ok_bind]
    rw [h4]
    simp only [Res.ok_bind, h5, h6, hn]
    cases readPix h (t ++ "_cutouts") s.startRow (r.boxSize * r.boxSize * n) <;> rfl

/-- **C39** For every file that both readers open and every object and epoch it has: C returns a cutout exactly when Python does, and then `CUTOUT_GET` sees the same pixels. -/
theorem C39_cutouts_agree_partial (ho : medsOpen cols f = .ok h) (hm : MEDS.openFile f = .ok m) (hw : OneWidth m.cat) {i k : Nat} (hv : ValidPair m.cat.rows i k) :
    (∀ im, m.getCutout i k "image" = .ok im → ∃ c, getCutout h i k = .ok c ∧ SameImage c im) ∧
    (∀ im, m.getCutout i k "weight" = .ok im → ∃ c, getWeightCutout h i k = .ok c ∧ SameImage c im) ∧
    (∀ c, getCutout h i k = .ok c → ∃ im, m.getCutout i k "image" = .ok im) ∧
    (∀ c, getWeightCutout h i k = .ok c → ∃ im, m.getCutout i k "weight" = .ok im) := by
  have hf := (open_ok ho hm).1
  obtain ⟨a, b, p1, c1⟩ := cutout_forms ho hm hw (t := "image") (by decide) hv
  obtain ⟨a', b', p2, c2⟩ := cutout_forms ho hm hw (t := "weight") (by decide) hv
  have e1 : getCutout h i k = cutout ("image" ++ "_cutouts") h i k := rfl
  have e2 : getWeightCutout h i k = cutout ("weight" ++ "_cutouts") h i k := rfl
  refine ⟨?_, ?_, ?_, ?_⟩
  · intro im him
    rw [p1] at him
    obtain ⟨c, x1, x2, _⟩ := (read_agree hf Nat.one_pos).1 im him
    exact ⟨c, by rw [e1, c1]; exact x1, x2⟩
  · intro im him
    rw [p2] at him
    obtain ⟨c, x1, x2, _⟩ := (read_agree hf Nat.one_pos).1 im him
    exact ⟨c, by rw [e2, c2]; exact x1, x2⟩
  · intro c hc
    rw [e1, c1] at hc
    obtain ⟨im, x⟩ := (read_agree hf Nat.one_pos).2 c hc
    exact ⟨im, by rw [p1]; exact x⟩
  · intro c hc
    rw [e2, c2] at hc
    obtain ⟨im, x⟩ := (read_agree hf Nat.one_pos).2 c hc
    exact ⟨im, by rw [p2]; exact x⟩

/-- `MOSAIC_GET` of epoch `j` is row `j * box + a` of the Python mosaic. -/
def _root_.Meds.Spec.SameMosaic (c : Cutout) (im : Img ℚ) (n box : Nat) : Prop :=
  c.ncutout = n ∧ c.cutoutNrow = box ∧ im.nr = n * box ∧ im.nc = box ∧
    ∀ j a b : Nat, j < n → a < box → b < box → ∃ v, im.get? (j * box + a) b = some v ∧ c.mosaicGet j a b = .ok v

theorem mosaic_agree (ho : medsOpen cols f = .ok h) (hm : MEDS.openFile f = .ok m) (hw : OneWidth m.cat) {t : String} {i : Nat} {r : ObjRow}
    (hr : m.cat.rows[i]? = some r) (hn : 0 < r.ncutout) :
    (∀ im, m.getMosaic i t = .ok im → ∃ c, mosaic (t ++ "_cutouts") h i = .ok c ∧ SameImage c im ∧ SameMosaic c im r.ncutout.toNat r.boxSize.toNat) ∧
    (∀ c, mosaic (t ++ "_cutouts") h i = .ok c → ∃ im, m.getMosaic i t = .ok im) := by
  have hf := (open_ok ho hm).1
  have hv : ValidPair m.cat.rows i 0 := ⟨by omega, by omega, r, by rw [Int.toNat_natCast]; exact hr, hn⟩
  obtain ⟨a, b, n, n0, ⟨r', hr', e1, e2⟩, p1, c1⟩ := mosaic_forms ho hm hw (t := t) hv
  rw [hr] at hr'
  injection hr' with hr'
  subst hr'
  constructor
  · intro im him
    rw [p1] at him
    obtain ⟨c, x1, x2, x3, x4, x5⟩ := (read_agree hf n0).1 im him
    refine ⟨c, by rw [c1]; exact x1, x2, ?_⟩
    obtain ⟨_, _, him'⟩ := Res.bind_eq_ok.mp him
    obtain ⟨_, _, him'⟩ := Res.bind_eq_ok.mp him'
    obtain ⟨q1, q2, q3, q4⟩ := reshape_ok him'
    have hb : (b.toNat : Int) = b := Int.toNat_of_nonneg q2
    have g1 : im.nr = n * b.toNat := by rw [q4]; obtain ⟨b', rfl⟩ : ∃ b' : Nat, b = b' := ⟨b.toNat, hb.symm⟩; simp only [Int.toNat_natCast]; exact_mod_cast Int.toNat_natCast (n * b')
    have g2 : im.nc = b.toNat := by rw [q4]
    rw [e1, e2, Int.toNat_natCast]
    refine ⟨x4, by rw [x3, hb], g1, g2, ?_⟩
    intro j a' d hj ha hd
    have hlt : j * b.toNat + a' < im.nr := by rw [g1]; exact Img.idx_lt hj ha
    obtain ⟨v, v1, v2⟩ := x2.2.2.2 (j * b.toNat + a') d hlt (by omega)
    exact ⟨v, v1, by rw [x5 j a' d hj (by omega) (by omega)]; exact v2⟩
  · intro c hc
    rw [c1] at hc
    obtain ⟨im, x⟩ := (read_agree hf n0).2 c hc
    exact ⟨im, by rw [p1]; exact x⟩

/-- **C39** Mosaics: the same, with `CUTOUT_GET` on the whole and `MOSAIC_GET` on each epoch. -/
theorem C39_mosaics_agree_partial (ho : medsOpen cols f = .ok h) (hm : MEDS.openFile f = .ok m) (hw : OneWidth m.cat) {i : Nat} {r : ObjRow}
    (hr : m.cat.rows[i]? = some r) (hn : 0 < r.ncutout) :
    (∀ im, m.getMosaic i "image" = .ok im → ∃ c, getMosaic h i = .ok c ∧ SameImage c im ∧ SameMosaic c im r.ncutout.toNat r.boxSize.toNat) ∧
    (∀ im, m.getMosaic i "weight" = .ok im → ∃ c, getWeightMosaic h i = .ok c ∧ SameImage c im ∧ SameMosaic c im r.ncutout.toNat r.boxSize.toNat) ∧
    (∀ c, getMosaic h i = .ok c → ∃ im, m.getMosaic i "image" = .ok im) ∧
    (∀ c, getWeightMosaic h i = .ok c → ∃ im, m.getMosaic i "weight" = .ok im) :=
  ⟨(mosaic_agree ho hm hw (t := "image") hr hn).1, (mosaic_agree ho hm hw (t := "weight") hr hn).1, (mosaic_agree ho hm hw (t := "image") hr hn).2,
    (mosaic_agree ho hm hw (t := "weight") hr hn).2⟩

theorem toInt_get {c : Cutout} {a b : Int} {v : ℚ} (hg : c.get a b = .ok v) : c.toInt.get a b = .ok (truncZ v) := by
  unfold Cutout.get at hg ⊢
  obtain ⟨p, hp, hg⟩ := Res.bind_eq_ok.mp hg
  have hp' : index c.toInt.rows a = .ok p := hp
  rw [hp']
  simp only [Res.ok_bind]
  obtain ⟨h0, h1⟩ := index_ok hg
  unfold Cutout.toInt index
  rw [if_pos h0]
  simp only [List.getElem?_map, h1, Option.map_some]

theorem truncZ_int (n : Int) : truncZ (n : ℚ) = n := by
  unfold truncZ
  split <;> simp

/-- **C39** Seg cutouts: read as `int` in C; the same pixels when the labels are whole numbers. -/
theorem C39_seg_agrees_partial (ho : medsOpen cols f = .ok h) (hm : MEDS.openFile f = .ok m) (hw : OneWidth m.cat) {i k : Nat} (hv : ValidPair m.cat.rows i k)
    {im : Img ℚ} (him : m.getCutout i k "seg" = .ok im) (hl : ∀ v ∈ im.flat, ∃ n : Int, v = n) :
    ∃ c, getSegCutout h i k = .ok c ∧ SameImage c im := by
  have hf := (open_ok ho hm).1
  obtain ⟨a, b, p1, c1⟩ := cutout_forms ho hm hw (t := "seg") (by decide) hv
  rw [p1] at him
  obtain ⟨c, x1, x2, _⟩ := (read_agree hf Nat.one_pos).1 im him
  refine ⟨c.toInt, ?_, x2.1, x2.2.1, x2.2.2.1, ?_⟩
  · unfold getSegCutout
    rw [show cutout "seg_cutouts" h i k = .ok c from c1.trans x1]
    rfl
  · intro a' b' ha hb
    obtain ⟨v, v1, v2⟩ := x2.2.2.2 a' b' ha hb
    refine ⟨v, v1, ?_⟩
    rw [toInt_get v2]
    have hmem : v ∈ im.flat := by
      unfold Img.get? at v1
      split at v1
      · exact List.mem_of_getElem? v1
      · cases v1
    obtain ⟨n, rfl⟩ := hl v hmem
    rw [truncZ_int]

/-- **C39** Seg mosaics, likewise. -/
theorem C39_seg_mosaic_agrees_partial (ho : medsOpen cols f = .ok h) (hm : MEDS.openFile f = .ok m) (hw : OneWidth m.cat) {i : Nat} {r : ObjRow}
    (hr : m.cat.rows[i]? = some r) (hn : 0 < r.ncutout) {im : Img ℚ} (him : m.getMosaic i "seg" = .ok im) (hl : ∀ v ∈ im.flat, ∃ n : Int, v = n) :
    ∃ c, getSegMosaic h i = .ok c ∧ SameImage c im ∧ SameMosaic c im r.ncutout.toNat r.boxSize.toNat := by
  obtain ⟨c, x1, x2, x3, x4, x5, x6, x7⟩ := (mosaic_agree ho hm hw (t := "seg") hr hn).1 im him
  have whole : ∀ a b v, im.get? a b = some v → (truncZ v : ℚ) = v := by
    intro a b v v1
    have hmem : v ∈ im.flat := by
      unfold Img.get? at v1
      split at v1
      · exact List.mem_of_getElem? v1
      · cases v1
    obtain ⟨n, rfl⟩ := hl v hmem
    rw [truncZ_int]
  refine ⟨c.toInt, ?_, ⟨x2.1, x2.2.1, x2.2.2.1, ?_⟩, x3, x4, x5, x6, ?_⟩
  · unfold getSegMosaic
    rw [show mosaic "seg_cutouts" h i = .ok c from x1]
    rfl
  · intro a' b' ha hb
    obtain ⟨v, v1, v2⟩ := x2.2.2.2 a' b' ha hb
    exact ⟨v, v1, by rw [toInt_get v2, whole _ _ _ v1]⟩
  · intro j a' b' hj ha hb
    obtain ⟨v, v1, v2⟩ := x7 j a' b' hj ha hb
    have v3 : c.get (j * c.cutoutNrow + a') b' = .ok v := v2
    exact ⟨v, v1, by
      have := toInt_get v3
      rw [whole _ _ _ v1] at this
      exact this⟩

/-- **C39** The other accessors: centre, number of cutouts and source image are those of the Python reader. -/
theorem C39_accessors_agree_partial (ho : medsOpen cols f = .ok h) (hm : MEDS.openFile f = .ok m) (hw : OneWidth m.cat) {i k : Nat} (hv : ValidPair m.cat.rows i k)
    (hid : ∀ r ∈ m.cat.rows, ∀ s ∈ r.slots, s.fileId < m.info.length) :
    getCutoutCen h i k = m.getCutoutRowcol i k ∧ (∀ r, m.cat.rows[i]? = some r → getNcutout h i = .ok r.ncutout) ∧
      (∀ s, m.slot i k = .ok s → 0 ≤ s.fileId → getSourceInfo h i k = m.getSourceInfo i k ∧ getSourcePath h i k = m.getSourcePath i k) := by
  obtain ⟨r, s, o, h1, h2, h3, h4, h5, h6, h7, h8, h9, h10⟩ := check_valid ho hm hw hv
  have hkr : (k : Int) < r.ncutout := by
    obtain ⟨_, _, r', hr', hk'⟩ := hv
    rw [h1] at hr'
    injection hr' with hr'
    subst hr'
    exact hk'
  have hlt := hid r (List.mem_of_getElem? h1) s (List.mem_of_getElem? h2)
  rw [Int.toNat_natCast] at h1 h2 h10
  have hslot : m.slot (i : Int) (k : Int) = .ok s := by
    unfold MEDS.slot
    rw [show m.row (i : Int) = .ok r from pyGet_nat_some h1]
    simp only [Res.ok_bind]
    exact pyGet_nat_some h2
  refine ⟨?_, ?_, ?_⟩
  · unfold getCutoutCen MEDS.getCutoutRowcol
    rw [h3, hslot]
    simp only [Res.ok_bind]
    rw [h4]
    rfl
  · intro r' hr'
    rw [h1] at hr'
    injection hr' with hr'
    subst hr'
    unfold getNcutout
    rw [getObj_nat h10]
    simp [h6]
  · intro s' hs' h0
    rw [hslot] at hs'
    injection hs' with hs'
    subst hs'
    have key : getSourceInfo h i k = m.getSourceInfo i k := by
      unfold getSourceInfo getSourceFileId MEDS.getSourceInfo
      rw [MEDS.checkIndices_some h1 hkr, h3, hslot]
      dsimp only
      rw [h4]
      simp only [Res.ok_bind]
      rw [if_neg (by omega)]
      have hinf := (open_ok ho hm).2.1
      have e : (s.fileId.toNat : Int) = s.fileId := Int.toNat_of_nonneg h0
      have hg : m.info[s.fileId.toNat]? = some m.info[s.fileId.toNat] := List.getElem?_eq_getElem (by omega)
      rw [← e, pyGet_nat_some hg]
      exact index_nat (by rw [hinf]; exact hg)
    refine ⟨key, ?_⟩
    unfold getSourcePath MEDS.getSourcePath
    rw [key]

/-- **C39** is false for files as the Python package makes them: `meds_open` wants the columns `wcs_path` and `sky_path` of `image_info`, which
`get_image_info_struct` does not have, so it returns NULL for every such file. -/
theorem C39_counterexample (wcs : Bool) (f : Fits) (h : Handle) : medsOpen (imageInfoNames wcs []) f ≠ .ok h := by
  intro ho
  unfold medsOpen at ho
  obtain ⟨cat, _, ho⟩ := Res.bind_eq_ok.mp ho
  obtain ⟨info, hinfo, _⟩ := Res.bind_eq_ok.mp ho
  unfold readInfo at hinfo
  have hcols : infoColumns.all (fun c => decide (c ∈ imageInfoNames wcs [])) = false := by cases wcs <;> decide +kernel
  rw [hcols] at hinfo
  split at hinfo
  · split at hinfo
    · cases hinfo
    · cases hinfo
  · cases hinfo

/-- **C39** What the library needs: `meds_open` opens a file only if `image_info` has all of these columns; with them it opens every file that has objects, source images and metadata. -/
theorem C39_columns (cols : List String) (f : Fits) :
    (∀ h, medsOpen cols f = .ok h → ∀ c ∈ ["image_id", "image_flags", "image_path", "wcs_path", "sky_path", "seg_path", "magzp", "scale"], c ∈ cols) ∧
      ((∀ c ∈ ["image_id", "image_flags", "image_path", "wcs_path", "sky_path", "seg_path", "magzp", "scale"], c ∈ cols) →
        ∀ objs rows md, readObjects f = .ok objs → f.find "image_info" = some (.info rows) → rows ≠ [] → f.find "metadata" = some (.metadata md) →
          ∃ h, medsOpen cols f = .ok h ∧ h.info = rows ∧ h.cat = objs) := by
  constructor
  · intro h ho
    unfold medsOpen at ho
    obtain ⟨cat, _, ho⟩ := Res.bind_eq_ok.mp ho
    obtain ⟨info, hinfo, _⟩ := Res.bind_eq_ok.mp ho
    unfold readInfo at hinfo
    split at hinfo
    · split at hinfo
      · cases hinfo
      · split at hinfo
        · rename_i hall
          rw [List.all_eq_true] at hall
          intro c hc
          exact of_decide_eq_true (hall c hc)
        · cases hinfo
    · cases hinfo
  · intro hall objs rows md h1 h2 h3 h4
    have hr : readInfo cols f = .ok rows := by
      unfold readInfo
      rw [h2]
      dsimp only
      rw [if_neg (by simpa using h3), if_pos]
      rw [List.all_eq_true]
      intro c hc
      exact decide_eq_true (hall c hc)
    refine ⟨⟨f, objs, rows⟩, ?_, rfl, rfl⟩
    unfold medsOpen
    rw [h1, hr, h4]
    rfl

/-! ### Distortions (C41) -/

/-- **C41** What `meds_get_distortion` returns, for any valid pair: the jacobian of epoch 0.  It is the one asked for when `k = 0`. -/
theorem C41_epoch_zero_partial (ho : medsOpen cols f = .ok h) (hm : MEDS.openFile f = .ok m) (hw : OneWidth m.cat) {i k : Nat} (hv : ValidPair m.cat.rows i k) :
    ∃ j, m.getJacobian i 0 = .ok j ∧ getDistortion h i k = .ok ⟨j.dudrow, j.dudcol, j.dvdrow, j.dvdcol⟩ := by
  obtain ⟨r, s, o, h1, h2, h3, h4, h5, h6, h7, h8, h9, h10⟩ := check_valid ho hm hw hv
  rw [Int.toNat_natCast] at h1
  have h0 : r.slots[0]? = some r.slots[0] := List.getElem?_eq_getElem (by omega)
  have hslot : m.slot (i : Int) 0 = .ok r.slots[0] := by
    unfold MEDS.slot
    rw [show m.row (i : Int) = .ok r from pyGet_nat_some h1]
    simp only [Res.ok_bind]
    exact pyGet_nat_some h0
  rw [List.head?_eq_getElem?, h0] at h7
  have hc : m.checkIndices i (some 0) = .ok () := MEDS.checkIndices_some (k := 0) h1 (by exact_mod_cast h8)
  refine ⟨⟨r.slots[0].cutoutRow, r.slots[0].cutoutCol, r.slots[0].dudrow, r.slots[0].dudcol, r.slots[0].dvdrow, r.slots[0].dvdcol⟩, ?_, ?_⟩
  · unfold MEDS.getJacobian MEDS.getCutoutRowcol
    rw [hc, hslot]
    rfl
  · unfold getDistortion
    rw [h3]
    simp only [Res.ok_bind]
    rw [h7]
    rfl

/-- The columns a C-readable file has. -/
def exCols : List String := imageInfoNames false ["wcs_path", "sky_path"]

/-- A one-object file with two epochs whose jacobians differ. -/
def exFile : Fits :=
  ⟨[("object_data", .objects ⟨⟨true, .absent, .absent⟩,
      [{ id := 1, boxSize := 2, sky := ⟨0, 0, none, none⟩, ncutout := 2, number := 1, psfRowSize1 := 0, psfColSize1 := 0, psfBoxSize1 := 0, extra := "",
         slots := [{ Slot.dflt with fileId := 0, startRow := 0, dudrow := 1, dudcol := 0, dvdrow := 0, dvdcol := 1 },
                   { Slot.dflt with fileId := 0, startRow := 4, dudrow := 2, dudcol := 0, dvdrow := 0, dvdcol := 2 }, Slot.dflt] }]⟩),
    ("image_info", .info [⟨"a.fits", 0, 1, 1, ""⟩]), ("metadata", .metadata ""), ("image_cutouts", .image [1, 2, 3, 4, 5, 6, 7, 8]),
    ("weight_cutouts", .image [1, 1, 1, 1, 2, 2, 2, 2]), ("seg_cutouts", .image [0, 1, 1, 0, 0, 0, 1, 1])]⟩

/-- **C41** is false: for epoch 1 the jacobian of epoch 0 comes back. -/
theorem C41_counterexample : ∃ h m, medsOpen exCols exFile = .ok h ∧ MEDS.openFile exFile = .ok m ∧ OneWidth m.cat ∧ ValidPair m.cat.rows 0 1 ∧
    getDistortion h 0 1 = .ok ⟨1, 0, 0, 1⟩ ∧ (m.getJacobian 0 1).map (fun j : MEDS.Jac => (j.dudrow, j.dvdcol)) = .ok (2, 2) := by
  have h1 : ∃ h, medsOpen exCols exFile = .ok h ∧ getDistortion h 0 1 = .ok ⟨1, 0, 0, 1⟩ := by
    have : (do let h ← medsOpen exCols exFile; getDistortion h 0 1) = .ok ⟨1, 0, 0, 1⟩ := by decide +kernel
    exact Res.bind_eq_ok.mp this
  obtain ⟨h, h1, h2⟩ := h1
  have h3 : ∃ m, MEDS.openFile exFile = .ok m := ⟨_, rfl⟩
  obtain ⟨m, h3⟩ := h3
  have h3' := h3
  unfold MEDS.openFile exFile at h3'
  simp only [Fits.find, Fits.lookup] at h3'
  injection h3' with h3'
  refine ⟨h, m, h1, h3, ?_, ?_, h2, ?_⟩
  · subst h3'
    intro a ha b hb
    simp only [List.mem_cons, List.not_mem_nil, or_false] at ha hb
    rw [ha, hb]
  · subst h3'
    exact ⟨by decide, by decide, _, rfl, by decide⟩
  · have : (do let m ← MEDS.openFile exFile; (m.getJacobian 0 1).map (fun j : MEDS.Jac => (j.dudrow, j.dvdcol))) = .ok (2, 2) := by decide +kernel
    rw [h3] at this
    exact this

-- both readers on this file
example : (do let h ← medsOpen exCols exFile; getCutout h 0 1) = .ok ⟨1, 2, 2, 2, 2, [0, 2], [5, 6, 7, 8]⟩ ∧
    (do let m ← MEDS.openFile exFile; m.getCutout 0 1 "image") = .ok ⟨2, 2, [5, 6, 7, 8]⟩ ∧
    (do let h ← medsOpen exCols exFile; let c ← getMosaic h 0; c.mosaicGet 1 1 0) = .ok 7 ∧
    (do let h ← medsOpen exCols exFile; let c ← getSegCutout h 0 1; c.get 1 0) = .ok 1 := by decide +kernel

-- bad indices
example : (do let h ← medsOpen exCols exFile; getCutout h 0 2) = .error .nullResult ∧ (do let h ← medsOpen exCols exFile; getCutout h (-1) 0) = .error .nullResult ∧
    (do let h ← medsOpen exCols exFile; getSourceFileId h (2 ^ 62) 0) = .ok (-9999) := by decide +kernel

-- a file id that is too large is not noticed: the read is outside `image_info`
example : getSourceInfo ⟨exFile, [⟨1, 2, [{ Slot.dflt with fileId := 7 }]⟩], [⟨"a.fits", 0, 1, 1, ""⟩]⟩ 0 0 = .error .unmodelled := by decide +kernel

/-! ### String buffers (C42) -/

/-- **C42** is false: the widest column is `wcs_path` here, and the buffer is shorter than both it and `image_path`. -/
theorem C42_counterexample : ¬ ∀ src wcs sky seg : Nat, src ≤ namelenMax src wcs sky seg ∧ wcs ≤ namelenMax src wcs sky seg := by
  intro h
  have := (h 100 200 50 60).1
  revert this
  decide

-- the buffer of that table
example : namelenMax 100 200 50 60 = 60 := by decide

/-- **C42** The buffer is long enough exactly when `wcs_path` is not the single widest column in a way that matters: no wider than `image_path`, or than one of the last two. -/
theorem C42_long_enough_partial (src wcs sky seg : Nat) :
    (src ≤ namelenMax src wcs sky seg ∧ wcs ≤ namelenMax src wcs sky seg ∧ sky ≤ namelenMax src wcs sky seg ∧ seg ≤ namelenMax src wcs sky seg) ↔
      (wcs ≤ src ∨ wcs ≤ sky ∨ wcs ≤ seg) := by
  unfold namelenMax
  simp only
  split <;> split <;> split <;> omega

/-- **C42** The buffer is never longer than the widest column: there is no byte for the terminating zero of a string that fills it. -/
theorem C42_no_terminator (src wcs sky seg : Nat) : namelenMax src wcs sky seg ≤ max (max src wcs) (max sky seg) := by
  unfold namelenMax
  simp only
  split <;> split <;> split <;> omega

example : namelenMax 100 90 50 60 = 100 := by decide

end Meds.C
