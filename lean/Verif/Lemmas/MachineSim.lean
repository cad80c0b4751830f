import Verif.Lemmas.Machine
import Verif.Lemmas.Written
import Verif.Lemmas.Total
import Verif.Props.MakerLayout

/-! Helper lemmas: the steps of the layout in machine arithmetic follow those in exact arithmetic. -/

namespace Meds

open Spec

/-- The image with the positions the program works with: the difference of the WCS position and the offset, rounded to a double. -/
def Spec.inDoubles (im : SrcImage) : SrcImage :=
  { im with
    wcs := { im.wcs with
      sky2image := fun sky =>
        (rndD ((im.wcs.sky2image sky).1 - im.info.positionOffset) + im.info.positionOffset,
          rndD ((im.wcs.sky2image sky).2 - im.info.positionOffset) + im.info.positionOffset)
      jacobian := fun sky _ _ => im.wcs.jacobian sky (im.wcs.sky2image sky).1 (im.wcs.sky2image sky).2 } }

/-- The slot with the centre rounded to doubles. -/
def Spec.roundSlot (s : Slot) : Slot := { s with cutoutRow := rndD s.cutoutRow, cutoutCol := rndD s.cutoutCol }

/-- The row with all centres rounded to doubles. -/
def Spec.roundRow (o : ObjRow) : ObjRow := { o with slots := o.slots.map roundSlot }

/-- The limits of image number `j` are doubles, within the range of 32-bit integers. -/
structure Spec.LimitsFit (cfg : MakerCfg) (j : Nat) (im : SrcImage) : Prop where
  low : IsDouble (1 - im.info.positionOffset)
  rowHigh : IsDouble (im.wcs.nrow - im.info.positionOffset)
  colHigh : IsDouble (im.wcs.ncol - im.info.positionOffset)
  lowOut : IsDouble (1 - im.info.positionOffset - border cfg j)
  rowOut : IsDouble (im.wcs.nrow - im.info.positionOffset + border cfg j)
  colOut : IsDouble (im.wcs.ncol - im.info.positionOffset + border cfg j)
  lowRange : -2 ^ 31 ≤ 1 - im.info.positionOffset - border cfg j
  rowRange : im.wcs.nrow - im.info.positionOffset + border cfg j < 2 ^ 31
  colRange : im.wcs.ncol - im.info.positionOffset + border cfg j < 2 ^ 31

theorem roundSlot_dflt : roundSlot Slot.dflt = Slot.dflt := by
  have : rndD ((DEFVAL : Int) : ℚ) = DEFVAL := rndD_int (by unfold DEFVAL; decide)
  unfold roundSlot Slot.dflt
  simp only [Slot.mk.injEq, true_and, and_true]
  exact ⟨this, this⟩

namespace Maker

theorem objPosM_row (im : SrcImage) (o : ObjRow) : (objPosM im o).zrow = (objPos (inDoubles im) o).zrow := by
  simp [objPosM, objPos, makeWcsPosition, inDoubles]

theorem objPosM_col (im : SrcImage) (o : ObjRow) : (objPosM im o).zcol = (objPos (inDoubles im) o).zcol := by
  simp [objPosM, objPos, makeWcsPosition, inDoubles]

theorem fileBoundsM_eq {cfg : MakerCfg} {j : Nat} {im : SrcImage} (h : LimitsFit cfg j im) :
    fileBoundsM cfg j im = fileBounds cfg j (inDoubles im) := by
  obtain ⟨h1, h2, h3, h4, h5, h6, _, _, _⟩ := h
  unfold fileBoundsM fileBounds imageBoundsM imageBounds makeWcsPosition inDoubles
  unfold border at h4 h5 h6
  by_cases hc : j = 0 ∧ cfg.firstImageIsCoadd = true
  · rw [if_pos hc] at h4 h5 h6
    simp only [if_pos hc, rndD_double h1, rndD_double h2, rndD_double h3, rndD_double h4, rndD_double h5, rndD_double h6, Bool.false_eq_true, if_false]
  · simp only [if_neg hc, rndD_double h1, rndD_double h2, rndD_double h3, Bool.false_eq_true, if_false]

theorem roundRow_sky (o : ObjRow) : (roundRow o).sky = o.sky := rfl

theorem acceptedM_eq {cfg : MakerCfg} {j : Nat} {im : SrcImage} (h : LimitsFit cfg j im) (o : ObjRow) :
    acceptedM cfg j im (roundRow o) = accepted cfg j (inDoubles im) o := by
  unfold acceptedM accepted
  rw [fileBoundsM_eq h, objPosM_row, objPosM_col]
  rfl

theorem finalPosM_eq {cfg : MakerCfg} {j : Nat} {im : SrcImage} (h : LimitsFit cfg j im) {o : ObjRow}
    (ha : accepted cfg j (inDoubles im) o = true) :
    finalPosM cfg j im (roundRow o) =
      { objPos (inDoubles im) o with wcsRow := (im.wcs.sky2image o.sky).2, wcsCol := (im.wcs.sky2image o.sky).1 } := by
  have hc := finalPos_eq cfg j (inDoubles im) o ((accepted_iff _ _ _ _).mp ha)
  unfold finalPos at hc
  unfold finalPosM
  by_cases hf : forces cfg j = true
  · rw [if_pos hf] at hc ⊢
    have h1 := congrArg Pos.zrow hc
    have h2 := congrArg Pos.zcol hc
    unfold clipPos at h1 h2 ⊢
    simp only at h1 h2 ⊢
    rw [fileBoundsM_eq h, objPosM_row, objPosM_col]
    have e1 : objPos (inDoubles im) (roundRow o) = objPos (inDoubles im) o := rfl
    rw [e1, h1, h2]
    rfl
  · rw [if_neg hf]
    have e1 : objPos (inDoubles im) (roundRow o) = objPos (inDoubles im) o := rfl
    rw [← e1]
    have a := objPosM_row im (roundRow o)
    have b := objPosM_col im (roundRow o)
    generalize hx : objPosM im (roundRow o) = x at a b
    have c : x.wcsRow = (im.wcs.sky2image o.sky).2 := by rw [← hx]; rfl
    have d : x.wcsCol = (im.wcs.sky2image o.sky).1 := by rw [← hx]; rfl
    cases x
    simp only at a b c d
    rw [a, b, c, d]

theorem accepted_range {cfg : MakerCfg} {j : Nat} {im : SrcImage} (h : LimitsFit cfg j im) {o : ObjRow}
    (ha : accepted cfg j (inDoubles im) o = true) :
    (-2 ^ 31 ≤ (objPos (inDoubles im) o).zrow ∧ (objPos (inDoubles im) o).zrow < 2 ^ 31) ∧
      (-2 ^ 31 ≤ (objPos (inDoubles im) o).zcol ∧ (objPos (inDoubles im) o).zcol < 2 ^ 31) := by
  obtain ⟨_, h1, h2, h3, h4⟩ := (accepted_iff _ _ _ _).mp ha
  have e1 : (objPos (inDoubles im) o).zrow = rowIn (inDoubles im) o.sky := by simp [objPos, makeWcsPosition, rowIn]
  have e2 : (objPos (inDoubles im) o).zcol = colIn (inDoubles im) o.sky := by simp [objPos, makeWcsPosition, colIn]
  rw [e1, e2]
  have l1 : (inDoubles im).info.positionOffset = im.info.positionOffset := rfl
  have l2 : (inDoubles im).wcs.nrow = im.wcs.nrow := rfl
  have l3 : (inDoubles im).wcs.ncol = im.wcs.ncol := rfl
  rw [l1] at h1 h2 h3 h4
  rw [l2] at h2
  rw [l3] at h4
  exact ⟨⟨le_trans h.lowRange h1, lt_of_le_of_lt h2 h.rowRange⟩, ⟨le_trans h.lowRange h3, lt_of_le_of_lt h4 h.colRange⟩⟩

/-- The corner of a box in machine integers. -/
theorem startM {q : ℚ} (h0 : -2 ^ 31 ≤ q) (h1 : q < 2 ^ 31) {b : Int} (hb : |b| ≤ 2 ^ 31) :
    wrap64 (wrap64 (toI4 q - b / 2) + 1) = truncZ q - b / 2 + 1 ∧ rndD ((truncZ q - b / 2 + 1 : Int) : ℚ) = ((truncZ q - b / 2 + 1 : Int) : ℚ) := by
  have ht : -2 ^ 31 ≤ truncZ q ∧ truncZ q < 2 ^ 31 := by
    have := toI4_trunc h0 h1
    unfold toI4 at this
    by_cases hc : -2 ^ 31 ≤ truncZ q ∧ truncZ q < 2 ^ 31
    · exact hc
    · rw [if_neg hc] at this
      exact absurd ⟨by omega, by omega⟩ hc
  have hb' := abs_le.mp hb
  rw [toI4_trunc h0 h1]
  refine ⟨?_, rndD_int ?_⟩
  · rw [wrap64_id (k := truncZ q - b / 2) (by omega) (by omega), wrap64_id (by omega) (by omega)]
  · rw [abs_le]; constructor <;> omega

theorem newSlotM_eq {cfg : MakerCfg} {j : Nat} {im : SrcImage} (h : LimitsFit cfg j im) {o : ObjRow} (hb : |o.boxSize| ≤ 2 ^ 31)
    (ha : accepted cfg j (inDoubles im) o = true) (old : Slot) :
    newSlotM j im (finalPosM cfg j im (roundRow o)) (roundRow o) (roundSlot old) =
      roundSlot (newSlot j (inDoubles im) (finalPos cfg j (inDoubles im) o) o old) := by
  rw [finalPosM_eq h ha, finalPos_eq _ _ _ _ ((accepted_iff _ _ _ _).mp ha)]
  obtain ⟨⟨r0, r1⟩, c0, c1⟩ := accepted_range h ha
  obtain ⟨a1, a2⟩ := startM r0 r1 hb
  obtain ⟨b1, b2⟩ := startM c0 c1 hb
  unfold newSlotM newSlot roundSlot
  simp only [show (roundRow o).boxSize = o.boxSize from rfl, a1, b1, a2, b2]
  rfl

theorem addEpochM_eq {cfg : MakerCfg} {j : Nat} {im : SrcImage} (h : LimitsFit cfg j im) {o o' : ObjRow} (hb : |o.boxSize| ≤ 2 ^ 31)
    (ha : accepted cfg j (inDoubles im) o = true) (hok : addEpoch cfg j (inDoubles im) o = .ok o') :
    addEpochM cfg j im (roundRow o) = .ok (roundRow o') := by
  unfold addEpoch at hok
  obtain ⟨k, hk, hok⟩ := Res.bind_eq_ok.mp hok
  obtain ⟨old, hold, hok⟩ := Res.bind_eq_ok.mp hok
  injection hok with hok
  subst hok
  unfold addEpochM
  have e1 : pyIndex (roundRow o).slots.length (roundRow o).ncutout = .ok k := by
    rw [← hk]; simp [roundRow]
  have e2 : pyGet (roundRow o).slots (roundRow o).ncutout = .ok (roundSlot old) := by
    unfold pyGet at hold ⊢
    rw [e1]
    rw [hk] at hold
    simp only [roundRow, List.getElem?_map] at hold ⊢
    cases hx : o.slots[k]? with
    | none => rw [hx] at hold; cases hold
    | some x => rw [hx] at hold; injection hold with hold; subst hold; rfl
  rw [e1]
  simp only [Res.ok_bind]
  rw [e2]
  simp only [Res.ok_bind]
  rw [newSlotM_eq h hb ha]
  simp [roundRow, List.map_set]

theorem filterM {cfg : MakerCfg} {j : Nat} {im : SrcImage} (h : LimitsFit cfg j im) (objs : List ObjRow) :
    (objs.map roundRow).filter (acceptedM cfg j im) = (objs.filter (accepted cfg j (inDoubles im))).map roundRow := by
  rw [List.filter_map]
  congr 1
  apply List.filter_congr
  intro o _
  exact acceptedM_eq h o

theorem forceCheckM_eq {cfg : MakerCfg} {j : Nat} {im : SrcImage} (h : LimitsFit cfg j im) (objs : List ObjRow) :
    forceCheckM cfg j im (objs.map roundRow) = forceCheck cfg j (inDoubles im) objs := by
  unfold forceCheckM forceCheck
  dsimp only
  rw [filterM h, List.length_map, List.all_map, fileBoundsM_eq h]
  have : ((fun o => (fileBounds cfg j (inDoubles im)).containsPoint (clipPos (fileBounds cfg j (inDoubles im)) (objPosM im o)).zrow
        (clipPos (fileBounds cfg j (inDoubles im)) (objPosM im o)).zcol) ∘ roundRow) =
      fun o => (fileBounds cfg j (inDoubles im)).containsPoint (clipPos (fileBounds cfg j (inDoubles im)) (objPos (inDoubles im) o)).zrow
        (clipPos (fileBounds cfg j (inDoubles im)) (objPos (inDoubles im) o)).zcol := by
    funext o
    simp only [Function.comp_apply, clipPos, objPosM_row, objPosM_col]
    rfl
  rw [this]

theorem layoutFileM_eq {cfg : MakerCfg} {j : Nat} {im : SrcImage} (h : LimitsFit cfg j im) {objs objs' : List ObjRow}
    (hb : ∀ o ∈ objs, |o.boxSize| ≤ 2 ^ 31) (hok : layoutFile cfg objs (j, inDoubles im) = .ok objs') :
    layoutFileM cfg (objs.map roundRow) (j, im) = .ok (objs'.map roundRow) := by
  unfold layoutFile at hok
  unfold layoutFileM
  dsimp only at hok ⊢
  rw [forceCheckM_eq h, filterM h, List.length_map, List.length_map]
  obtain ⟨u, hu, hok⟩ := Res.bind_eq_ok.mp hok
  rw [hu]
  simp only [Res.ok_bind]
  split at hok
  · cases hok
  · rename_i hc
    rw [if_neg hc]
    rw [mapRes_ok_iff] at hok ⊢
    rw [List.forall₂_map_left_iff, List.forall₂_map_right_iff]
    refine (forall₂_and_left hok hb).imp ?_
    rintro o o' ⟨h2, h1⟩
    rw [acceptedM_eq h]
    by_cases ha : accepted cfg j (inDoubles im) o = true
    · rw [if_pos ha] at h1 ⊢
      exact addEpochM_eq h h2 ha h1
    · rw [if_neg ha] at h1 ⊢
      injection h1 with h1
      rw [h1]

theorem layoutFile_boxes {cfg : MakerCfg} {fi : Nat × SrcImage} {objs objs' : List ObjRow} (hb : ∀ o ∈ objs, |o.boxSize| ≤ 2 ^ 31 ∧ 0 ≤ o.ncutout)
    (hok : layoutFile cfg objs fi = .ok objs') : ∀ o ∈ objs', |o.boxSize| ≤ 2 ^ 31 ∧ 0 ≤ o.ncutout := by
  have h := mapRes_ok_iff.mp (layoutFile_ok hok).1
  intro o' ho'
  obtain ⟨i, hi, rfl⟩ := List.mem_iff_getElem.mp ho'
  have hl := h.length_eq
  have := (List.forall₂_iff_get.mp h).2 i (by omega) hi
  simp only [List.get_eq_getElem] at this
  have hm := hb _ (List.getElem_mem (l := objs) (n := i) (by omega))
  unfold stepObj at this
  split at this
  · unfold addEpoch at this
    obtain ⟨k, _, this⟩ := Res.bind_eq_ok.mp this
    obtain ⟨old, _, this⟩ := Res.bind_eq_ok.mp this
    injection this with this
    rw [← this]; exact ⟨hm.1, by have := hm.2; simp only; omega⟩
  · injection this with this
    rw [← this]; exact hm

theorem foldM {cfg : MakerCfg} {L : List (Nat × SrcImage)} (hL : ∀ fi ∈ L, LimitsFit cfg fi.1 fi.2) {objs objs' : List ObjRow}
    (hb : ∀ o ∈ objs, |o.boxSize| ≤ 2 ^ 31 ∧ 0 ≤ o.ncutout)
    (hok : foldRes (layoutFile cfg) objs (L.map (fun fi => (fi.1, inDoubles fi.2))) = .ok objs') :
    foldRes (layoutFileM cfg) (objs.map roundRow) L = .ok (objs'.map roundRow) ∧ ∀ o ∈ objs', |o.boxSize| ≤ 2 ^ 31 ∧ 0 ≤ o.ncutout := by
  induction L generalizing objs with
  | nil =>
    simp only [List.map_nil, foldRes] at hok ⊢
    injection hok with hok
    subst hok
    exact ⟨rfl, hb⟩
  | cons fi L ih =>
    rw [List.map_cons] at hok
    obtain ⟨mid, h1, h2⟩ := foldRes_cons_ok.mp hok
    obtain ⟨i1, i2⟩ := ih (fun x hx => hL x (by simp [hx])) (layoutFile_boxes hb h1) h2
    exact ⟨foldRes_cons_ok.mpr ⟨_, layoutFileM_eq (hL fi (by simp)) (fun o ho => (hb o ho).1) h1, i1⟩, i2⟩

theorem trimM_eq {cfg : MakerCfg} {images : List SrcImage} (h : ∀ im, images[0]? = some im → LimitsFit cfg 0 im) {objs objs' : List ObjRow}
    (hok : trim cfg (images.map inDoubles) objs = .ok objs') : trimM cfg images (objs.map roundRow) = .ok (objs'.map roundRow) := by
  unfold trim at hok
  unfold trimM
  by_cases hc : (cfg.firstImageIsCoadd && cfg.trimToCoadd) = true
  · rw [if_pos hc] at hok ⊢
    cases images with
    | nil => cases hok
    | cons im rest =>
      simp only [List.map_cons] at hok ⊢
      rw [filterM (h im rfl), List.length_map]
      split at hok
      · cases hok
      · rename_i hn
        rw [if_neg hn]
        injection hok with hok
        rw [hok]
  · rw [if_neg hc] at hok ⊢
    injection hok with hok
    rw [hok]

theorem resize_round {objs objs' : List ObjRow} (h : resize objs = .ok objs') : resize (objs.map roundRow) = .ok (objs'.map roundRow) := by
  unfold resize at h ⊢
  obtain ⟨m, hm, h⟩ := Res.bind_eq_ok.mp h
  have hm' : maxNcutout (objs.map roundRow) = .ok m := by
    rw [← hm]
    cases objs with
    | nil => rfl
    | cons o os => simp [maxNcutout, roundRow, Function.comp_def]
  rw [hm']
  simp only [Res.ok_bind] at h ⊢
  rw [mapRes_ok_iff] at h ⊢
  rw [List.forall₂_map_left_iff, List.forall₂_map_right_iff]
  refine h.imp ?_
  intro o o' ho
  have : (roundRow o).slots.length = o.slots.length := by simp [roundRow]
  generalize (if m < 2 then 2 else m.toNat) = w at ho ⊢
  rw [this]
  split at ho
  · cases ho
  · rename_i hn
    rw [if_neg hn]
    injection ho with ho
    subst ho
    simp [roundRow, List.map_take]

/-! ### start rows -/

theorem setStarts_end {np : Int} {n : Nat} {cur e : Int} {ss ss' : List Slot} (h : setStarts np n cur ss = .ok (ss', e)) : e = cur + n * np := by
  induction n generalizing cur ss ss' with
  | zero => simp only [setStarts] at h; injection h with h; injection h with _ h; subst h; simp
  | succ n ih =>
    cases ss with
    | nil => cases h
    | cons s ss =>
      simp only [setStarts] at h
      obtain ⟨r, hr, h⟩ := Res.bind_eq_ok.mp h
      injection h with h
      injection h with h1 h2
      subst h1 h2
      rw [ih (ss' := r.1) hr]
      push_cast; ring

theorem setStartsM_eq {np : Int} (hnp : 0 ≤ np) {n : Nat} {cur e : Int} (hcur : 0 ≤ cur) {ss ss' : List Slot} (h : setStarts np n cur ss = .ok (ss', e))
    (he : e < 2 ^ 63) : setStartsM np n cur (ss.map roundSlot) = .ok (ss'.map roundSlot, e) := by
  induction n generalizing cur ss ss' with
  | zero =>
    simp only [setStarts] at h
    injection h with h; injection h with h1 h2; subst h1 h2
    rfl
  | succ n ih =>
    cases ss with
    | nil => cases h
    | cons s ss =>
      simp only [setStarts] at h
      obtain ⟨r, hr, h⟩ := Res.bind_eq_ok.mp h
      injection h with h
      injection h with h1 h2
      subst h1 h2
      have h1 := setStarts_end (ss' := r.1) (e := r.2) hr
      have h2 : 0 ≤ (n : Int) * np := mul_nonneg (by omega) hnp
      have hw : wrap64 (cur + np) = cur + np := wrap64_id (by omega) (by omega)
      have := ih (cur := cur + np) (by omega) (ss' := r.1) hr
      simp only [List.map_cons, setStartsM, hw, this, Res.ok_bind]
      rfl

theorem setStartRows_le {objs objs' : List ObjRow} {cur e : Int} (h : setStartRows cur objs = .ok (objs', e)) : cur ≤ e :=
  (setStartRows_ok h).2.le

theorem setStartRowsM_eq {objs objs' : List ObjRow} {cur e : Int} (hcur : 0 ≤ cur) (hb : ∀ o ∈ objs, |o.boxSize| ≤ 2 ^ 31)
    (h : setStartRows cur objs = .ok (objs', e)) (he : e < 2 ^ 63) :
    setStartRowsM cur (objs.map roundRow) = .ok (objs'.map roundRow, e) := by
  induction objs generalizing cur objs' with
  | nil =>
    simp only [setStartRows] at h
    injection h with h; injection h with h1 h2; subst h1 h2
    rfl
  | cons o os ih =>
    simp only [setStartRows] at h
    obtain ⟨r, hr, h⟩ := Res.bind_eq_ok.mp h
    obtain ⟨rest, hrest, h⟩ := Res.bind_eq_ok.mp h
    injection h with h
    injection h with h1 h2
    subst h1 h2
    have hbo := abs_le.mp (hb o (by simp))
    have hsq : 0 ≤ o.boxSize * o.boxSize := mul_self_nonneg _
    have hsq' : o.boxSize * o.boxSize < 2 ^ 63 := by nlinarith
    have hw : wrap64 (o.boxSize * o.boxSize) = o.boxSize * o.boxSize := wrap64_id (by omega) hsq'
    have hend := setStarts_end (ss' := r.1) (e := r.2) hr
    have hmn : 0 ≤ (o.ncutout.toNat : Int) * (o.boxSize * o.boxSize) := mul_nonneg (by omega) hsq
    have hle := setStartRows_le (objs' := rest.1) (e := rest.2) hrest
    have s1 := setStartsM_eq hsq hcur (ss' := r.1) (e := r.2) hr (by omega)
    have s2 := ih (cur := r.2) (by omega) (fun x hx => hb x (by simp [hx])) (objs' := rest.1) hrest
    simp only [List.map_cons, setStartRowsM, show (roundRow o).boxSize = o.boxSize from rfl, show (roundRow o).ncutout = o.ncutout from rfl,
      show (roundRow o).slots = o.slots.map roundSlot from rfl, hw, s1, Res.ok_bind, s2]
    rfl

theorem setStartsM_end {np : Int} {n : Nat} {cur e : Int} {ss ss' : List Slot} (h : setStartsM np n cur ss = .ok (ss', e))
    (hcur : wrap64 cur = cur) : e = wrap64 (cur + n * np) := by
  induction n generalizing cur ss ss' with
  | zero => simp only [setStartsM] at h; injection h with h; injection h with _ h; subst h; simp [hcur]
  | succ n ih =>
    cases ss with
    | nil => cases h
    | cons s ss =>
      simp only [setStartsM] at h
      obtain ⟨r, hr, h⟩ := Res.bind_eq_ok.mp h
      injection h with h
      injection h with h1 h2
      subst h1 h2
      rw [ih (ss' := r.1) hr (by rw [wrap64_eq_iff, wrap64_mod]), wrap64_eq_iff, Int.add_emod, wrap64_mod, ← Int.add_emod]
      congr 1
      push_cast; ring

theorem wrap64_add (a b : Int) : wrap64 (wrap64 a + b) = wrap64 (a + b) := by
  rw [wrap64_eq_iff, Int.add_emod, wrap64_mod, ← Int.add_emod]

theorem wrap64_wrap (a : Int) : wrap64 (wrap64 a) = wrap64 a := by
  rw [wrap64_eq_iff, wrap64_mod]

/-- The check on the number of pixels compares a number with itself: also after an overflow. -/
theorem pixelSumM_end {objs objs' : List ObjRow} {cur e : Int} (hn : ∀ o ∈ objs, 0 ≤ o.ncutout) (hcur : wrap64 cur = cur)
    (h : setStartRowsM cur objs = .ok (objs', e)) :
    objs.foldl (fun acc o => wrap64 (acc + wrap64 (o.ncutout * wrap64 (o.boxSize * o.boxSize)))) cur = e := by
  induction objs generalizing cur objs' with
  | nil =>
    simp only [setStartRowsM] at h
    injection h with h; injection h with h1 h2
  | cons o os ih =>
    simp only [setStartRowsM] at h
    obtain ⟨r, hr, h⟩ := Res.bind_eq_ok.mp h
    obtain ⟨rest, hrest, h⟩ := Res.bind_eq_ok.mp h
    injection h with h
    injection h with h1 h2
    subst h1 h2
    have hend := setStartsM_end (ss' := r.1) (e := r.2) hr hcur
    have ho := hn o (by simp)
    rw [Int.toNat_of_nonneg ho] at hend
    rw [List.foldl_cons]
    have : wrap64 (cur + wrap64 (o.ncutout * wrap64 (o.boxSize * o.boxSize))) = r.2 := by
      rw [hend, add_comm, wrap64_add, add_comm]
    rw [this]
    exact ih (fun x hx => hn x (by simp [hx])) (by rw [hend, wrap64_wrap]) (objs' := rest.1) hrest

/-! ### the PSF layout and the file -/

theorem setPsfSlots_round {psf : List PsfModel} {sky : SkyPos} {n : Nat} {cur e : Int} {ss ss' : List Slot}
    (h : setPsfSlots psf sky n cur ss = .ok (ss', e)) : setPsfSlots psf sky n cur (ss.map roundSlot) = .ok (ss'.map roundSlot, e) := by
  induction n generalizing cur ss ss' with
  | zero =>
    simp only [setPsfSlots] at h
    injection h with h; injection h with h1 h2; subst h1 h2
    rfl
  | succ n ih =>
    cases ss with
    | nil => cases h
    | cons s ss =>
      simp only [setPsfSlots] at h
      obtain ⟨p, hp, h⟩ := Res.bind_eq_ok.mp h
      obtain ⟨r, hr, h⟩ := Res.bind_eq_ok.mp h
      injection h with h
      injection h with h1 h2
      subst h1 h2
      have := ih (ss' := r.1) hr
      simp only [List.map_cons, setPsfSlots, show (roundSlot s).fileId = s.fileId from rfl, show (roundSlot s).origRow = s.origRow from rfl,
        show (roundSlot s).origCol = s.origCol from rfl, hp, Res.ok_bind, this]
      rfl

theorem setPsfLayout_round {psf : List PsfModel} {cur e : Int} {objs objs' : List ObjRow} (h : setPsfLayout psf cur objs = .ok (objs', e)) :
    setPsfLayout psf cur (objs.map roundRow) = .ok (objs'.map roundRow, e) := by
  induction objs generalizing cur objs' with
  | nil =>
    simp only [setPsfLayout] at h
    injection h with h; injection h with h1 h2; subst h1 h2
    rfl
  | cons o os ih =>
    simp only [setPsfLayout] at h
    obtain ⟨r, hr, h⟩ := Res.bind_eq_ok.mp h
    obtain ⟨rest, hrest, h⟩ := Res.bind_eq_ok.mp h
    injection h with h
    injection h with h1 h2
    subst h1 h2
    have s1 := setPsfSlots_round (ss' := r.1) (e := r.2) hr
    have s2 := ih (objs' := rest.1) hrest
    simp only [List.map_cons, setPsfLayout, show (roundRow o).sky = o.sky from rfl, show (roundRow o).ncutout = o.ncutout from rfl,
      show (roundRow o).slots = o.slots.map roundSlot from rfl, s1, Res.ok_bind, s2]
    rfl

theorem writeObjCutouts_round (cfg : MakerCfg) (t : String) (j : Nat) (src : Img ℚ) (o : ObjRow) (n : Nat) (ss : List Slot) (buf : List ℚ) :
    writeObjCutouts cfg t j src (roundRow o) n (ss.map roundSlot) buf = writeObjCutouts cfg t j src o n ss buf := by
  induction n generalizing ss buf with
  | zero => rfl
  | succ n ih =>
    cases ss with
    | nil => rfl
    | cons s ss =>
      simp only [List.map_cons, writeObjCutouts, ih]
      rfl

theorem writeObjPsf_round (cfg : MakerCfg) (psf : List PsfModel) (sky : SkyPos) (n : Nat) (ss : List Slot) (buf : List ℚ) :
    writeObjPsf cfg psf sky n (ss.map roundSlot) buf = writeObjPsf cfg psf sky n ss buf := by
  induction n generalizing ss buf with
  | zero => rfl
  | succ n ih =>
    cases ss with
    | nil => rfl
    | cons s ss =>
      simp only [List.map_cons, writeObjPsf, ih]
      rfl

theorem foldRes_map {σ α β : Type} (f : σ → β → Res σ) (g : α → β) (l : List α) (b : σ) :
    foldRes f b (l.map g) = foldRes (fun s a => f s (g a)) b l := by
  induction l generalizing b with
  | nil => rfl
  | cons x xs ih =>
    simp only [List.map_cons, foldRes]
    cases f b (g x) with
    | error e => rfl
    | ok s => exact ih s

theorem numbered_map {α β : Type} (g : α → β) (l : List α) : numbered (l.map g) = (numbered l).map (fun p => (p.1, g p.2)) := by
  unfold numbered
  rw [List.length_map, List.zip_map_right]
  rfl

end Maker

/-- The HDU with the centres of its object table rounded to doubles. -/
def Spec.roundHdu : Hdu → Hdu
  | .objects t => .objects { t with rows := t.rows.map roundRow }
  | h => h

/-- The file with all centres rounded to doubles: everything else, the pixels above all, is as it was. -/
def Spec.roundFits (f : Fits) : Fits := ⟨f.hdus.map (fun p => (p.1, roundHdu p.2))⟩

theorem modifyImage_round (name : String) (g : List ℚ → Res (List ℚ)) {hs hs' : List (String × Hdu)} (h : modifyImage name g hs = .ok hs') :
    modifyImage name g (hs.map (fun p => (p.1, roundHdu p.2))) = .ok (hs'.map (fun p => (p.1, roundHdu p.2))) := by
  induction hs generalizing hs' with
  | nil => cases h
  | cons x t ih =>
    obtain ⟨n, hd⟩ := x
    simp only [modifyImage, List.map_cons] at h ⊢
    by_cases hn : n = name
    · rw [if_pos hn] at h ⊢
      cases hd with
      | image pix =>
        obtain ⟨pix', hp, h⟩ := Res.bind_eq_ok.mp h
        injection h with h
        subst h
        simp only [roundHdu, hp, Res.ok_bind, List.map_cons]
      | objects _ => cases h
      | info _ => cases h
      | metadata _ => cases h
      | extra _ => cases h
    · rw [if_neg hn] at h ⊢
      obtain ⟨t', ht, h⟩ := Res.bind_eq_ok.mp h
      injection h with h
      subst h
      rw [ih ht]
      rfl

namespace Maker

theorem readImage_inDoubles (cfg : MakerCfg) (im : SrcImage) (t : String) : readImage cfg (inDoubles im) t = readImage cfg im t := rfl

/-- The maker in machine arithmetic that stands for one in exact arithmetic. -/
def roundMaker (images : List SrcImage) (mk : Maker) : Maker := { mk with images := images, objs := mk.objs.map roundRow }

theorem writeCutouts_round {mk : Maker} {images : List SrcImage} (him : mk.images = images.map inDoubles) (t : String) (buf : List ℚ) :
    (roundMaker images mk).writeCutouts t buf = mk.writeCutouts t buf := by
  unfold writeCutouts
  rw [him, numbered_map, foldRes_map]
  show foldRes (writeFileCutouts mk.cfg t (mk.objs.map roundRow)) buf (numbered images) = _
  congr 1
  funext b fi
  unfold writeFileCutouts
  simp only [readImage_inDoubles]
  congr 1
  funext r
  cases r with
  | none => rfl
  | some src =>
    simp only [foldRes_map]
    congr 1
    funext b o
    exact writeObjCutouts_round _ _ _ _ _ _ _ _

theorem writePsf_round {mk : Maker} {images : List SrcImage} (psf : List PsfModel) (buf : List ℚ) :
    (roundMaker images mk).writePsfSerial psf buf = mk.writePsfSerial psf buf := by
  unfold writePsfSerial
  show foldRes _ buf (mk.objs.map roundRow) = _
  rw [foldRes_map]
  congr 1
  funext b o
  exact writeObjPsf_round _ _ _ _ _ _

theorem writeData_round {mk : Maker} {images : List SrcImage} (him : mk.images = images.map inDoubles) {f : Fits} (h : mk.writeData = .ok f) :
    (roundMaker images mk).writeData = .ok (roundFits f) := by
  unfold writeData at h ⊢
  obtain ⟨h1, hf1, h⟩ := Res.bind_eq_ok.mp h
  obtain ⟨h2, hf2, h⟩ := Res.bind_eq_ok.mp h
  injection h with h
  subst h
  have e0 : (roundMaker images mk).tableHdus ++ (roundMaker images mk).reservedHdus =
      (mk.tableHdus ++ mk.reservedHdus).map (fun p => (p.1, roundHdu p.2)) := by
    rw [List.map_append]
    congr 1
    · unfold tableHdus roundMaker
      simp only [List.map_cons, List.map_nil, roundHdu, him, List.map_map]
      rfl
    · unfold reservedHdus roundMaker
      rw [List.map_append, List.map_map]
      congr 1
      cases mk.psf <;> rfl
  have e1 : foldRes (fun h t => modifyImage (t ++ "_cutouts") ((roundMaker images mk).writeCutouts t) h)
      ((mk.tableHdus ++ mk.reservedHdus).map (fun p => (p.1, roundHdu p.2))) (roundMaker images mk).types =
      .ok (h1.map (fun p => (p.1, roundHdu p.2))) := by
    show foldRes _ _ mk.types = _
    have : (fun h t => modifyImage (t ++ "_cutouts") ((roundMaker images mk).writeCutouts t) h) =
        fun h t => modifyImage (t ++ "_cutouts") (mk.writeCutouts t) h := by
      funext h t
      congr 1
      funext b
      exact writeCutouts_round him t b
    rw [this]
    clear this e0 hf2
    generalize mk.tableHdus ++ mk.reservedHdus = h0 at hf1 ⊢
    generalize mk.types = types at hf1 ⊢
    induction types generalizing h0 with
    | nil => simp only [foldRes] at hf1 ⊢; injection hf1 with hf1; rw [hf1]
    | cons t ts ih =>
      obtain ⟨mid, a, b⟩ := foldRes_cons_ok.mp hf1
      exact foldRes_cons_ok.mpr ⟨_, modifyImage_round _ _ a, ih _ b⟩
  dsimp only
  rw [e0, e1]
  simp only [Res.ok_bind]
  refine Res.bind_eq_ok.mpr ⟨h2.map (fun p => (p.1, roundHdu p.2)), ?_, ?_⟩
  · have hpr : (roundMaker images mk).psf = mk.psf := rfl
    rw [hpr]
    cases hp : mk.psf with
    | none => rw [hp] at hf2; simp only at hf2 ⊢; injection hf2 with hf2; rw [hf2]
    | some psf =>
      rw [hp] at hf2
      simp only at hf2 ⊢
      have : (roundMaker images mk).writePsfSerial psf = mk.writePsfSerial psf := by
        funext b; exact writePsf_round psf b
      rw [this]
      exact modifyImage_round _ _ hf2
  · unfold roundFits psfInfoHdus roundMaker
    simp only [List.map_append]
    congr 3
    cases mk.psfInfo <;> rfl

/-- The layout in machine arithmetic. -/
theorem buildLayoutM_eq {mk mkE mk' : Maker} {images : List SrcImage} (himg : mk.images = images)
    (hE : mkE = { mk with images := images.map inDoubles }) (hfresh : mk.objs.map roundRow = mk.objs)
    (hlim : ∀ j im, images[j]? = some im → LimitsFit mk.cfg j im) (hb : ∀ o ∈ mk.objs, |o.boxSize| ≤ 2 ^ 31 ∧ 0 ≤ o.ncutout)
    (h : mkE.buildLayout = .ok mk') (htot : mk'.totalPixels < 2 ^ 63) :
    mk.buildLayoutM = .ok (roundMaker images mk') ∧ mk'.images = images.map inDoubles := by
  subst hE
  unfold buildLayout at h
  dsimp only at h
  obtain ⟨objs0, h0, h⟩ := Res.bind_eq_ok.mp h
  obtain ⟨objs1, h1, h⟩ := Res.bind_eq_ok.mp h
  obtain ⟨objs2, h2, h⟩ := Res.bind_eq_ok.mp h
  obtain ⟨⟨objs3, e⟩, h3, h⟩ := Res.bind_eq_ok.mp h
  have hb0 : ∀ o ∈ objs0, |o.boxSize| ≤ 2 ^ 31 ∧ 0 ≤ o.ncutout := fun o ho => hb o (trim_sub h0 o ho)
  have t0 := trimM_eq (fun im him => hlim 0 im him) h0
  rw [hfresh] at t0
  rw [numbered_map] at h1
  obtain ⟨t1, hb1⟩ := foldM (L := numbered images) (fun fi hfi => hlim fi.1 fi.2 (mem_numbered.mp hfi)) hb0 h1
  have t2 := resize_round h2
  have hb2 : ∀ o ∈ objs2, |o.boxSize| ≤ 2 ^ 31 ∧ 0 ≤ o.ncutout := by
    obtain ⟨w, _, _, _, hres⟩ := resize_ok h2
    intro o' ho'
    obtain ⟨i, hi, rfl⟩ := List.mem_iff_getElem.mp ho'
    have hl := hres.length_eq
    have := (List.forall₂_iff_get.mp hres).2 i (by omega) hi
    simp only [List.get_eq_getElem] at this
    rw [this.2]
    have hm := hb1 _ (List.getElem_mem (l := objs1) (n := i) (by omega))
    exact hm
  split at h
  · cases h
  · rename_i hsum
    simp only [ne_eq, not_not] at hsum
    have he : e < 2 ^ 63 := by
      cases hp : mk.psf with
      | none => rw [hp] at h; injection h with h; subst h; exact htot
      | some psf =>
        rw [hp] at h
        obtain ⟨q, _, h⟩ := Res.bind_eq_ok.mp h
        injection h with h; subst h; exact htot
    have t3 := setStartRowsM_eq (le_refl 0) (fun o ho => (hb2 o ho).1) h3 he
    have hn : ∀ o ∈ objs2.map roundRow, 0 ≤ o.ncutout := by
      intro o ho
      obtain ⟨o1, ho1, rfl⟩ := List.mem_map.mp ho
      exact (hb2 o1 ho1).2
    have t4 : pixelSumM (objs2.map roundRow) = e := pixelSumM_end hn (by decide) t3
    unfold buildLayoutM
    rw [himg, t0]
    simp only [Res.ok_bind]
    rw [t1]
    simp only [Res.ok_bind]
    rw [t2]
    simp only [Res.ok_bind]
    rw [t3]
    simp only [Res.ok_bind]
    rw [if_neg (by rw [t4]; simp)]
    cases hp : mk.psf with
    | none =>
      rw [hp] at h
      injection h with h
      subst h
      exact ⟨by simp [roundMaker], rfl⟩
    | some psf =>
      rw [hp] at h
      obtain ⟨q, hq, h⟩ := Res.bind_eq_ok.mp h
      injection h with h
      subst h
      have := setPsfLayout_round (objs' := q.1) (e := q.2) hq
      dsimp only at this ⊢
      rw [this]
      exact ⟨by simp [roundMaker, Res.ok_bind], rfl⟩

end Maker
end Meds
