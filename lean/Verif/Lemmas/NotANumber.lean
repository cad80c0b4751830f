import Verif.Spec.NotANumber
import Verif.Props.Vector
import Verif.Props.Completion

/-!
# Positions that are not numbers: lemmas
-/

namespace Meds
namespace Maker
open Vec Spec Compare

variable {cfg : MakerCfg}

/-- The position record of an object (any kind of value). -/
def objPosN (im : SrcImageN) (o : ObjRow) : PosN := PosN.make (im.sky2image o.sky).2 (im.sky2image o.sky).1 im.im.info.positionOffset

/-- `contains_points` for one object. -/
def insideN (cfg : MakerCfg) (fileId : Nat) (im : SrcImageN) (o : ObjRow) : Bool :=
  let b := fileBounds cfg fileId im.im
  let p := objPosN im o
  p.zrow.leNum b.rowmax && p.zrow.geNum b.rowmin && p.zcol.leNum b.colmax && p.zcol.geNum b.colmin

/-- A position record of numbers, among those of any kind. -/
def _root_.Meds.PosN.of (p : Pos) : PosN := { wcsRow := .num p.wcsRow, wcsCol := .num p.wcsCol, zrow := .num p.zrow, zcol := .num p.zcol }

theorem fileBounds_dropping (fileId : Nat) (im : SrcImageN) : fileBounds cfg fileId (dropping im) = fileBounds cfg fileId im.im := rfl

theorem inside_number {fileId : Nat} {im : SrcImageN} {o : ObjRow} (h : insideN cfg fileId im o = true) :
    ∃ c r : ℚ, im.sky2image o.sky = (.num c, .num r) := by
  unfold insideN objPosN PosN.make at h
  cases hc : im.sky2image o.sky with
  | mk c r =>
    rw [hc] at h
    dsimp only at h
    cases r with
    | num r =>
      cases c with
      | num c => exact ⟨c, r, rfl⟩
      | nan => simp [Flt.subNum, Flt.leNum] at h
      | inf s => cases s <;> simp [Flt.subNum, Flt.leNum, Flt.geNum] at h
    | nan => simp [Flt.subNum, Flt.leNum] at h
    | inf s => cases s <;> simp [Flt.subNum, Flt.leNum, Flt.geNum] at h

theorem objPosN_number {im : SrcImageN} {o : ObjRow} {c r : ℚ} (h : im.sky2image o.sky = (.num c, .num r)) :
    objPosN im o = PosN.of (objPos (dropping im) o) := by
  unfold objPosN objPos dropping number2 PosN.of PosN.make makeWcsPosition
  simp [h, Flt.subNum]

theorem accepted_dropping (fileId : Nat) (im : SrcImageN) :
    accepted cfg fileId (dropping im) = fun o => im.im.wcs.rough o.sky && insideN cfg fileId im o := by
  funext o
  by_cases h : ∃ c r : ℚ, im.sky2image o.sky = (.num c, .num r)
  · obtain ⟨c, r, hcr⟩ := h
    unfold accepted insideN
    rw [objPosN_number hcr, fileBounds_dropping]
    have : (dropping im).wcs.rough o.sky = im.im.wcs.rough o.sky := by simp [dropping, number2, hcr]
    rw [this]
    congr 1
  · have h1 : insideN cfg fileId im o = false := by
      cases hi : insideN cfg fileId im o with
      | false => rfl
      | true => exact absurd (inside_number hi) h
    rw [h1, Bool.and_false]
    have : number2 (im.sky2image o.sky) = none := by
      unfold number2
      split
      · rename_i c r hx; exact absurd ⟨c, r, hx⟩ h
      · rfl
    unfold accepted
    have h2 : (dropping im).wcs.rough o.sky = false := by simp [dropping, this]
    rw [h2, Bool.false_and]

theorem posAndBoundsN_eq (objs : List ObjRow) (fileId : Nat) (im : SrcImageN) :
    posAndBoundsN cfg objs fileId im =
      .ok ((objs.filter (fun o => im.im.wcs.rough o.sky)).map (objPosN im), fileBounds cfg fileId im.im, sel (fun o => im.im.wcs.rough o.sky) objs) := by
  unfold posAndBoundsN
  dsimp only
  rw [sel_eq, take_sel]
  simp only [Res.ok_bind, List.map_map]
  rfl

theorem containsPointsN_eq (fileId : Nat) (im : SrcImageN) (l : List ObjRow) :
    whereTrue (containsPointsN (fileBounds cfg fileId im.im) (l.map (objPosN im))) = sel (insideN cfg fileId im) l := by
  unfold containsPointsN
  rw [List.map_map]
  exact sel_eq _ _

theorem filter_acceptedN (fileId : Nat) (im : SrcImageN) (objs : List ObjRow) :
    (objs.filter (fun o => im.im.wcs.rough o.sky)).filter (insideN cfg fileId im) = objs.filter (accepted cfg fileId (dropping im)) := by
  rw [List.filter_filter, accepted_dropping]
  congr 1
  funext o
  exact Bool.and_comm _ _

/-- The clipped position of any kind. -/
def clipPosN (b : Bounds) (p : PosN) : PosN := { p with zrow := p.zrow.clip b.rowmin b.rowmax, zcol := p.zcol.clip b.colmin b.colmax }

theorem clipPosN_of (b : Bounds) (p : Pos) : clipPosN b (PosN.of p) = PosN.of (clipPos b p) := rfl

theorem forceIntoN_eq (fileId : Nat) (im : SrcImageN) (l : List ObjRow) :
    forceIntoN (sel (insideN cfg fileId im) l) (l.map (objPosN im)) (fileBounds cfg fileId im.im) =
      if (l.filter (insideN cfg fileId im)).length = 0 then .error .valueError
      else if (l.filter (insideN cfg fileId im)).all (fun o => (fileBounds cfg fileId im.im).containsPoint
          (clipPos (fileBounds cfg fileId im.im) (objPos (dropping im) o)).zrow (clipPos (fileBounds cfg fileId im.im) (objPos (dropping im) o)).zcol)
        then .ok (l.map (fun o => if insideN cfg fileId im o then clipPosN (fileBounds cfg fileId im.im) (objPosN im o) else objPosN im o))
        else .error .creationError := by
  unfold forceIntoN
  rw [take_sel]
  simp only [Res.ok_bind, List.length_map, List.map_map]
  split
  · rfl
  · rw [show (l.filter (insideN cfg fileId im)).map ((fun p : PosN => p.zrow.clip (fileBounds cfg fileId im.im).rowmin (fileBounds cfg fileId im.im).rowmax) ∘ objPosN im) =
        (l.filter (insideN cfg fileId im)).map (fun o => (objPosN im o).zrow.clip (fileBounds cfg fileId im.im).rowmin (fileBounds cfg fileId im.im).rowmax) from rfl]
    rw [show (l.filter (insideN cfg fileId im)).map ((fun p : PosN => p.zcol.clip (fileBounds cfg fileId im.im).colmin (fileBounds cfg fileId im.im).colmax) ∘ objPosN im) =
        (l.filter (insideN cfg fileId im)).map (fun o => (objPosN im o).zcol.clip (fileBounds cfg fileId im.im).colmin (fileBounds cfg fileId im.im).colmax) from rfl]
    rw [putField_sel]
    simp only [Res.ok_bind]
    rw [putField_sel]
    simp only [Res.ok_bind]
    have e : (l.map (fun o => if insideN cfg fileId im o = true then
          { (if insideN cfg fileId im o = true then { objPosN im o with zrow := (objPosN im o).zrow.clip (fileBounds cfg fileId im.im).rowmin (fileBounds cfg fileId im.im).rowmax } else objPosN im o)
            with zcol := (objPosN im o).zcol.clip (fileBounds cfg fileId im.im).colmin (fileBounds cfg fileId im.im).colmax }
          else (if insideN cfg fileId im o = true then { objPosN im o with zrow := (objPosN im o).zrow.clip (fileBounds cfg fileId im.im).rowmin (fileBounds cfg fileId im.im).rowmax } else objPosN im o))) =
        l.map (fun o => if insideN cfg fileId im o then clipPosN (fileBounds cfg fileId im.im) (objPosN im o) else objPosN im o) := by
      refine List.map_congr_left fun o _ => ?_
      by_cases h : insideN cfg fileId im o = true
      · simp only [if_pos h]; rfl
      · simp only [if_neg h]
    rw [e, take_sel]
    simp only [Res.ok_bind]
    congr 1
    rw [eq_iff_iff]
    unfold containsPointsN
    rw [List.map_map, List.all_map, List.all_eq_true, List.all_eq_true]
    refine forall_congr' fun o => forall_congr' fun ho => ?_
    have hin := (List.mem_filter.mp ho).2
    obtain ⟨c, r, hcr⟩ := inside_number hin
    simp only [Function.comp, id, if_pos hin, objPosN_number hcr, clipPosN_of]
    simp only [Bounds.containsPoint, PosN.of, Flt.leNum, Flt.geNum]

theorem mapRes_toPos {l : List ObjRow} {P : ObjRow → PosN} {Q : ObjRow → Pos} (h : ∀ o ∈ l, P o = PosN.of (Q o)) :
    mapRes PosN.toPos (l.map P) = .ok (l.map Q) := by
  induction l with
  | nil => rfl
  | cons a l ih =>
    simp only [List.map_cons, mapRes]
    rw [h a (List.mem_cons_self ..), ih (fun o ho => h o (List.mem_cons_of_mem _ ho))]
    rfl

theorem fillV_dropping (fileId : Nat) (im : SrcImageN) (half : List Int) (objs : List ObjRow) (q : List Nat) (z : List Pos) :
    fillV fileId im.im half objs q z = fillV fileId (dropping im) half objs q z := rfl

/-- One pass over a file. -/
theorem layoutFileN_eq (objs : List ObjRow) (fileId : Nat) (im : SrcImageN) :
    layoutFileN cfg (objs.map (fun o => o.boxSize / 2)) objs (fileId, im) = layoutFile cfg objs (fileId, dropping im) := by
  unfold layoutFileN layoutFile
  dsimp only
  rw [posAndBoundsN_eq]
  simp only [Res.ok_bind]
  rw [containsPointsN_eq, sel_length, filter_acceptedN]
  have hq := take_sel_sel (fun o : ObjRow => im.im.wcs.rough o.sky) (insideN cfg fileId im) objs
  rw [← accepted_dropping] at hq
  have hz : ∀ P : ObjRow → PosN, take ((objs.filter (fun o => im.im.wcs.rough o.sky)).map P) (sel (insideN cfg fileId im) (objs.filter (fun o => im.im.wcs.rough o.sky))) =
      .ok ((objs.filter (accepted cfg fileId (dropping im))).map P) := by
    intro P; rw [take_sel, filter_acceptedN]
  have hacc : ∀ o ∈ objs.filter (accepted cfg fileId (dropping im)), insideN cfg fileId im o = true ∧ objPosN im o = PosN.of (objPos (dropping im) o) := by
    intro o ho
    have h := (List.mem_filter.mp ho).2
    rw [accepted_dropping] at h
    have h := (Bool.and_eq_true_iff.mp h).2
    obtain ⟨c, r, hcr⟩ := inside_number h
    exact ⟨h, objPosN_number hcr⟩
  unfold forceCheck
  by_cases hf : forces cfg fileId = true
  · have hf' : (cfg.firstImageIsCoadd && fileId == 0 && cfg.forceIntoCoaddBounds) = true := hf
    rw [if_pos hf, if_pos hf', forceIntoN_eq, filter_acceptedN]
    dsimp only
    rw [fileBounds_dropping]
    split
    · rfl
    · split
      · simp only [Res.ok_bind]
        split
        · rfl
        · rw [hq]
          simp only [Res.ok_bind]
          rw [hz]
          simp only [Res.ok_bind]
          rw [mapRes_toPos (Q := finalPos cfg fileId (dropping im)), Res.ok_bind, fillV_dropping, fillV_eq]
          intro o ho
          obtain ⟨h1, h2⟩ := hacc o ho
          rw [if_pos h1, h2, clipPosN_of]
          unfold finalPos
          rw [if_pos hf, fileBounds_dropping]
      · rfl
  · have hf' : ¬ (cfg.firstImageIsCoadd && fileId == 0 && cfg.forceIntoCoaddBounds) = true := hf
    rw [if_neg hf, if_neg hf']
    simp only [Res.ok_bind]
    split
    · rfl
    · rw [hq]
      simp only [Res.ok_bind]
      rw [hz]
      simp only [Res.ok_bind]
      rw [mapRes_toPos (Q := finalPos cfg fileId (dropping im)), Res.ok_bind, fillV_dropping, fillV_eq]
      intro o ho
      rw [(hacc o ho).2]
      unfold finalPos
      rw [if_neg hf]

theorem fold_layoutFileN_eq (L : List (Nat × SrcImageN)) (objs : List ObjRow) :
    foldRes (layoutFileN cfg (objs.map (fun o => o.boxSize / 2))) objs L = foldRes (layoutFile cfg) objs (L.map (fun x => (x.1, dropping x.2))) := by
  generalize hh : objs.map (fun o => o.boxSize / 2) = half
  induction L generalizing objs with
  | nil => rfl
  | cons fi L ih =>
    obtain ⟨i, im⟩ := fi
    simp only [foldRes, List.map_cons]
    rw [← hh, layoutFileN_eq, hh]
    cases h : layoutFile cfg objs (i, dropping im) with
    | error e => rfl
    | ok objs' => exact ih objs' (by rw [layoutFile_box h, hh])

theorem trimN_eq (images : List SrcImageN) (objs : List ObjRow) : trimN cfg images objs = trim cfg (images.map dropping) objs := by
  unfold trimN trim
  split
  · cases images with
    | nil => rfl
    | cons im rest =>
      rw [show pyGet (im :: rest) 0 = .ok im from pyGet_nat_some (k := 0) rfl]
      simp only [Res.ok_bind]
      rw [posAndBoundsN_eq]
      simp only [Res.ok_bind]
      rw [containsPointsN_eq, sel_length, filter_acceptedN]
      simp only [List.map_cons]
      split
      · rfl
      · have hq := take_sel_sel (fun o : ObjRow => im.im.wcs.rough o.sky) (insideN cfg 0 im) objs
        rw [← accepted_dropping] at hq
        rw [hq]
        simp only [Res.ok_bind]
        have := take_sel (fun o : ObjRow => o) (accepted cfg 0 (dropping im)) objs
        rw [List.map_id', List.map_id'] at this
        exact this
  · rfl

theorem numbered_map {α β : Type} (g : α → β) (l : List α) : numbered (l.map g) = (numbered l).map (fun x => (x.1, g x.2)) := by
  unfold numbered
  rw [List.length_map, List.zip_map_right]
  rfl

theorem buildLayoutN_eq (images : List SrcImageN) (mk : Maker) :
    (buildLayoutN images mk).map (fun m => { m with images := images.map dropping }) = ({ mk with images := images.map dropping } : Maker).buildLayout := by
  unfold buildLayoutN buildLayout
  dsimp only
  rw [trimN_eq]
  cases trim mk.cfg (images.map dropping) mk.objs with
  | error e => rfl
  | ok objs0 =>
    simp only [Res.ok_bind]
    rw [fold_layoutFileN_eq, numbered_map]
    cases foldRes (layoutFile mk.cfg) objs0 ((numbered images).map (fun x => (x.1, dropping x.2))) with
    | error e => rfl
    | ok objs1 =>
      simp only [Res.ok_bind]
      cases resize objs1 with
      | error e => rfl
      | ok objs2 =>
        simp only [Res.ok_bind]
        cases setStartRows 0 objs2 with
        | error e => rfl
        | ok r =>
          simp only [Res.ok_bind]
          split
          · rfl
          · cases mk.psf with
            | none => rfl
            | some psf =>
              dsimp only
              cases setPsfLayout psf 0 r.1 <;> rfl

theorem foldRes_mapped {α β γ : Type} (f : α → β → Res α) (g : γ → β) (l : List γ) (a : α) :
    foldRes f a (l.map g) = foldRes (fun a x => f a (g x)) a l := by
  induction l generalizing a with
  | nil => rfl
  | cons x l ih =>
    simp only [List.map_cons, foldRes]
    cases f a (g x) with
    | error e => rfl
    | ok b => exact ih b

theorem writeData_dropping (images : List SrcImageN) (mk : Maker) :
    ({ mk with images := images.map (·.im) } : Maker).writeData = ({ mk with images := images.map dropping } : Maker).writeData := by
  have hc : ∀ t, ({ mk with images := images.map (·.im) } : Maker).writeCutouts t = ({ mk with images := images.map dropping } : Maker).writeCutouts t := by
    intro t
    funext buf
    unfold writeCutouts
    dsimp only
    rw [numbered_map, numbered_map, foldRes_mapped, foldRes_mapped]
    rfl
  have ht : ({ mk with images := images.map (·.im) } : Maker).tableHdus = ({ mk with images := images.map dropping } : Maker).tableHdus := by
    unfold tableHdus
    dsimp only
    rw [List.map_map, List.map_map]
    rfl
  unfold writeData
  simp only [hc, ht]
  rfl

theorem buildLayoutN_images {images : List SrcImageN} {mk mk' : Maker} (h : buildLayoutN images mk = .ok mk') : mk'.images = mk.images := by
  unfold buildLayoutN at h
  obtain ⟨_, _, h⟩ := Res.bind_eq_ok.mp h
  obtain ⟨_, _, h⟩ := Res.bind_eq_ok.mp h
  obtain ⟨_, _, h⟩ := Res.bind_eq_ok.mp h
  obtain ⟨r, _, h⟩ := Res.bind_eq_ok.mp h
  split at h
  · cases h
  · split at h
    · injection h with h; rw [← h]
    · obtain ⟨q, _, h⟩ := Res.bind_eq_ok.mp h
      injection h with h; rw [← h]

theorem init_images {cfg : MakerCfg} {hn : Bool} {objs : List InputObj} {images images' : List SrcImage} {psf : Option (List PsfModel)}
    {psfInfo : Option String} {md : String} (hl : images.length = images'.length) :
    (Maker.init cfg hn objs images psf psfInfo md).map (fun m => { m with images := images' }) = Maker.init cfg hn objs images' psf psfInfo md := by
  unfold Maker.init
  rw [hl]
  cases setCutoutTypes cfg.cutoutTypes with
  | error e => rfl
  | ok t =>
    simp only [Res.ok_bind]
    split <;> rfl

theorem init_images_eq {cfg : MakerCfg} {hn : Bool} {objs : List InputObj} {images : List SrcImage} {psf : Option (List PsfModel)}
    {psfInfo : Option String} {md : String} {mk : Maker} (h : Maker.init cfg hn objs images psf psfInfo md = .ok mk) : mk.images = images := by
  unfold Maker.init at h
  obtain ⟨_, _, h⟩ := Res.bind_eq_ok.mp h
  split at h
  · cases h
  · injection h with h; rw [← h]

end Maker
end Meds
