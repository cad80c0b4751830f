import Verif.Lemmas.MachineSim
import Verif.Lemmas.Extract
import Verif.Examples.Maker
import Mathlib.Tactic.NormNum
import Mathlib.Tactic.Ring

/-!
# The file in machine arithmetic (C95)

`Model/Machine.lean` computes the layout with the types of the arrays (doubles, 32- and 64-bit integers).  Here: the file it writes is the one of the exact model,
except that the centre of an object in its box is rounded to a double.
-/

namespace Meds
open Spec Maker

/-- What stays the same between a file and the file with rounded centres: every call of the reader but those that return the centre, for all arguments,
exceptions included. -/
structure Spec.SamePixels (m m' : MEDS) : Prop where
  size : m.size = m'.size
  cutout : ∀ i k t, m.getCutout i k t = m'.getCutout i k t
  mosaic : ∀ i t, m.getMosaic i t = m'.getMosaic i t
  list : ∀ i t, m.getCutoutList i t = m'.getCutoutList i t
  psf : ∀ i k, m.getPsf i k = m'.getPsf i k
  psfList : ∀ i, m.getPsfList i = m'.getPsfList i
  source : ∀ i k, m.getSourceInfo i k = m'.getSourceInfo i k
  path : ∀ i k, m.getSourcePath i k = m'.getSourcePath i k
  matrix : ∀ i k, m.getJacobianMatrix i k = m'.getJacobianMatrix i k
  number : ∀ i, m.getNumber i = m'.getNumber i

/-- The opened file with rounded centres. -/
def Spec.roundMeds (m : MEDS) : MEDS := { m with fits := roundFits m.fits, cat := { m.cat with rows := m.cat.rows.map roundRow } }

theorem lookup_round (hs : List (String × Hdu)) (n : String) :
    Fits.lookup (hs.map (fun p => (p.1, roundHdu p.2))) n = (Fits.lookup hs n).map roundHdu := by
  induction hs with
  | nil => rfl
  | cons x t ih =>
    obtain ⟨a, hd⟩ := x
    simp only [List.map_cons, Fits.lookup, ih]
    split <;> rfl

theorem find_round (f : Fits) (n : String) : (roundFits f).find n = (f.find n).map roundHdu := lookup_round _ _

theorem has_round (f : Fits) (n : String) : (roundFits f).has n = f.has n := by
  unfold Fits.has
  rw [find_round]
  cases f.find n <;> rfl

theorem openFile_round {f : Fits} {m : MEDS} (h : MEDS.openFile f = .ok m) : MEDS.openFile (roundFits f) = .ok (roundMeds m) := by
  unfold MEDS.openFile at h ⊢
  simp only [find_round]
  cases h1 : f.find "object_data" with
  | none => rw [h1] at h; cases h
  | some a =>
    rw [h1] at h
    cases a with
    | objects t =>
      cases h2 : f.find "image_info" with
      | none => rw [h2] at h; cases h
      | some b =>
        rw [h2] at h
        cases b with
        | info i =>
          cases h3 : f.find "metadata" with
          | none => rw [h3] at h; cases h
          | some c =>
            rw [h3] at h
            cases c with
            | metadata md =>
              injection h with h
              subst h
              rfl
            | _ => cases h
        | _ => cases h
    | _ => cases h

theorem imageSlice_round (f : Fits) (n : String) (a b : Int) : (roundFits f).imageSlice n a b = f.imageSlice n a b := by
  unfold Fits.imageSlice
  rw [find_round]
  cases f.find n with
  | none => rfl
  | some hd => cases hd <;> rfl

theorem row_round (m : MEDS) (i : Int) : (roundMeds m).row i = m.row i >>= fun o => .ok (roundRow o) := Extract.pyGet_map _ _ _

theorem size_round (m : MEDS) : (roundMeds m).size = m.size := by simp [MEDS.size, roundMeds]

theorem slot_round (m : MEDS) (i k : Int) : (roundMeds m).slot i k = m.slot i k >>= fun s => .ok (roundSlot s) := by
  unfold MEDS.slot
  rw [row_round]
  cases m.row i with
  | error e => rfl
  | ok o => exact Extract.pyGet_map _ _ _

theorem checkIndices_round (m : MEDS) (i : Int) (k : Option Int) : (roundMeds m).checkIndices i k = m.checkIndices i k := by
  unfold MEDS.checkIndices
  rw [size_round, row_round]
  cases m.row i <;> rfl

theorem getPsf_round (m : MEDS) (i k : Int) : (roundMeds m).getPsf i k = m.getPsf i k := by
  have hs : (roundMeds m).psfShape i k = m.psfShape i k := by
    unfold MEDS.psfShape
    rw [slot_round, row_round]
    rw [show (roundMeds m).cat.dtype = m.cat.dtype from rfl]
    cases m.cat.dtype.psfRowCol
    · cases m.cat.dtype.psfBox <;> cases m.slot i k <;> cases m.row i <;> rfl
    · cases m.row i <;> rfl
    · cases m.slot i k <;> rfl
  unfold MEDS.getPsf
  have hp : (roundMeds m).hasPsf = m.hasPsf := has_round _ _
  rw [hp, checkIndices_round, hs, slot_round]
  split
  · cases m.checkIndices i (some k) with
    | error e => rfl
    | ok _ =>
      cases m.psfShape i k with
      | error e => rfl
      | ok sh =>
        cases m.slot i k with
        | error e => rfl
        | ok s =>
          simp only [Res.ok_bind]
          rw [show (roundMeds m).fits = roundFits m.fits from rfl, imageSlice_round]
          rfl
  · rfl

theorem ext_round (m : MEDS) (t : String) : (roundMeds m).extensionName t = m.extensionName t := by
  unfold MEDS.extensionName
  dsimp only
  rw [show (roundMeds m).fits = roundFits m.fits from rfl, has_round]

theorem getMosaic_round (m : MEDS) (i : Int) (t : String) : (roundMeds m).getMosaic i t = m.getMosaic i t := by
  unfold MEDS.getMosaic
  rw [checkIndices_round, row_round, slot_round, ext_round]
  cases m.checkIndices i none with
  | error e => rfl
  | ok _ =>
    cases m.row i with
    | error e => rfl
    | ok o =>
      cases m.slot i 0 with
      | error e => rfl
      | ok s =>
        cases m.extensionName t with
        | error e => rfl
        | ok n =>
          simp only [Res.ok_bind]
          rw [show (roundMeds m).fits = roundFits m.fits from rfl, imageSlice_round]
          rfl

theorem getPsfList_round (m : MEDS) (i : Int) : (roundMeds m).getPsfList i = m.getPsfList i := by
  unfold MEDS.getPsfList
  rw [row_round]
  cases m.row i with
  | error e => rfl
  | ok o =>
    simp only [Res.ok_bind]
    exact mapRes_congr (fun k _ => getPsf_round m i k)

theorem source_round (m : MEDS) (i k : Int) : (roundMeds m).getSourceInfo i k = m.getSourceInfo i k := by
  unfold MEDS.getSourceInfo
  rw [checkIndices_round, slot_round]
  cases m.checkIndices i (some k) with
  | error e => rfl
  | ok _ => cases m.slot i k <;> rfl

theorem samePixels_round (m : MEDS) : SamePixels m (roundMeds m) where
  size := (size_round m).symm
  cutout := by
    intro i k t
    unfold MEDS.getCutout
    rw [getPsf_round, checkIndices_round, row_round, slot_round, ext_round]
    split
    · rfl
    · cases m.checkIndices i (some k) with
      | error e => rfl
      | ok _ =>
        cases m.row i with
        | error e => rfl
        | ok o =>
          cases m.slot i k with
          | error e => rfl
          | ok s =>
            cases m.extensionName t with
            | error e => rfl
            | ok n =>
              simp only [Res.ok_bind]
              rw [show (roundMeds m).fits = roundFits m.fits from rfl, imageSlice_round]
              rfl
  mosaic i t := (getMosaic_round m i t).symm
  list := by
    intro i t
    unfold MEDS.getCutoutList
    rw [getPsfList_round, getMosaic_round]
  psf i k := (getPsf_round m i k).symm
  psfList i := (getPsfList_round m i).symm
  source i k := (source_round m i k).symm
  path := by
    intro i k
    unfold MEDS.getSourcePath
    rw [source_round]
  matrix := by
    intro i k
    unfold MEDS.getJacobianMatrix
    rw [slot_round]
    cases m.slot i k <;> rfl
  number := by
    intro i
    unfold MEDS.getNumber
    rw [row_round]
    show (if m.cat.dtype.hasNumber = true then _ else _) = (if m.cat.dtype.hasNumber = true then _ else _)
    split
    · cases m.row i <;> rfl
    · rfl

/-! ### The file -/

section
variable {cfg : MakerCfg} {hn : Bool} {objs : List InputObj} {images : List SrcImage} {psf : Option (List PsfModel)}
  {psfInfo : Option String} {md : String} {mk mkE mk' : Maker} {f : Fits} {m : MEDS}

/-- **C95** In machine arithmetic the layout is the one that exact arithmetic gives for the rounded positions, and the file is the same but for the
rounding of the centres. -/
theorem C95_machine_file (hi : Maker.init cfg hn objs images psf psfInfo md = .ok mk)
    (hiE : Maker.init cfg hn objs (images.map inDoubles) psf psfInfo md = .ok mkE) (hw : mkE.write = .ok (mk', f))
    (hlim : ∀ j im, images[j]? = some im → LimitsFit cfg j im) (hbox : ∀ o ∈ objs, |o.boxSize| < 2 ^ 31) (htot : mk'.totalPixels < 2 ^ 63) :
    ∃ mkM, mk.writeM = .ok (mkM, roundFits f) := by
  obtain ⟨e1, e2, e3, e4, e5, e6, e7, e8, e9⟩ := init_ok hi
  obtain ⟨g1, g2, g3, g4, g5, g6, g7, g8, g9⟩ := init_ok hiE
  obtain ⟨hb, hd⟩ := write_ok hw
  have hfull : mkE = { mk with images := images.map inDoubles } := by
    unfold Maker.init at hi hiE
    obtain ⟨t1, ht1, hi⟩ := Res.bind_eq_ok.mp hi
    obtain ⟨t2, ht2, hiE⟩ := Res.bind_eq_ok.mp hiE
    rw [ht1] at ht2
    injection ht2 with ht2
    subst ht2
    rw [List.length_map] at hiE
    split at hi
    · cases hi
    · rename_i hl
      rw [if_neg hl] at hiE
      injection hi with hi
      injection hiE with hiE
      rw [← hi, ← hiE]
  have hfresh : mk.objs.map roundRow = mk.objs := by
    rw [e8, List.map_map, List.map_map, List.map_map]
    apply List.map_congr_left
    intro o _
    simp only [Function.comp_apply]
    obtain ⟨_, b, _⟩ := forceEven_fresh (fullRow (initialNmax cfg images.length) o)
    unfold roundRow
    rw [b]
    have : (fullRow (initialNmax cfg images.length) o).slots.map roundSlot = (fullRow (initialNmax cfg images.length) o).slots := by
      unfold fullRow
      simp only [List.map_replicate, roundSlot_dflt]
    rw [this, ← b]
  obtain ⟨hM, him⟩ := buildLayoutM_eq e2 hfull hfresh (by rw [e1]; exact hlim) (by
    intro o ho
    rw [e8] at ho
    obtain ⟨o1, ho1, rfl⟩ := List.mem_map.mp ho
    obtain ⟨o2, ho2, rfl⟩ := List.mem_map.mp ho1
    have hbo := abs_lt.mp (hbox o2 ho2)
    refine ⟨?_, by rw [(forceEven_fresh _).1]; exact le_refl 0⟩
    unfold forceEven fullRow
    split
    · exact abs_le.mpr ⟨by simp only; omega, by simp only; omega⟩
    · exact abs_le.mpr ⟨by simp only; omega, by simp only; omega⟩) hb htot
  refine ⟨roundMaker images mk', ?_⟩
  unfold writeM
  rw [hM]
  simp only [Res.ok_bind]
  rw [writeData_round him hd]
  rfl

/-- **C95** Every call of the reader gives the same for the two files, except those that return the centre. -/
theorem C95_same_pixels (ho : MEDS.openFile f = .ok m) : ∃ m', MEDS.openFile (roundFits f) = .ok m' ∧ SamePixels m m' :=
  ⟨_, openFile_round ho, samePixels_round m⟩

/-- The difference of the position and the corner is a double unless the corner is off the image. -/
theorem centre_double {x : ℚ} (hx : IsDouble x) (hx53 : x ≤ 2 ^ 53) {b : Int} (hb : 2 ≤ b) (hs : 0 ≤ truncZ x - b / 2 + 1) :
    IsDouble (x - ((truncZ x - b / 2 + 1 : Int) : ℚ)) := by
  rcases lt_or_ge x 0 with h0 | h0
  · have : truncZ x ≤ 0 := by
      unfold truncZ
      split
      · linarith
      · rw [Int.ceil_le]; push_cast; linarith
    have e : truncZ x - b / 2 + 1 = 0 := by omega
    rw [e]
    simpa using hx
  · refine hx.sub_int hs ?_ hx53
    have h1 : (truncZ x : ℚ) ≤ x := by
      unfold truncZ
      rw [if_pos h0]
      exact Int.floor_le x
    have h2 : truncZ x - b / 2 + 1 ≤ truncZ x := by omega
    have h3 : ((truncZ x - b / 2 + 1 : Int) : ℚ) ≤ truncZ x := by exact_mod_cast h2
    linarith

/-- **C95** The epochs of the file in machine arithmetic: the position is that of the image, rounded; the corner follows from it exactly; the centre is the
position minus the corner up to `box_size / 2^54`, and exactly that where the corner is not off the image. -/
theorem C95_centre (hiE : Maker.init cfg hn objs (images.map inDoubles) psf psfInfo md = .ok mkE) (hw : mkE.write = .ok (mk', f))
    (hlim : ∀ j im, images[j]? = some im → LimitsFit cfg j im) (ho : MEDS.openFile (roundFits f) = .ok m) {i k : Nat} {o : ObjRow} {s : Slot}
    (he : Epoch m.cat.rows i k o s) (hb : 0 < o.boxSize) :
    ∃ (j : Nat) (im : SrcImage), s.fileId = (j : Int) ∧ images[j]? = some im ∧
      s.origRow = rndD (rowIn im o.sky) ∧ s.origCol = rndD (colIn im o.sky) ∧
      s.origStartRow = truncZ s.origRow - o.boxSize / 2 + 1 ∧ s.origStartCol = truncZ s.origCol - o.boxSize / 2 + 1 ∧
      |s.cutoutRow - (s.origRow - s.origStartRow)| ≤ o.boxSize / 2 ^ 54 ∧ |s.cutoutCol - (s.origCol - s.origStartCol)| ≤ o.boxSize / 2 ^ 54 ∧
      (0 ≤ s.origStartRow → s.cutoutRow = s.origRow - s.origStartRow) ∧ (0 ≤ s.origStartCol → s.cutoutCol = s.origCol - s.origStartCol) := by
  obtain ⟨in0, w, W, _⟩ := written hiE hw
  have ho' := openFile_round W.open
  rw [ho] at ho'
  injection ho' with ho'
  have hex : ∃ o0 s0, Epoch (openedOf mk' f).cat.rows i k o0 s0 ∧ o = roundRow o0 ∧ s = roundSlot s0 := by
    obtain ⟨h1, h2, h3⟩ := he
    rw [ho'] at h1
    have h1' : ((openedOf mk' f).cat.rows.map roundRow)[i]? = some o := h1
    rw [List.getElem?_map] at h1'
    cases hx : (openedOf mk' f).cat.rows[i]? with
    | none => rw [hx] at h1'; cases h1'
    | some o0 =>
      rw [hx] at h1'
      injection h1' with h1'
      subst h1'
      have h3' : (o0.slots.map roundSlot)[k]? = some s := h3
      rw [List.getElem?_map] at h3'
      cases hy : o0.slots[k]? with
      | none => rw [hy] at h3'; cases h3'
      | some s0 =>
        rw [hy] at h3'
        injection h3' with h3'
        exact ⟨o0, s0, ⟨hx, h2, hy⟩, rfl, h3'.symm⟩
  obtain ⟨o0, s0, he0, rfl, rfl⟩ := hex
  obtain ⟨j, imE, p1, p2, p3, p4, p5, p6, p7, p8, p9, _⟩ := C06_positions_recorded hiE hw W.open he0
  obtain ⟨_, _, q3, q4, q5, q6⟩ := C06_geometry hiE hw W.open he0
  have heven := (C08_boxes_even hiE hw W.open he0.1).1
  rw [List.getElem?_map] at p2
  cases hj : images[j]? with
  | none => rw [hj] at p2; cases p2
  | some im =>
    rw [hj] at p2
    injection p2 with p2
    subst p2
    have hr : rowIn (inDoubles im) o0.sky = rndD (rowIn im o0.sky) := by simp [rowIn, inDoubles]
    have hc : colIn (inDoubles im) o0.sky = rndD (colIn im o0.sky) := by simp [colIn, inDoubles]
    have L := hlim j im hj
    obtain ⟨_, _, c2, _, c4⟩ := p3
    have c2' : s0.origRow ≤ 2 ^ 53 := by
      rw [p4]
      refine le_trans c2 (le_trans (le_of_lt L.rowRange) (by norm_num))
    have c4' : s0.origCol ≤ 2 ^ 53 := by
      rw [p5]
      refine le_trans c4 (le_trans (le_of_lt L.colRange) (by norm_num))
    have hb' : 0 < o0.boxSize := hb
    have hb2 : 2 ≤ o0.boxSize := by omega
    have hbq : (1 : ℚ) ≤ (o0.boxSize : ℚ) / 2 := by
      have : ((2 : Int) : ℚ) ≤ (o0.boxSize : ℚ) := by exact_mod_cast hb2
      push_cast at this; linarith
    have bound : ∀ x c : ℚ, (0 ≤ x → (o0.boxSize : ℚ) / 2 - 1 ≤ c ∧ c < (o0.boxSize : ℚ) / 2) →
        (x < 0 → (o0.boxSize : ℚ) / 2 - 2 < c ∧ c ≤ (o0.boxSize : ℚ) / 2 - 1) → |rndD c - c| ≤ (o0.boxSize : ℚ) / 2 ^ 54 := by
      intro x c h1 h2
      have habs : |c| ≤ (o0.boxSize : ℚ) / 2 := by
        rw [abs_le]
        rcases lt_or_ge x 0 with hx | hx
        · have := h2 hx; constructor <;> linarith
        · have := h1 hx; constructor <;> linarith
      calc |rndD c - c| ≤ |c| / 2 ^ 53 := rndD_error c
        _ ≤ ((o0.boxSize : ℚ) / 2) / 2 ^ 53 := by gcongr
        _ = (o0.boxSize : ℚ) / 2 ^ 54 := by ring
    have hd1 : IsDouble s0.origRow := by rw [p4, hr]; exact rndD_isDouble _
    have hd2 : IsDouble s0.origCol := by rw [p5, hc]; exact rndD_isDouble _
    rw [← p4] at p6
    rw [← p5] at p7
    refine ⟨j, im, p1, hj, p4.trans hr, p5.trans hc, p6, p7, ?_, ?_, ?_, ?_⟩
    · have := bound s0.origRow s0.cutoutRow q3 q5
      show |rndD s0.cutoutRow - (s0.origRow - s0.origStartRow)| ≤ (o0.boxSize : ℚ) / 2 ^ 54
      rw [← p8]; exact this
    · have := bound s0.origCol s0.cutoutCol q4 q6
      show |rndD s0.cutoutCol - (s0.origCol - s0.origStartCol)| ≤ (o0.boxSize : ℚ) / 2 ^ 54
      rw [← p9]; exact this
    · intro h0
      show rndD s0.cutoutRow = s0.origRow - s0.origStartRow
      rw [p8]
      refine rndD_double ?_
      rw [p6]
      exact centre_double hd1 c2' hb2 (by rw [← p6]; exact h0)
    · intro h0
      show rndD s0.cutoutCol = s0.origCol - s0.origStartCol
      rw [p9]
      refine rndD_double ?_
      rw [p7]
      exact centre_double hd2 c4' hb2 (by rw [← p7]; exact h0)

end

/-! ### positions that are doubles -/

namespace Maker

/-- The position of the object in the image is a double. -/
def PosDouble (im : SrcImage) (sky : SkyPos) : Prop := IsDouble (rowIn im sky) ∧ IsDouble (colIn im sky)

theorem objPos_inDoubles {im : SrcImage} {o : ObjRow} (h : PosDouble im o.sky) : objPos (inDoubles im) o = objPos im o := by
  obtain ⟨h1, h2⟩ := h
  have e1 := rndD_double h1
  have e2 := rndD_double h2
  unfold rowIn at e1
  unfold colIn at e2
  unfold objPos inDoubles
  dsimp only
  rw [e1, e2, sub_add_cancel, sub_add_cancel]

theorem accepted_inDoubles {cfg : MakerCfg} {j : Nat} {im : SrcImage} {o : ObjRow} (h : PosDouble im o.sky) :
    accepted cfg j (inDoubles im) o = accepted cfg j im o := by
  unfold accepted
  rw [objPos_inDoubles h]
  rfl

theorem addEpoch_inDoubles {cfg : MakerCfg} {j : Nat} {im : SrcImage} {o : ObjRow} (h : PosDouble im o.sky) :
    addEpoch cfg j (inDoubles im) o = addEpoch cfg j im o := by
  have hf : finalPos cfg j (inDoubles im) o = finalPos cfg j im o := by
    unfold finalPos
    rw [objPos_inDoubles h]
    rfl
  unfold addEpoch
  dsimp only
  rw [hf]
  congr 1
  funext k
  congr 1
  funext old
  have : newSlot j (inDoubles im) (finalPos cfg j im o) o old = newSlot j im (finalPos cfg j im o) o old := by
    have a : (finalPos cfg j im o).wcsCol = (im.wcs.sky2image o.sky).1 := by
      unfold finalPos; split <;> rfl
    have b : (finalPos cfg j im o).wcsRow = (im.wcs.sky2image o.sky).2 := by
      unfold finalPos; split <;> rfl
    unfold newSlot
    rw [a, b]
    rfl
  rw [this]

theorem layoutFile_inDoubles {cfg : MakerCfg} {j : Nat} {im : SrcImage} {objs : List ObjRow} (h : ∀ o ∈ objs, PosDouble im o.sky) :
    layoutFile cfg objs (j, inDoubles im) = layoutFile cfg objs (j, im) := by
  have hfil : objs.filter (accepted cfg j (inDoubles im)) = objs.filter (accepted cfg j im) :=
    List.filter_congr (fun o ho => accepted_inDoubles (h o ho))
  have hfc : forceCheck cfg j (inDoubles im) objs = forceCheck cfg j im objs := by
    unfold forceCheck
    dsimp only
    rw [hfil]
    have : (objs.filter (accepted cfg j im)).all (fun o => (fileBounds cfg j (inDoubles im)).containsPoint
          (clipPos (fileBounds cfg j (inDoubles im)) (objPos (inDoubles im) o)).zrow (clipPos (fileBounds cfg j (inDoubles im)) (objPos (inDoubles im) o)).zcol) =
        (objs.filter (accepted cfg j im)).all (fun o => (fileBounds cfg j im).containsPoint
          (clipPos (fileBounds cfg j im) (objPos im o)).zrow (clipPos (fileBounds cfg j im) (objPos im o)).zcol) := by
      rw [Bool.eq_iff_iff, List.all_eq_true, List.all_eq_true]
      refine forall_congr' (fun o => forall_congr' (fun ho => ?_))
      rw [objPos_inDoubles (h o (List.mem_filter.mp ho).1)]
      exact Iff.rfl
    rw [this]
  unfold layoutFile
  dsimp only
  rw [hfc, hfil]
  congr 1
  funext _
  split
  · rfl
  · refine mapRes_congr (fun o ho => ?_)
    rw [accepted_inDoubles (h o ho), addEpoch_inDoubles (h o ho)]

theorem layoutFile_skies {cfg : MakerCfg} {fi : Nat × SrcImage} {objs objs' : List ObjRow} (hok : layoutFile cfg objs fi = .ok objs') :
    ∀ o' ∈ objs', ∃ o ∈ objs, o'.sky = o.sky := by
  have h := mapRes_ok_iff.mp (layoutFile_ok hok).1
  intro o' ho'
  obtain ⟨i, hi, rfl⟩ := List.mem_iff_getElem.mp ho'
  have hl := h.length_eq
  have := (List.forall₂_iff_get.mp h).2 i (by omega) hi
  simp only [List.get_eq_getElem] at this
  refine ⟨_, List.getElem_mem (l := objs) (n := i) (by omega), ?_⟩
  unfold stepObj at this
  split at this
  · unfold addEpoch at this
    obtain ⟨k, _, this⟩ := Res.bind_eq_ok.mp this
    obtain ⟨old, _, this⟩ := Res.bind_eq_ok.mp this
    injection this with this
    rw [← this]
  · injection this with this
    rw [← this]

theorem fold_inDoubles {cfg : MakerCfg} {L : List (Nat × SrcImage)} {objs objs' : List ObjRow} (h : ∀ o ∈ objs, ∀ fi ∈ L, PosDouble fi.2 o.sky)
    (hok : foldRes (layoutFile cfg) objs L = .ok objs') :
    foldRes (layoutFile cfg) objs (L.map (fun fi => (fi.1, inDoubles fi.2))) = .ok objs' := by
  induction L generalizing objs with
  | nil => exact hok
  | cons fi L ih =>
    obtain ⟨mid, h1, h2⟩ := foldRes_cons_ok.mp hok
    rw [List.map_cons]
    refine foldRes_cons_ok.mpr ⟨mid, ?_, ih ?_ h2⟩
    · rw [layoutFile_inDoubles (fun o ho => h o ho fi (by simp))]; exact h1
    · intro o' ho' x hx
      obtain ⟨o, ho, hs⟩ := layoutFile_skies h1 o' ho'
      rw [hs]
      exact h o ho x (by simp [hx])

theorem trim_inDoubles {cfg : MakerCfg} {images : List SrcImage} {objs : List ObjRow} (h : ∀ o ∈ objs, ∀ im ∈ images, PosDouble im o.sky) :
    trim cfg (images.map inDoubles) objs = trim cfg images objs := by
  unfold trim
  split
  · cases images with
    | nil => rfl
    | cons im rest =>
      simp only [List.map_cons]
      rw [List.filter_congr (fun o ho => accepted_inDoubles (cfg := cfg) (j := 0) (h o ho im (by simp)))]
  · rfl

theorem writeData_inDoubles {mk : Maker} : ({ mk with images := mk.images.map inDoubles } : Maker).writeData = mk.writeData := by
  have hw : ∀ t b, ({ mk with images := mk.images.map inDoubles } : Maker).writeCutouts t b = mk.writeCutouts t b := by
    intro t b
    unfold writeCutouts
    dsimp only
    rw [numbered_map, foldRes_map]
    rfl
  have hw' : ({ mk with images := mk.images.map inDoubles } : Maker).writeCutouts = mk.writeCutouts := by
    funext t b; exact hw t b
  have ht : ({ mk with images := mk.images.map inDoubles } : Maker).tableHdus = mk.tableHdus := by
    unfold tableHdus
    simp only [List.map_map]
    rfl
  unfold writeData
  rw [hw', ht]
  rfl

theorem write_inDoubles {mk mk' : Maker} {f : Fits} (h : ∀ o ∈ mk.objs, ∀ im ∈ mk.images, PosDouble im o.sky) (hw : mk.write = .ok (mk', f)) :
    ({ mk with images := mk.images.map inDoubles } : Maker).write = .ok ({ mk' with images := mk.images.map inDoubles }, f) := by
  obtain ⟨hb, hd⟩ := write_ok hw
  have himg : mk'.images = mk.images := by
    unfold buildLayout at hb
    obtain ⟨objs0, h0, hb⟩ := Res.bind_eq_ok.mp hb
    obtain ⟨objs1, h1, hb⟩ := Res.bind_eq_ok.mp hb
    obtain ⟨objs2, h2, hb⟩ := Res.bind_eq_ok.mp hb
    obtain ⟨r, h3, hb⟩ := Res.bind_eq_ok.mp hb
    split at hb
    · cases hb
    · cases hp : mk.psf with
      | none => rw [hp] at hb; injection hb with hb; rw [← hb]
      | some psf =>
        rw [hp] at hb
        obtain ⟨q, _, hb⟩ := Res.bind_eq_ok.mp hb
        injection hb with hb; rw [← hb]
  have hb' : ({ mk with images := mk.images.map inDoubles } : Maker).buildLayout = .ok { mk' with images := mk.images.map inDoubles } := by
    unfold buildLayout at hb ⊢
    dsimp only at hb ⊢
    obtain ⟨objs0, h0, hb⟩ := Res.bind_eq_ok.mp hb
    obtain ⟨objs1, h1, hb⟩ := Res.bind_eq_ok.mp hb
    obtain ⟨objs2, h2, hb⟩ := Res.bind_eq_ok.mp hb
    obtain ⟨r, h3, hb⟩ := Res.bind_eq_ok.mp hb
    rw [trim_inDoubles h, h0]
    simp only [Res.ok_bind]
    rw [numbered_map, fold_inDoubles (fun o ho fi hfi => h o (trim_sub h0 o ho) fi.2 (List.mem_of_getElem? (mem_numbered.mp hfi))) h1]
    simp only [Res.ok_bind]
    rw [h2]
    simp only [Res.ok_bind]
    rw [h3]
    simp only [Res.ok_bind]
    split at hb
    · cases hb
    · rename_i hs
      rw [if_neg hs]
      cases hp : mk.psf with
      | none =>
        rw [hp] at hb
        injection hb with hb
        rw [← hb]
      | some psf =>
        rw [hp] at hb
        obtain ⟨q, hq, hb⟩ := Res.bind_eq_ok.mp hb
        injection hb with hb
        simp only
        rw [hq, ← hb]
        rfl
  have hd' : ({ mk' with images := mk.images.map inDoubles } : Maker).writeData = .ok f := by
    rw [← himg, writeData_inDoubles]; exact hd
  unfold write
  rw [hb']
  simp only [Res.ok_bind]
  rw [hd']
  rfl

end Maker

section
variable {cfg : MakerCfg} {hn : Bool} {objs : List InputObj} {images : List SrcImage} {psf : Option (List PsfModel)}
  {psfInfo : Option String} {md : String} {mk mk' : Maker} {f : Fits}

/-- **C95** Where the positions of all objects in all images are doubles, the file in machine arithmetic is that of the exact model with the centres rounded. -/
theorem C95_positions_double (hi : Maker.init cfg hn objs images psf psfInfo md = .ok mk) (hw : mk.write = .ok (mk', f))
    (hpos : ∀ o ∈ objs, ∀ im ∈ images, IsDouble (rowIn im o.sky) ∧ IsDouble (colIn im o.sky))
    (hlim : ∀ j im, images[j]? = some im → LimitsFit cfg j im) (hbox : ∀ o ∈ objs, |o.boxSize| < 2 ^ 31) (htot : mk'.totalPixels < 2 ^ 63) :
    ∃ mkM, mk.writeM = .ok (mkM, roundFits f) := by
  obtain ⟨e1, e2, e3, e4, e5, e6, e7, e8, e9⟩ := init_ok hi
  have hiE : Maker.init cfg hn objs (images.map inDoubles) psf psfInfo md = .ok { mk with images := images.map inDoubles } := by
    unfold Maker.init at hi ⊢
    obtain ⟨t1, ht1, hi⟩ := Res.bind_eq_ok.mp hi
    rw [ht1]
    simp only [Res.ok_bind, List.length_map]
    split at hi
    · cases hi
    · rename_i hl
      rw [if_neg hl]
      injection hi with hi
      rw [← hi]
  have hwE := write_inDoubles (mk := mk) (by
    intro o ho im him
    rw [e2] at him
    rw [e8] at ho
    obtain ⟨o1, ho1, rfl⟩ := List.mem_map.mp ho
    obtain ⟨o2, ho2, rfl⟩ := List.mem_map.mp ho1
    rw [(forceEven_fresh _).2.2.1]
    exact hpos o2 ho2 im him) hw
  rw [e2] at hwE
  exact C95_machine_file hi hiE hwE hlim hbox htot

/-- **C95** (overflow) The comparison of the two pixel counts at the end of `_set_start_rows_and_pixel_count` never fails, an overflow included: for every
catalogue both counts are the same number modulo `2^64`. -/
theorem C95_count_check_never_fails {rows rows' : List ObjRow} {e : Int} (hn : ∀ o ∈ rows, 0 ≤ o.ncutout) (h : setStartRowsM 0 rows = .ok (rows', e)) :
    pixelSumM rows = e := pixelSumM_end hn (by decide) h

end
/-! ### Examples -/

/-- Objects whose positions are doubles in all images of the example; the second has a box that reaches over the lower edge. -/
def Ex.objsD : List InputObj := [Ex.obj 10 3 (5/2) (9/4), Ex.obj 11 4 (3/2) 1]

theorem Ex.limits (j : Nat) (im : SrcImage) (h : Ex.images[j]? = some im) : LimitsFit Ex.cfg j im := by
  have hb : border Ex.cfg j = 0 := by unfold border; split <;> rfl
  have hd : ∀ n : Int, |n| ≤ 2 ^ 53 → IsDouble (n : ℚ) := fun n hn => isDouble_int hn
  have key : ∀ n : Nat, n ≤ 5 → ∀ dx base sc, LimitsFit Ex.cfg j (Ex.src n dx base sc) := by
    intro n hn dx base sc
    have e1 : (1 : ℚ) - (Ex.src n dx base sc).info.positionOffset = ((0 : Int) : ℚ) := by norm_num [Ex.src]
    have e2 : ((Ex.src n dx base sc).wcs.nrow : ℚ) - (Ex.src n dx base sc).info.positionOffset = (((n : Int) - 1 : Int) : ℚ) := by
      simp [Ex.src, Ex.wcs]
    have e3 : ((Ex.src n dx base sc).wcs.ncol : ℚ) - (Ex.src n dx base sc).info.positionOffset = (((n : Int) - 1 : Int) : ℚ) := by
      simp [Ex.src, Ex.wcs]
    have hn' : |(n : Int) - 1| ≤ 2 ^ 53 := by rw [abs_le]; constructor <;> omega
    have hr : (((n : Int) - 1 : Int) : ℚ) < 2 ^ 31 := by
      have : ((n : Int) - 1 : Int) < 2 ^ 31 := by omega
      exact_mod_cast this
    constructor
    · rw [e1]; exact hd _ (by norm_num)
    · rw [e2]; exact hd _ hn'
    · rw [e3]; exact hd _ hn'
    · rw [hb, sub_zero, e1]; exact hd _ (by norm_num)
    · rw [hb, add_zero, e2]; exact hd _ hn'
    · rw [hb, add_zero, e3]; exact hd _ hn'
    · rw [hb, sub_zero, e1]; norm_num
    · rw [hb, add_zero, e2]; exact hr
    · rw [hb, add_zero, e3]; exact hr
  have hm := List.mem_of_getElem? h
  simp only [Ex.images, List.mem_cons, List.not_mem_nil, or_false] at hm
  rcases hm with rfl | rfl | rfl <;> exact key _ (by norm_num) _ _ _

-- the example run in machine arithmetic completes and writes the file of the exact model with the centres rounded
example : ∃ a a' f mkM, Maker.init Ex.cfg true Ex.objsD Ex.images (some Ex.psfs) none "m" = .ok a ∧ a.write = .ok (a', f) ∧
    a.writeM = .ok (mkM, roundFits f) ∧ a'.totalPixels = 64 := by
  have hrun : (match Maker.init Ex.cfg true Ex.objsD Ex.images (some Ex.psfs) none "m" with
      | .ok a => (match a.write with | .ok r => decide (r.1.totalPixels = 64) | .error _ => false)
      | .error _ => false) = true := by decide +kernel
  cases hi : Maker.init Ex.cfg true Ex.objsD Ex.images (some Ex.psfs) none "m" with
  | error e => rw [hi] at hrun; cases hrun
  | ok a =>
    rw [hi] at hrun
    simp only at hrun
    cases hw : a.write with
    | error e => rw [hw] at hrun; cases hrun
    | ok r =>
      rw [hw] at hrun
      simp only [decide_eq_true_eq] at hrun
      have hpos : ∀ o ∈ Ex.objsD, ∀ im ∈ Ex.images, IsDouble (rowIn im o.sky) ∧ IsDouble (colIn im o.sky) := by
        have hq : ∀ q : ℚ, (∃ k : Int, |k| ≤ 2 ^ 53 ∧ q = k / 4) → IsDouble q := by
          rintro q ⟨k, hk, rfl⟩
          refine ⟨k, -2, hk, ?_⟩
          rw [zpow_neg]
          norm_num
          ring
        intro o ho im him
        simp only [Ex.objsD, List.mem_cons, List.not_mem_nil, or_false] at ho
        simp only [Ex.images, List.mem_cons, List.not_mem_nil, or_false] at him
        rcases ho with rfl | rfl <;> rcases him with rfl | rfl | rfl
        · exact ⟨hq _ ⟨5, by norm_num, by norm_num [rowIn, Ex.src, Ex.wcs, Ex.obj]⟩, hq _ ⟨6, by norm_num, by norm_num [colIn, Ex.src, Ex.wcs, Ex.obj]⟩⟩
        · exact ⟨hq _ ⟨5, by norm_num, by norm_num [rowIn, Ex.src, Ex.wcs, Ex.obj]⟩, hq _ ⟨4, by norm_num, by norm_num [colIn, Ex.src, Ex.wcs, Ex.obj]⟩⟩
        · exact ⟨hq _ ⟨5, by norm_num, by norm_num [rowIn, Ex.src, Ex.wcs, Ex.obj]⟩, hq _ ⟨-2, by norm_num, by norm_num [colIn, Ex.src, Ex.wcs, Ex.obj]⟩⟩
        · exact ⟨hq _ ⟨0, by norm_num, by norm_num [rowIn, Ex.src, Ex.wcs, Ex.obj]⟩, hq _ ⟨2, by norm_num, by norm_num [colIn, Ex.src, Ex.wcs, Ex.obj]⟩⟩
        · exact ⟨hq _ ⟨0, by norm_num, by norm_num [rowIn, Ex.src, Ex.wcs, Ex.obj]⟩, hq _ ⟨0, by norm_num, by norm_num [colIn, Ex.src, Ex.wcs, Ex.obj]⟩⟩
        · exact ⟨hq _ ⟨0, by norm_num, by norm_num [rowIn, Ex.src, Ex.wcs, Ex.obj]⟩, hq _ ⟨-6, by norm_num, by norm_num [colIn, Ex.src, Ex.wcs, Ex.obj]⟩⟩
      obtain ⟨mkM, hM⟩ := C95_positions_double hi hw hpos Ex.limits (by
        intro o ho
        simp only [Ex.objsD, List.mem_cons, List.not_mem_nil, or_false] at ho
        rcases ho with rfl | rfl <;> norm_num [Ex.obj]) (by rw [hrun]; norm_num)
      exact ⟨a, r.1, r.2, mkM, rfl, hw, hM, hrun⟩

-- the centre is really rounded where the corner is off the image: position 2^-60, corner -1
example : rndD (1 / 2 ^ 60 - ((-1 : Int) : ℚ)) = 1 := by
  have hl : Int.log 2 (1 / 2 ^ 60 - ((-1 : Int) : ℚ)) = 0 := by
    rw [Int.log_of_one_le_right _ (by norm_num)]
    have : ⌊(1 / 2 ^ 60 - ((-1 : Int) : ℚ))⌋₊ = 1 := by
      rw [Nat.floor_eq_iff (by norm_num)]
      norm_num
    rw [this]
    rfl
  unfold rndD Uberseg.rnd
  rw [if_pos (by norm_num), hl]
  have h52 : (2 : ℚ) ^ ((0 : Int) - (((53 : Nat) : Int) - 1)) = 1 / 2 ^ 52 := by norm_num
  have hr : roundHE ((1 / 2 ^ 60 - ((-1 : Int) : ℚ)) / (1 / 2 ^ 52)) = 2 ^ 52 := by decide +kernel
  rw [h52, hr]
  norm_num

-- three boxes of 2^31 pixels a side: the third start row is negative, and the check finds nothing
example : (match setStartRowsM 0 (List.replicate 3 { (fullRow 2 (Ex.obj 1 (2 ^ 31) 1 1)) with ncutout := 1 }) with
    | .ok (rows, e) => decide (rows.map (fun o => o.slots.map (·.startRow)) = [[0, -9999], [2 ^ 62, -9999], [-2 ^ 63, -9999]] ∧ e = -2 ^ 62 ∧
        pixelSumM (List.replicate 3 { (fullRow 2 (Ex.obj 1 (2 ^ 31) 1 1)) with ncutout := 1 }) = e)
    | .error _ => false) = true := by decide +kernel

end Meds
