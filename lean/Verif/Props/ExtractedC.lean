import Verif.Props.CReader
import Verif.Props.Programs
import Verif.Props.RangeExtract
import Verif.Props.NumberExtract

/-!
# Extracted files in the C reader (C108)

C18 and C21 say what the Python reader sees in an extracted file.  Here the same is shown of the C library and of `meds-get-cutout`.
-/

namespace Meds.Spec

/-- Object `i` of one open file and object `j` of another are the same for the C library: equal results of the accessors of the catalogue, for every integer
as epoch; and a cutout or mosaic that is returned for one is returned for the other, equal in every field and every pixel. -/
structure SameInC (h : C.Handle) (i : Nat) (h' : C.Handle) (j : Nat) : Prop where
  ncutout : C.getNcutout h i = C.getNcutout h' j
  cen : ∀ k : Int, C.getCutoutCen h i k = C.getCutoutCen h' j k
  fileId : ∀ k : Int, C.getSourceFileId h i k = C.getSourceFileId h' j k
  info : ∀ k : Int, C.getSourceInfo h i k = C.getSourceInfo h' j k
  path : ∀ k : Int, C.getSourcePath h i k = C.getSourcePath h' j k
  distortion : ∀ k : Int, C.getDistortion h i k = C.getDistortion h' j k
  cutout : ∀ (k : Int) (c : C.Cutout), C.getCutout h i k = .ok c ↔ C.getCutout h' j k = .ok c
  weight : ∀ (k : Int) (c : C.Cutout), C.getWeightCutout h i k = .ok c ↔ C.getWeightCutout h' j k = .ok c
  seg : ∀ (k : Int) (c : C.Cutout), C.getSegCutout h i k = .ok c ↔ C.getSegCutout h' j k = .ok c
  mosaic : ∀ c : C.Cutout, C.getMosaic h i = .ok c ↔ C.getMosaic h' j = .ok c
  weightMosaic : ∀ c : C.Cutout, C.getWeightMosaic h i = .ok c ↔ C.getWeightMosaic h' j = .ok c
  segMosaic : ∀ c : C.Cutout, C.getSegMosaic h i = .ok c ↔ C.getSegMosaic h' j = .ok c

end Meds.Spec

namespace Meds.C
open Spec Extract

variable {cols : List String} {f g : Fits} {h hg : Handle} {m mg : MEDS}

/-- The C cutout that shows an image of `n` boxes. -/
def shown (n : Int) (im : Img ℚ) : Cutout :=
  { ncutout := n, mosaicNrow := n * im.nc, mosaicNcol := im.nc, cutoutNrow := im.nc, cutoutNcol := im.nc,
    rows := (List.range (n * im.nc).toNat).map (fun i : Nat => (i : Int) * im.nc), pix := im.flat }

theorem read_det {t : String} {a box : Int} {n : Nat} (hf : h.fits = m.fits) {im : Img ℚ} {c : Cutout}
    (hp : (do let ext ← m.extensionName t; let sl ← m.fits.imageSlice ext a (a + box * box * n); reshape sl (n * box) box : Res (Img ℚ)) = .ok im)
    (hc : (do let p ← readPix h (t ++ "_cutouts") a (box * box * n); cutoutFromPtr p n box box : Res Cutout) = .ok c) :
    c = shown n im := by
  obtain ⟨ext, he, hp⟩ := Res.bind_eq_ok.mp hp
  obtain ⟨sl, hsl, hp⟩ := Res.bind_eq_ok.mp hp
  obtain ⟨q1, q2, q3, q4⟩ := reshape_ok hp
  obtain ⟨p, hpix, hc⟩ := Res.bind_eq_ok.mp hc
  have hext : ext = t ++ "_cutouts" := by
    unfold MEDS.extensionName at he
    dsimp only at he
    split at he
    · injection he with he; exact he.symm
    · cases he
  subst hext
  unfold Fits.imageSlice at hsl
  unfold readPix at hpix
  rw [hf] at hpix
  cases hfi : m.fits.find (t ++ "_cutouts") with
  | none => rw [hfi] at hpix; cases hpix
  | some d =>
    rw [hfi] at hpix hsl
    cases d with
    | image pix =>
      dsimp only at hpix hsl
      obtain ⟨_, _, _, s4⟩ := slice_ok hsl (by rw [q3]; ring)
      split at hpix
      · injection hpix with hpix
        rw [← s4] at hpix
        subst hpix
        have hb : ((box.toNat : Nat) : Int) = box := Int.toNat_of_nonneg q2
        unfold cutoutFromPtr at hc
        split at hc
        · cases hc
        · injection hc with hc
          rw [← hc, q4]
          unfold shown
          simp only [hb]
      · cases hpix
    | _ => cases hpix

/-- One cutout in C, in terms of what Python returns. -/
theorem cutout_iff (ho : medsOpen cols f = .ok h) (hm : MEDS.openFile f = .ok m) (hw : OneWidth m.cat) {t : String} (ht : t ≠ "psf") {i k : Nat}
    (hv : ValidPair m.cat.rows i k) (c : Cutout) :
    cutout (t ++ "_cutouts") h i k = .ok c ↔ ∃ im, m.getCutout i k t = .ok im ∧ c = shown 1 im := by
  have hf := (open_ok ho hm).1
  obtain ⟨a, b, p1, c1⟩ := cutout_forms ho hm hw ht hv
  constructor
  · intro hc
    rw [c1] at hc
    obtain ⟨im, x⟩ := (read_agree hf Nat.one_pos).2 c hc
    exact ⟨im, by rw [p1]; exact x, read_det hf x hc⟩
  · rintro ⟨im, him, rfl⟩
    rw [p1] at him
    obtain ⟨c, x1, _⟩ := (read_agree hf Nat.one_pos).1 im him
    have := read_det hf him x1
    rw [c1, x1, this]
    rfl

/-- One mosaic in C, in terms of what Python returns. -/
theorem mosaic_iff (ho : medsOpen cols f = .ok h) (hm : MEDS.openFile f = .ok m) (hw : OneWidth m.cat) {t : String} {i : Nat} {r : ObjRow}
    (hr : m.cat.rows[i]? = some r) (hn : 0 < r.ncutout) (c : Cutout) :
    mosaic (t ++ "_cutouts") h i = .ok c ↔ ∃ im, m.getMosaic i t = .ok im ∧ c = shown r.ncutout im := by
  have hf := (open_ok ho hm).1
  have hv : ValidPair m.cat.rows i 0 := ⟨by omega, by omega, r, by rw [Int.toNat_natCast]; exact hr, hn⟩
  obtain ⟨a, b, n, n0, ⟨r', hr', e1, e2⟩, p1, c1⟩ := mosaic_forms ho hm hw (t := t) hv
  rw [hr] at hr'
  injection hr' with hr'
  subst hr'
  rw [e1]
  constructor
  · intro hc
    rw [c1] at hc
    obtain ⟨im, x⟩ := (read_agree hf n0).2 c hc
    exact ⟨im, by rw [p1]; exact x, read_det hf x hc⟩
  · rintro ⟨im, him, rfl⟩
    rw [p1] at him
    obtain ⟨c, x1, _⟩ := (read_agree hf n0).1 im him
    rw [c1, x1, read_det hf him x1]

theorem butStarts_parts {o o' : ObjRow} (hb : SameButStarts o o') : o'.ncutout = o.ncutout ∧ o'.slots.length = o.slots.length ∧
    ∀ k : Nat, ∀ s', o'.slots[k]? = some s' → ∃ s, o.slots[k]? = some s ∧ s' = { s with startRow := s'.startRow, psfStartRow := s'.psfStartRow } := by
  obtain ⟨ss, rfl, hs⟩ := hb
  refine ⟨rfl, hs.length_eq.symm, ?_⟩
  intro k s' hs'
  have hlt : k < ss.length := (List.getElem?_eq_some_iff.mp hs').1
  have hlt' : k < o.slots.length := by rw [hs.length_eq]; exact hlt
  refine ⟨o.slots[k], List.getElem?_eq_getElem hlt', ?_⟩
  have := (List.forall₂_iff_get.mp hs).2 k hlt' hlt
  have e : s' = ss[k] := by rw [List.getElem?_eq_getElem hlt] at hs'; injection hs' with hs'; exact hs'.symm
  subst e
  exact this

/-- Files whose objects are the same to Python are the same to C. -/
theorem same_in_c {types : List String} (hti : "image" ∈ types) (htw : "weight" ∈ types) (hts : "seg" ∈ types)
    (ho : medsOpen cols f = .ok h) (hm : MEDS.openFile f = .ok m) (hw : OneWidth m.cat)
    (hog : medsOpen cols g = .ok hg) (hmg : MEDS.openFile g = .ok mg) (hwg : OneWidth mg.cat) (hinfo : mg.info = m.info) {i j : Nat}
    (hsv : SameView types mg i m j) {o o' : ObjRow} (hj : m.cat.rows[j]? = some o) (hi : mg.cat.rows[i]? = some o') (hb : SameButStarts o o') :
    SameInC hg i h j := by
  obtain ⟨bn, bl, bs⟩ := butStarts_parts hb
  have hinf : hg.info = h.info := by rw [(open_ok hog hmg).2.1, (open_ok ho hm).2.1, hinfo]
  have hval : ∀ k : Int, ValidPair mg.cat.rows i k ↔ ValidPair m.cat.rows j k := by
    intro k
    constructor
    · rintro ⟨_, h2, r, h3, h4⟩
      rw [Int.toNat_natCast, hi] at h3
      injection h3 with h3
      subst h3
      exact ⟨by omega, h2, o, by rw [Int.toNat_natCast]; exact hj, by omega⟩
    · rintro ⟨_, h2, r, h3, h4⟩
      rw [Int.toNat_natCast, hj] at h3
      injection h3 with h3
      subst h3
      exact ⟨by omega, h2, o', by rw [Int.toNat_natCast]; exact hi, by omega⟩
  -- the slots that C looks at
  have hslot : ∀ k : Int, ValidPair m.cat.rows j k → ∃ (O O' : Obj) (s s' s0 s0' : Slot), checkIobjIcutout hg i k = .ok O' ∧ checkIobjIcutout h j k = .ok O ∧
      index O'.arrays k = .ok s' ∧ index O.arrays k = .ok s ∧ index O'.arrays 0 = .ok s0' ∧ index O.arrays 0 = .ok s0 ∧
      s' = { s with startRow := s'.startRow, psfStartRow := s'.psfStartRow } ∧ s0' = { s0 with startRow := s0'.startRow, psfStartRow := s0'.psfStartRow } := by
    intro k hv
    obtain ⟨r, s, O, a1, a2, a3, a4, _, _, a7, a8, a9, _⟩ := check_valid ho hm hw hv
    obtain ⟨r', s', O', b1, b2, b3, b4, _, _, b7, b8, b9, _⟩ := check_valid hog hmg hwg ((hval k).mpr hv)
    rw [Int.toNat_natCast] at a1 b1
    rw [hj] at a1
    rw [hi] at b1
    injection a1 with a1
    injection b1 with b1
    subst a1 b1
    obtain ⟨t, t1, t2⟩ := bs _ _ b2
    rw [a2] at t1
    injection t1 with t1
    subst t1
    have z : o'.slots[0]? = some o'.slots[0] := List.getElem?_eq_getElem (by omega)
    obtain ⟨t, t1, t3⟩ := bs _ _ z
    refine ⟨O, O', s, s', _, _, b3, a3, b4, a4, b7, a7, t2, ?_⟩
    rw [List.head?_eq_getElem?, List.head?_eq_getElem?, z, t1]
    exact t3
  have hfid : ∀ k : Int, getSourceFileId hg i k = getSourceFileId h j k := by
    intro k
    by_cases hv : ValidPair m.cat.rows j k
    · obtain ⟨O, O', s, s', s0, s0', c1, c2, c3, c4, c5, c6, c7, c8⟩ := hslot k hv
      unfold getSourceFileId
      rw [c1, c2]
      dsimp only
      rw [c3, c4, c7]
      rfl
    · rw [(C40_bad_indices ho hm hw hv).2.1, (C40_bad_indices hog hmg hwg (mt (hval k).mp hv)).2.1]
  have hsi : ∀ k : Int, getSourceInfo hg i k = getSourceInfo h j k := by
    intro k
    unfold getSourceInfo
    rw [hfid, hinf]
  have hcut : ∀ t ∈ types, t ≠ "psf" → ∀ (k : Int) (c : Cutout), cutout (t ++ "_cutouts") hg i k = .ok c ↔ cutout (t ++ "_cutouts") h j k = .ok c := by
    intro t ht hp k c
    by_cases hv : ValidPair m.cat.rows j k
    · have hk : ((k.toNat : Nat) : Int) = k := Int.toNat_of_nonneg hv.2.1
      have hvg := (hval k).mpr hv
      rw [← hk] at hv hvg ⊢
      rw [cutout_iff ho hm hw hp hv, cutout_iff hog hmg hwg hp hvg, hsv.cutout t ht]
    · have e1 := check_invalid ho hm hw hv
      have e2 := check_invalid hog hmg hwg (mt (hval k).mp hv)
      unfold cutout cutoutp
      rw [e1, e2]
      exact Iff.rfl
  have hmos : ∀ t ∈ types, ∀ c : Cutout, mosaic (t ++ "_cutouts") hg i = .ok c ↔ mosaic (t ++ "_cutouts") h j = .ok c := by
    intro t ht c
    by_cases hn : 0 < o.ncutout
    · rw [mosaic_iff ho hm hw hj hn, mosaic_iff hog hmg hwg hi (by omega), hsv.mosaic t ht, bn]
    · have hv : ¬ ValidPair m.cat.rows j 0 := by
        rintro ⟨_, _, r, h3, h4⟩
        rw [Int.toNat_natCast, hj] at h3
        injection h3 with h3
        subst h3
        exact hn h4
      have e1 := check_invalid ho hm hw hv
      have e2 := check_invalid hog hmg hwg (mt (hval 0).mp hv)
      unfold mosaic mosaicp
      rw [e1, e2]
      exact Iff.rfl
  refine ⟨?_, ?_, hfid, hsi, ?_, ?_, hcut "image" hti (by decide), hcut "weight" htw (by decide), ?_, hmos "image" hti, hmos "weight" htw, ?_⟩
  · obtain ⟨O, a1, _, _, a4, _⟩ := loaded ho hm hw hj
    obtain ⟨O', b1, _, _, b4, _⟩ := loaded hog hmg hwg hi
    unfold getNcutout
    rw [getObj_nat a1, getObj_nat b1]
    dsimp only
    rw [a4, b4, bn]
  · intro k
    by_cases hv : ValidPair m.cat.rows j k
    · obtain ⟨O, O', s, s', s0, s0', c1, c2, c3, c4, c5, c6, c7, c8⟩ := hslot k hv
      unfold getCutoutCen
      rw [c1, c2]
      simp only [Res.ok_bind]
      rw [c3, c4, c7]
      rfl
    · rw [(C40_bad_indices ho hm hw hv).1, (C40_bad_indices hog hmg hwg (mt (hval k).mp hv)).1]
  · intro k
    unfold getSourcePath
    rw [hsi]
  · intro k
    by_cases hv : ValidPair m.cat.rows j k
    · obtain ⟨O, O', s, s', s0, s0', c1, c2, c3, c4, c5, c6, c7, c8⟩ := hslot k hv
      unfold getDistortion
      rw [c1, c2]
      simp only [Res.ok_bind]
      rw [c5, c6, c8]
      rfl
    · rw [(C40_bad_indices ho hm hw hv).2.2.2.2.1, (C40_bad_indices hog hmg hwg (mt (hval k).mp hv)).2.2.2.2.1]
  · intro k c
    have key := hcut "seg" hts (by decide) k
    unfold getSegCutout
    constructor
    · intro hc
      obtain ⟨d, d1, d2⟩ := Res.bind_eq_ok.mp hc
      exact Res.bind_eq_ok.mpr ⟨d, (key d).mp d1, d2⟩
    · intro hc
      obtain ⟨d, d1, d2⟩ := Res.bind_eq_ok.mp hc
      exact Res.bind_eq_ok.mpr ⟨d, (key d).mpr d1, d2⟩
  · intro c
    have key := hmos "seg" hts
    unfold getSegMosaic
    constructor
    · intro hc
      obtain ⟨d, d1, d2⟩ := Res.bind_eq_ok.mp hc
      exact Res.bind_eq_ok.mpr ⟨d, (key d).mp d1, d2⟩
    · intro hc
      obtain ⟨d, d1, d2⟩ := Res.bind_eq_ok.mp hc
      exact Res.bind_eq_ok.mpr ⟨d, (key d).mpr d1, d2⟩

/-- A file whose objects are, up to start rows, objects of a file that C opens is opened by C too. -/
theorem opens_too (ho : medsOpen cols f = .ok h) (hm : MEDS.openFile f = .ok m) (hw : OneWidth m.cat) (hmg : MEDS.openFile g = .ok mg)
    (hinfo : mg.info = m.info) (hpos : 0 < mg.size) (hrows : ∀ i : Nat, i < mg.size → ∃ (j : Nat) (o o' : ObjRow), m.cat.rows[j]? = some o ∧ mg.cat.rows[i]? = some o' ∧ SameButStarts o o') :
    OneWidth mg.cat ∧ ∃ hg, medsOpen cols g = .ok hg := by
  have hrow : ∀ r ∈ mg.cat.rows, ∃ o ∈ m.cat.rows, SameButStarts o r := by
    intro r hr
    obtain ⟨i, hi, rfl⟩ := List.mem_iff_getElem.mp hr
    obtain ⟨j, o, o', h1, h2, h3⟩ := hrows i hi
    rw [List.getElem?_eq_getElem hi] at h2
    injection h2 with h2
    subst h2
    exact ⟨o, List.mem_of_getElem? h1, h3⟩
  have hwid : ∀ r ∈ mg.cat.rows, r.slots.length = ncutoutMax m.cat := by
    intro r hr
    obtain ⟨o, o1, o2⟩ := hrow r hr
    rw [(butStarts_parts o2).2.1, width_eq hw o1]
  have hwg : OneWidth mg.cat := fun r hr r' hr' => by rw [hwid r hr, hwid r' hr']
  refine ⟨hwg, ?_⟩
  obtain ⟨_, _, hfm, hobj, hcat⟩ := open_ok ho hm
  have hmax : ncutoutMax mg.cat = ncutoutMax m.cat := by
    have hr : mg.cat.rows[0] ∈ mg.cat.rows := List.getElem_mem hpos
    rw [← width_eq hwg hr, hwid _ hr]
  have hload : ∃ l, mapRes (loadRow (ncutoutMax mg.cat)) mg.cat.rows = .ok l := by
    apply mapRes_of_forall
    intro r hr
    obtain ⟨o, o1, o2⟩ := hrow r hr
    obtain ⟨k, hk, rfl⟩ := List.mem_iff_getElem.mp o1
    obtain ⟨O, _, q⟩ := mapRes_getElem? hcat (List.getElem?_eq_getElem hk)
    obtain ⟨e1, e2, _⟩ := loadRow_ok q
    have hn := (butStarts_parts o2).1
    unfold loadRow
    rw [if_pos (by rw [hmax, hn]; exact ⟨e1, e2⟩)]
    exact ⟨_, rfl⟩
  obtain ⟨l, hl⟩ := hload
  obtain ⟨p1, p2, p3, p4⟩ := opened_parts hmg
  obtain ⟨q1, q2, q3, q4⟩ := opened_parts hm
  unfold medsOpen at ho
  obtain ⟨cat, _, ho⟩ := Res.bind_eq_ok.mp ho
  obtain ⟨info, hi, _⟩ := Res.bind_eq_ok.mp ho
  have hig : readInfo cols g = .ok info := by
    unfold readInfo at hi ⊢
    rw [q3] at hi
    rw [p3, hinfo]
    exact hi
  refine ⟨⟨g, l, info⟩, ?_⟩
  unfold medsOpen
  have hcg : readObjects g = .ok l := by
    unfold readObjects
    rw [p2]
    dsimp only
    rw [if_neg (show ¬ mg.cat.rows.length = 0 by unfold MEDS.size at hpos; omega)]
    exact hl
  rw [hcg, hig]
  simp only [Res.ok_bind]
  rw [p4]

/-- What `meds-get-cutout` writes depends on the object only. -/
theorem program_same {i j : Nat} (hs : SameInC hg i h j) {icutout : Option Int} {im : Img ℚ} (w : Bool) (old : Option (Img ℚ))
    (hold : old ≠ some im) :
    getCutoutMain (.ok hg) i icutout w old = .ok (0, some im) ↔ getCutoutMain (.ok h) j icutout w old = .ok (0, some im) := by
  have key : ∀ (a b : Res Cutout), (∀ c, a = .ok c ↔ b = .ok c) →
      ((match a with | .ok image => .ok (0, (writeFits w image old).1) | .error .nullResult => .ok (0, old) | .error e => .error e : Res (Nat × Option (Img ℚ))) = .ok (0, some im) →
       (match b with | .ok image => .ok (0, (writeFits w image old).1) | .error .nullResult => .ok (0, old) | .error e => .error e : Res (Nat × Option (Img ℚ))) = .ok (0, some im)) := by
    intro a b hab
    cases a with
    | ok c => rw [(hab c).mp rfl]; exact id
    | error e => cases e <;> simp_all
  cases icutout with
  | some k => exact ⟨key _ _ (fun c => hs.cutout k c), key _ _ (fun c => (hs.cutout k c).symm)⟩
  | none => exact ⟨key _ _ (fun c => hs.mosaic c), key _ _ (fun c => (hs.mosaic c).symm)⟩

section
open Maker
variable {cfg : MakerCfg} {hn : Bool} {objs : List InputObj} {images : List SrcImage} {psf : Option (List PsfModel)}
  {psfInfo : Option String} {md : String} {mk mk' : Maker}

/-- **C108 (hypotheses)** The C library opens every file written by the maker that has at least one object and one image, and an `image_info` with the columns
that `load_image_info` asks for. -/
theorem C108_written_opens (hi : Maker.init cfg hn objs images psf psfInfo md = .ok mk) (hw : mk.write = .ok (mk', f)) (hm : MEDS.openFile f = .ok m)
    (hobj : 0 < m.size) (him : images ≠ [])
    (hcols : ∀ c ∈ ["image_id", "image_flags", "image_path", "wcs_path", "sky_path", "seg_path", "magzp", "scale"], c ∈ cols) :
    OneWidth m.cat ∧ ∃ h, medsOpen cols f = .ok h ∧ h.cat.length = m.size := by
  obtain ⟨w, _, hall, _, _⟩ := C09_slots hi hw hm
  have hone : OneWidth m.cat := fun r hr r' hr' => by rw [(hall r hr).1, (hall r' hr').1]
  obtain ⟨p1, p2, p3, p4⟩ := opened_parts hm
  obtain ⟨m', hm', hinfo, _⟩ := C01_written_file_opens hi hw
  rw [hm] at hm'
  injection hm' with hm'
  subst hm'
  have hmax : ncutoutMax m.cat = w := by
    have hr : m.cat.rows[0] ∈ m.cat.rows := List.getElem_mem hobj
    rw [← width_eq hone hr, (hall _ hr).1]
  obtain ⟨l, hl⟩ : ∃ l, mapRes (loadRow (ncutoutMax m.cat)) m.cat.rows = .ok l := by
    apply mapRes_of_forall
    intro r hr
    obtain ⟨_, e1, e2⟩ := hall r hr
    unfold loadRow
    rw [if_pos (by rw [hmax]; exact ⟨e1, e2⟩)]
    exact ⟨_, rfl⟩
  refine ⟨hone, ⟨f, l, m.info⟩, ?_, mapRes_length hl⟩
  have hcg : readObjects f = .ok l := by
    unfold readObjects
    rw [p2]
    dsimp only
    rw [if_neg (show ¬ m.cat.rows.length = 0 by unfold MEDS.size at hobj; omega)]
    exact hl
  have hig : readInfo cols f = .ok m.info := by
    unfold readInfo
    rw [p3]
    dsimp only
    rw [if_neg (by rw [hinfo]; simpa using him), if_pos]
    rw [List.all_eq_true]
    intro c hc
    exact decide_eq_true (hcols c hc)
  unfold medsOpen
  rw [hcg, hig]
  simp only [Res.ok_bind]
  rw [p4]

end

/-- **C108** Extraction of a range: the C library opens the extracted file, and object `i` of it is, in every accessor, object `a + i` of the original;
`meds-get-cutout` writes the same images for them. -/
theorem C108_range {a b : Int} {copyAll : Bool} (ho : medsOpen cols f = .ok h) (hm : MEDS.openFile f = .ok m) (hw : OneWidth m.cat)
    (hord : CutoutsInOrder m.cat.rows) (hpsf : f.has "psf" = true → PsfInOrder m.cat) (ha : a < m.size)
    (hx : extractRange f a b copyAll = .ok g) :
    ∃ hg, medsOpen cols g = .ok hg ∧ (hg.cat.length : Int) = min (b + 1) m.size - a ∧ ∀ i : Nat, i < hg.cat.length → SameInC hg i h (a.toNat + i) ∧
      ∀ (icutout : Option Int) (im : Img ℚ), getCutoutMain (medsOpen cols g) i icutout true none = .ok (0, some im) ↔
        getCutoutMain (medsOpen cols f) (a.toNat + i : Nat) icutout true none = .ok (0, some im) := by
  obtain ⟨mg, e1, e2, e3, e4, e5, e6, e7, e8⟩ := C18_range_preserves_objects hm hord hpsf hx
  obtain ⟨hwg, hg, hog⟩ := opens_too ho hm hw e1 e3 (by omega) (fun i hi => by
    obtain ⟨_, o, o', q⟩ := e8 i hi
    exact ⟨_, o, o', q⟩)
  have hlen : hg.cat.length = mg.size := cat_length hog e1
  refine ⟨hg, hog, by rw [hlen, e5], ?_⟩
  intro i hi
  obtain ⟨hsv, o, o', q1, q2, q3⟩ := e8 i (by omega)
  have hs := same_in_c (by simp) (by simp) (by simp) ho hm hw hog e1 hwg e3 hsv q1 q2 q3
  refine ⟨hs, ?_⟩
  intro icutout im
  rw [ho, hog]
  exact program_same hs true none (by simp)

/-- **C108** Extraction by numbers: the same, with the positions at which the objects were found. -/
theorem C108_numbers {sorts : Bool} {numbers : List Int} (ho : medsOpen cols f = .ok h) (hm : MEDS.openFile f = .ok m) (hw : OneWidth m.cat)
    (hst : CutoutsTogether f m.cat.rows) (hpsf : f.has "psf" = true → PsfTogether f m.cat) (hne : numbers ≠ [])
    (hx : extractNumbers sorts f numbers = .ok g) :
    ∃ (hg : Handle) (mg : MEDS) (inds : List Nat), medsOpen cols g = .ok hg ∧ MEDS.openFile g = .ok mg ∧ (mg.cat.rows.map (·.number)).Perm numbers ∧
      hg.cat.length = numbers.length ∧ inds.length = hg.cat.length ∧ inds.Nodup ∧ ∀ i j : Nat, inds[i]? = some j →
        (m.cat.rows[j]?.map (·.number) = mg.cat.rows[i]?.map (·.number)) ∧ SameInC hg i h j ∧
        ∀ (icutout : Option Int) (im : Img ℚ), getCutoutMain (medsOpen cols g) i icutout true none = .ok (0, some im) ↔
          getCutoutMain (medsOpen cols f) j icutout true none = .ok (0, some im) := by
  obtain ⟨mg, inds, e1, e2, e3, e4, e5, e6, e7, e8, e9, _⟩ := C21_numbers_preserve_objects hm hst hpsf hx
  have hpos : 0 < numbers.length := List.length_pos_of_ne_nil hne
  obtain ⟨hwg, hg, hog⟩ := opens_too ho hm hw e1 e3 (by omega) (fun i hi => by
    have hlt : i < inds.length := by omega
    obtain ⟨_, o, o', q⟩ := e9 i inds[i] (List.getElem?_eq_getElem hlt)
    exact ⟨_, o, o', q⟩)
  have hlen : hg.cat.length = mg.size := cat_length hog e1
  refine ⟨hg, mg, inds, hog, e1, e8, by omega, by omega, e7, ?_⟩
  intro i j hij
  obtain ⟨hsv, o, o', q1, q2, q3⟩ := e9 i j hij
  have hs := same_in_c (by simp) (by simp) (by simp) ho hm hw hog e1 hwg e3 hsv q1 q2 q3
  refine ⟨?_, hs, ?_⟩
  · obtain ⟨ss, rfl, _⟩ := q3
    rw [q1, q2]
    rfl
  intro icutout im
  rw [ho, hog]
  exact program_same hs true none (by simp)

/-! ### A file made by the maker, and what is extracted from it -/

theorem made_opens : OneWidth Ex.med.cat ∧ ∃ h, medsOpen exCols Ex.file = .ok h ∧ h.cat.length = Ex.med.size := by
  obtain ⟨mk, mk', h1, h2⟩ := Ex.run_file
  exact C108_written_opens h1 h2 Ex.open_file (cols := exCols) (by decide +kernel) (by decide) (by decide +kernel)

-- object 1 alone: the file can be extracted, so the theorem applies with these values
example : ∃ g hg h, extractRange Ex.file 1 1 false = .ok g ∧ medsOpen exCols Ex.file = .ok h ∧ medsOpen exCols g = .ok hg ∧ hg.cat.length = 1 ∧ SameInC hg 0 h 1 := by
  obtain ⟨hw, h, ho, _⟩ := made_opens
  obtain ⟨g, _, hx, _⟩ := Ex.extracted_iff (f := Ex.file) (a := 1) (b := 1) (c := false) (test := fun _ => true) (by decide +kernel)
  obtain ⟨hg, e1, e2, e3⟩ := C108_range ho Ex.open_file hw Ex.file_in_order (fun _ => Ex.file_psf_in_order) (by decide +kernel) hx
  have hl : hg.cat.length = 1 := by
    have : (Ex.med.size : Int) = 2 := by decide +kernel
    rw [this] at e2
    omega
  exact ⟨g, hg, h, hx, ho, e1, hl, (e3 0 (by omega)).1⟩

-- and the pixels themselves, for the third epoch of the object with number 12
example : Ex.byNum true Ex.file [12] (fun mg => decide ((do let h ← medsOpen exCols mg.fits; let c ← getCutout h 0 2; .ok c.pix) = .ok [310, 311, 320, 321])) = true ∧
    (do let h ← medsOpen exCols Ex.file; let c ← getCutout h 1 2; .ok c.pix) = .ok [310, 311, 320, 321] := by decide +kernel

end Meds.C
