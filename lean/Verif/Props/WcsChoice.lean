import Verif.Props.Config

/-!
# The choice of the WCS (C72)
-/

namespace Meds.Spec

open Config

/-- The position and the jacobian of epoch `s` of object `o` are those of WCS `w` for image `j` with entry `info`, and the position lies inside the size of
`w` (up to `border`, the buffer of a coadd). -/
structure RecordedBy (config : Val) (border : ℚ) (j : Nat) (info : InfoRow) (w : RawWcs) (o : ObjRow) (s : Slot) : Prop where
  row : s.origRow = (w.sky2image o.sky.ra o.sky.dec
    (if asksColour config (userEntries config) "coadd_astrom" "se_astrom" j then some o.sky.color else none)).2 - info.positionOffset
  col : s.origCol = (w.sky2image o.sky.ra o.sky.dec
    (if asksColour config (userEntries config) "coadd_astrom" "se_astrom" j then some o.sky.color else none)).1 - info.positionOffset
  jac : (s.dudcol, s.dudrow, s.dvdcol, s.dvdrow) = w.jacobian (s.origCol + info.positionOffset) (s.origRow + info.positionOffset)
    (if asksColour config (userEntries config) "coadd_astrom" "se_astrom" j then some o.sky.color else none)
  insideRow : 1 - info.positionOffset - border ≤ s.origRow ∧ s.origRow ≤ w.nrow - info.positionOffset + border
  insideCol : 1 - info.positionOffset - border ≤ s.origCol ∧ s.origCol ≤ w.ncol - info.positionOffset + border

/-- The border of image `j`: the coadd has one. -/
def borderOf (mk : Maker) (j : Nat) : ℚ := if j = 0 ∧ mk.cfg.firstImageIsCoadd = true then mk.cfg.coaddBuffer else 0

/-- The PSF object of image `j`, if there are PSFs, has no WCS. -/
def NoPsfWcs (psf : Option (List PsfObj)) (j : Nat) : Prop := ∀ ps p, psf = some ps → ps[j]? = some p → p.getWcs = none

end Meds.Spec

namespace Meds.Config

open Meds.Spec Meds.Maker

theorem constructSrc_parts {lib : WcsLib} {castOf : String → ℚ → ℚ} {config : Val} {hn : Bool} {objs : List InputObj} {srcs : List SrcFile}
    {psf : Option (List PsfObj)} {psfInfo : Option String} {md : String} {mk : Maker}
    (h : constructSrc lib castOf config hn objs srcs psf psfInfo md = .ok mk) :
    ∃ images, mapRes (withWcs lib psf) (numbered srcs) = .ok images ∧
      construct castOf config hn objs images (psf.map (List.map PsfObj.model)) psfInfo md = .ok mk := by
  unfold constructSrc at h
  obtain ⟨images, h1, h⟩ := Res.bind_eq_ok.mp h
  exact ⟨images, h1, h⟩

theorem recorded {lib : WcsLib} {castOf : String → ℚ → ℚ} {config : Val} (hu : ((userEntries config).map Prod.fst).Nodup) {hn : Bool} {objs : List InputObj}
    {srcs : List SrcFile} {psf : Option (List PsfObj)} {psfInfo : Option String} {md : String} {mk mk' : Maker} {f : Fits} {m : MEDS}
    (hc : constructSrc lib castOf config hn objs srcs psf psfInfo md = .ok mk) (hw : mk.write = .ok (mk', f)) (ho : MEDS.openFile f = .ok m)
    {i k : Nat} {o : ObjRow} {s : Slot} (he : Epoch m.cat.rows i k o s) :
    ∃ (j : Nat) (src : SrcFile) (w : RawWcs), s.fileId = (j : Int) ∧ srcs[j]? = some src ∧ getWcs lib psf j src = .ok w ∧
      RecordedBy config (borderOf mk j) j src.info w o s := by
  obtain ⟨images, h0, hc⟩ := constructSrc_parts hc
  obtain ⟨l, cfg, ims, ps, h1, h2, h3, h4, h5, h6⟩ := construct_parts hc
  obtain ⟨j, im, a1, a2, a3, a4, a5, _, _, _, _, a10⟩ := C06_positions_recorded h5 hw ho he
  obtain ⟨x, hx, hcall⟩ := mapRes_getElem?_inv h3 a2
  obtain ⟨hx1, hx2⟩ := numbered_getElem? hx
  obtain ⟨y, hy, hget⟩ := mapRes_getElem?_inv h0 hx2
  obtain ⟨hy1, hy2⟩ := numbered_getElem? hy
  unfold withWcs at hget
  obtain ⟨w, hg, hget⟩ := Res.bind_eq_ok.mp hget
  injection hget with hget
  rw [hy1] at hg
  unfold callImage at hcall
  obtain ⟨b, hb, hcall⟩ := Res.bind_eq_ok.mp hcall
  injection hcall with hcall
  rw [hx1] at hb
  have hbe := wcsUses_eq hu h1 hb
  have hcfg : mk.cfg = cfg := by
    unfold Maker.init at h5
    obtain ⟨_, _, h5⟩ := Res.bind_eq_ok.mp h5
    by_cases hq : psfLengthBad ps ims.length = true
    · rw [if_pos hq] at h5; cases h5
    · rw [if_neg hq] at h5
      injection h5 with h5
      rw [← h5]
  obtain ⟨_, r1, r2, c1, c2⟩ := a3
  rw [← a4] at r1 r2
  rw [← a5] at c1 c2
  refine ⟨j, y.2, w, a1, hy2, hg, ?_⟩
  subst hcall
  rw [← hget] at a4 a5 a10 r1 r2 c1 c2
  have hbd : border cfg j = borderOf mk j := by
    unfold border borderOf
    rw [hcfg]
  rw [hbd] at r1 r2 c1 c2
  constructor
  · rw [← hbe]; cases b <;> simpa [rowIn, callWcs] using a4
  · rw [← hbe]; cases b <;> simpa [colIn, callWcs] using a5
  · rw [a4, a5, a10, ← hbe]; cases b <;> simp [rowIn, colIn, callWcs]
  · exact ⟨r1, r2⟩
  · exact ⟨c1, c2⟩

/-- **C72** (as far as it holds) In the file that is written, the positions and jacobians of an image whose PSF object has no WCS are those of the WCS in the
`wcs` column of `image_info` if there is one, and of the header's WCS if there is none; and they lie inside the size of that WCS. -/
theorem C72_image_info_first_partial {lib : WcsLib} {castOf : String → ℚ → ℚ} {config : Val} (hu : ((userEntries config).map Prod.fst).Nodup) {hn : Bool}
    {objs : List InputObj} {srcs : List SrcFile} {psf : Option (List PsfObj)} {psfInfo : Option String} {md : String} {mk mk' : Maker} {f : Fits} {m : MEDS}
    (hc : constructSrc lib castOf config hn objs srcs psf psfInfo md = .ok mk) (hw : mk.write = .ok (mk', f)) (ho : MEDS.openFile f = .ok m)
    {i k : Nat} {o : ObjRow} {s : Slot} (he : Epoch m.cat.rows i k o s) :
    ∃ (j : Nat) (src : SrcFile), s.fileId = (j : Int) ∧ srcs[j]? = some src ∧ (NoPsfWcs psf j →
      (∀ text, src.wcsColumn = some text → ∃ d w, lib.loads text = .ok d ∧ lib.wcs d = .ok w ∧ RecordedBy config (borderOf mk j) j src.info w o s) ∧
      (src.wcsColumn = none → ∃ w, lib.wcs src.header = .ok w ∧ RecordedBy config (borderOf mk j) j src.info w o s)) := by
  obtain ⟨j, src, w, h1, h2, h3, h4⟩ := recorded hu hc hw ho he
  refine ⟨j, src, h1, h2, fun hno => ?_⟩
  have h3 : infoWcs lib src = .ok w := by
    unfold getWcs at h3
    cases psf with
    | none => exact h3
    | some ps =>
      dsimp only at h3
      cases hp : ps[j]? with
      | none => rw [hp] at h3; cases h3
      | some p =>
        rw [hp] at h3
        dsimp only at h3
        rw [hno ps p rfl hp] at h3
        exact h3
  unfold infoWcs at h3
  constructor
  · intro text ht
    rw [ht] at h3
    obtain ⟨d, hd, h3⟩ := Res.bind_eq_ok.mp h3
    exact ⟨d, w, hd, h3, h4⟩
  · intro ht
    rw [ht] at h3
    exact ⟨w, h3, h4⟩

/-- **C72** What happens when the PSF object of an image has a WCS: positions and jacobians are those of that WCS, whatever is in `image_info`, and they lie
inside the size that the header of the image gives, which for a compressed image is that of the uncompressed one. -/
theorem C72_psf_wins {lib : WcsLib} {castOf : String → ℚ → ℚ} {config : Val} (hu : ((userEntries config).map Prod.fst).Nodup) {hn : Bool}
    {objs : List InputObj} {srcs : List SrcFile} {ps : List PsfObj} {psfInfo : Option String} {md : String} {mk mk' : Maker} {f : Fits} {m : MEDS}
    (hc : constructSrc lib castOf config hn objs srcs (some ps) psfInfo md = .ok mk) (hw : mk.write = .ok (mk', f)) (ho : MEDS.openFile f = .ok m)
    {i k : Nat} {o : ObjRow} {s : Slot} (he : Epoch m.cat.rows i k o s) :
    ∃ (j : Nat) (src : SrcFile) (p : PsfObj), s.fileId = (j : Int) ∧ srcs[j]? = some src ∧ ps[j]? = some p ∧ ∀ w, p.getWcs = some w →
      ∃ nx ny : Nat, RecordedBy config (borderOf mk j) j src.info { w (nx, ny) with ncol := nx, nrow := ny } o s ∧
        ((∃ z, src.header.lookup "znaxis1" = some z) → src.header.lookup "znaxis1" = some (.int nx) ∧ src.header.lookup "znaxis2" = some (.int ny)) ∧
        (src.header.lookup "znaxis1" = none → src.header.lookup "naxis1" = some (.int nx) ∧ src.header.lookup "naxis2" = some (.int ny)) := by
  obtain ⟨j, src, w, h1, h2, h3, h4⟩ := recorded hu hc hw ho he
  unfold getWcs at h3
  dsimp only at h3
  cases hp : ps[j]? with
  | none => rw [hp] at h3; cases h3
  | some p =>
    refine ⟨j, src, p, h1, h2, hp, fun w' hw' => ?_⟩
    rw [hp] at h3
    dsimp only at h3
    rw [hw'] at h3
    obtain ⟨⟨nx, ny⟩, hn, h3⟩ := Res.bind_eq_ok.mp h3
    injection h3 with h3
    subst h3
    have card : ∀ {k : String} {n : Nat}, sizeCard src.header k = .ok n → src.header.lookup k = some (.int n) := by
      intro k n h
      unfold sizeCard item at h
      obtain ⟨v, hv, h⟩ := Res.bind_eq_ok.mp h
      rw [get?_eq_lookup] at hv
      cases hl : src.header.lookup k with
      | none => rw [hl] at hv; cases hv
      | some v' =>
        rw [hl] at hv
        injection hv with hv
        subst hv
        cases v' with
        | int z =>
          dsimp only at h
          by_cases hz : 0 ≤ z
          · rw [if_pos hz] at h
            injection h with h
            subst h
            congr 2
            omega
          · rw [if_neg hz] at h; cases h
        | _ => cases h
    refine ⟨nx, ny, h4, ?_, ?_⟩
    · rintro ⟨z, hz⟩
      unfold headerSize at hn
      rw [if_pos (by rw [get?_eq_lookup, hz]; rfl)] at hn
      obtain ⟨x, hx, hn⟩ := Res.bind_eq_ok.mp hn
      obtain ⟨y, hy, hn⟩ := Res.bind_eq_ok.mp hn
      injection hn with hn
      injection hn with e1 e2
      subst e1 e2
      exact ⟨card hx, card hy⟩
    · intro hz
      unfold headerSize at hn
      rw [if_neg (by rw [get?_eq_lookup, hz]; simp)] at hn
      obtain ⟨x, hx, hn⟩ := Res.bind_eq_ok.mp hn
      obtain ⟨y, hy, hn⟩ := Res.bind_eq_ok.mp hn
      injection hn with hn
      injection hn with e1 e2
      subst e1 e2
      exact ⟨card hx, card hy⟩

/-- `image_info` and the files with the headers exchanged. -/
def _root_.Meds.Spec.sameButHeader (a b : SrcFile) : Prop := a.wcsColumn = b.wcsColumn ∧ a.info = b.info ∧ a.plane = b.plane

theorem mapRes_numbered_congr {α β : Type} {R : α → α → Prop} {f : Nat × α → Res β} {l l' : List α} (h : List.Forall₂ R l l')
    (hf : ∀ n a b, R a b → f (n, a) = f (n, b)) : mapRes f (numbered l) = mapRes f (numbered l') := by
  unfold numbered
  rw [h.length_eq]
  generalize List.range l'.length = ns
  induction h generalizing ns with
  | nil => rfl
  | cons hab _ ih =>
    cases ns with
    | nil => rfl
    | cons n ns =>
      simp only [List.zip_cons_cons, mapRes]
      rw [hf n _ _ hab, ih ns]

/-- **C72** (as far as it holds) With a `wcs` column and PSF objects without WCS the headers of the images are not looked at: with other headers, the result
is the same. -/
theorem C72_header_not_used_partial {lib : WcsLib} {castOf : String → ℚ → ℚ} {config : Val} {hn : Bool} {objs : List InputObj} {srcs srcs' : List SrcFile}
    {psf : Option (List PsfObj)} {psfInfo : Option String} {md : String} (hno : ∀ j, NoPsfWcs psf j)
    (hs : List.Forall₂ (fun a b => sameButHeader a b ∧ ∃ text, a.wcsColumn = some text) srcs srcs') :
    constructSrc lib castOf config hn objs srcs psf psfInfo md = constructSrc lib castOf config hn objs srcs' psf psfInfo md := by
  unfold constructSrc
  rw [mapRes_numbered_congr hs]
  rintro n a b ⟨⟨h1, h2, h3⟩, text, ht⟩
  have hi : infoWcs lib a = infoWcs lib b := by
    unfold infoWcs; rw [← h1, ht]
  have hg : getWcs lib psf n a = getWcs lib psf n b := by
    unfold getWcs
    cases psf with
    | none => exact hi
    | some ps =>
      dsimp only
      cases hp : ps[n]? with
      | none => rfl
      | some p =>
        dsimp only
        rw [hno n ps p rfl hp]
        exact hi
  unfold withWcs
  dsimp only
  rw [hg, h2, h3]

/-- Libraries for the examples: the text `"shifted"` stands for a WCS displaced by 1, for images of 6 by 6; other data give a WCS without shift, of the size
in the header. -/
def exLib : WcsLib :=
  { loads := fun t => if t = "shifted" then .ok [("crval1", .int 1), ("naxis1", .int 6), ("naxis2", .int 6)] else .error .valueError,
    wcs := fun d => do
      let n ← headerSize d
      .ok { exWcs 6 (match Dict.get? d "crval1" with | some (.int z) => (z : ℚ) | _ => 0) with ncol := n.1, nrow := n.2 } }

def exSrc (column : Option String) (base scale : ℚ) : SrcFile :=
  { header := [("naxis", .int 2), ("naxis1", .int 6), ("naxis2", .int 6)], wcsColumn := column, info := (Ex.src 6 0 base scale).info,
    plane := (Ex.src 6 0 base scale).plane }

/-- Construct, write, open and test. -/
def exCheckSrc (lib : WcsLib) (srcs : List SrcFile) (psf : Option (List PsfObj)) (test : MEDS → Bool) : Bool :=
  match constructSrc lib (fun _ q => q) (.dict [("psf", .dict [])]) true [exObj] srcs psf none "meta" with
  | .ok k =>
    match k.write with
    | .ok r =>
      match MEDS.openFile r.2 with
      | .ok m => test m
      | .error _ => false
    | .error _ => false
  | .error _ => false

-- the column is used for the image that has one, without PSFs and with PSF objects that have no WCS
example : exCheckSrc exLib [exSrc none 100 1, exSrc (some "shifted") 200 2] none
    (fun m => m.cat.rows.map (fun o => o.slots.map (fun s => (s.fileId, s.origCol))) = [[(0, 2), (1, 1)]]) = true := by decide +kernel

example : exCheckSrc exLib [exSrc (some "shifted") 100 1, exSrc (some "shifted") 200 2] (some [⟨exPsf, none⟩, ⟨exPsf, none⟩])
    (fun m => m.cat.rows.map (fun o => o.slots.map (fun s => (s.fileId, s.origCol))) = [[(0, 1), (1, 1)]]) = true := by decide +kernel

theorem exCheckSrc_spec {lib : WcsLib} {srcs : List SrcFile} {psf : Option (List PsfObj)} {test : MEDS → Bool} (h : exCheckSrc lib srcs psf test = true) :
    ∃ mk mk' f m, constructSrc lib (fun _ q => q) (.dict [("psf", .dict [])]) true [exObj] srcs psf none "meta" = .ok mk ∧
      mk.write = .ok (mk', f) ∧ MEDS.openFile f = .ok m ∧ test m = true := by
  unfold exCheckSrc at h
  cases h1 : constructSrc lib (fun _ q => q) (.dict [("psf", .dict [])]) true [exObj] srcs psf none "meta" with
  | error e => rw [h1] at h; cases h
  | ok k =>
    rw [h1] at h
    dsimp only at h
    cases h2 : k.write with
    | error e => rw [h2] at h; cases h
    | ok r =>
      rw [h2] at h
      dsimp only at h
      cases h3 : MEDS.openFile r.2 with
      | error e => rw [h3] at h; cases h
      | ok m =>
        rw [h3] at h
        exact ⟨k, r.1, r.2, m, rfl, h2, h3, h⟩

/-- **C72** is false when the PSF object has a WCS: here the `wcs` column puts the object into column 1 of both images, the file has it in column 1 of the
first and, by the WCS of the PSF object, in column 3/2 of the second. -/
theorem C72_counterexample :
    ∃ mk mk' f m, constructSrc exLib (fun _ q => q) (.dict [("psf", .dict [])]) true [exObj] [exSrc (some "shifted") 100 1, exSrc (some "shifted") 200 2]
        (some [⟨exPsf, none⟩, ⟨exPsf, some (fun _ => exWcs 1 (1 / 2))⟩]) none "meta" = .ok mk ∧
      mk.write = .ok (mk', f) ∧ MEDS.openFile f = .ok m ∧
      m.cat.rows.map (fun o => o.slots.map (fun s => (s.fileId, s.origCol))) = [[(0, 1), (1, 3 / 2)]] := by
  obtain ⟨mk, mk', f, m, h1, h2, h3, h4⟩ := exCheckSrc_spec (lib := exLib) (srcs := [exSrc (some "shifted") 100 1, exSrc (some "shifted") 200 2])
    (psf := some [⟨exPsf, none⟩, ⟨exPsf, some (fun _ => exWcs 1 (1 / 2))⟩])
    (test := fun m => m.cat.rows.map (fun o => o.slots.map (fun s => (s.fileId, s.origCol))) = [[(0, 1), (1, 3 / 2)]]) (by decide +kernel)
  exact ⟨mk, mk', f, m, h1, h2, h3, by simpa using h4⟩

/-- As `exLib`, with a WCS in `image_info` that says the image has 2 by 2 pixels. -/
def exSmall : WcsLib := { exLib with loads := fun _ => .ok [("naxis1", .int 2), ("naxis2", .int 2)] }

/-- **C72** The size of the image is only set on a WCS of a PSF object: an image of 6 by 6 pixels whose WCS in `image_info` comes with a smaller size loses its
objects, here the second of two images that both show the object. -/
theorem C72_size_counterexample :
    ∃ mk mk' f m, constructSrc exSmall (fun _ q => q) (.dict [("psf", .dict [])]) true [exObj] [exSrc none 100 1, exSrc (some "small") 200 2]
        none none "meta" = .ok mk ∧
      mk.write = .ok (mk', f) ∧ MEDS.openFile f = .ok m ∧ m.cat.rows.map (fun o => (o.ncutout, o.slots.map (fun s => s.fileId))) = [(1, [0, -9999])] := by
  obtain ⟨mk, mk', f, m, h1, h2, h3, h4⟩ := exCheckSrc_spec (lib := exSmall) (srcs := [exSrc none 100 1, exSrc (some "small") 200 2]) (psf := none)
    (test := fun m => m.cat.rows.map (fun o => (o.ncutout, o.slots.map (fun s => s.fileId))) = [(1, [0, -9999])]) (by decide +kernel)
  exact ⟨mk, mk', f, m, h1, h2, h3, by simpa using h4⟩

end Meds.Config
