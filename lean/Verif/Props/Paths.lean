import Verif.Model.Paths
import Verif.Props.Sources

/-!
# The source reported for a cutout (C99)
-/

namespace Meds

open Sources Spec Maker

/-- The text fits into a column of this width: ASCII characters, not too many of them, no blanks around them and no NUL at the end. -/
structure Spec.FitsIn (w : Nat) (p : String) : Prop where
  ascii : ∀ c ∈ p.toList, c.toNat < 128
  length : p.toList.length ≤ w
  first : ∀ c, p.toList.head? = some c → c ∉ blanks
  last : ∀ c, p.toList.getLast? = some c → c ∉ blanks ∧ c ≠ '\x00'

theorem store_fits {w : Nat} {p : String} (h : FitsIn w p) : store w p = .ok (.bytes p) := by
  unfold store
  rw [if_pos (List.all_eq_true.mpr fun c hc => by simpa using h.ascii c hc), List.take_of_length_le h.length, dropWhile_none, List.reverse_reverse, String.ofList_toList]
  intro c hc
  rw [List.head?_reverse] at hc
  have := (h.last c hc).2
  rw [decide_eq_false_iff_not]
  intro h0
  apply this
  rw [← Char.ofNat_toNat c, h0]

/-- **C99** What a column of bytes holds after an assignment: the first `w` characters, without NUL characters at their end; a text with other than ASCII
characters is refused. -/
theorem C99_what_is_stored {w : Nat} {p : String} :
    ((∃ c ∈ p.toList, 128 ≤ c.toNat) → store w p = .error .valueError) ∧
    ((∀ c ∈ p.toList, c.toNat < 128) → ∃ s : String, store w p = .ok (.bytes s) ∧
      ∃ z : List Char, p.toList.take w = s.toList ++ z ∧ (∀ c ∈ z, c = '\x00') ∧ ∀ c, s.toList.getLast? = some c → c ≠ '\x00') := by
  have hz : ∀ c : Char, c.toNat = 0 ↔ c = '\x00' := fun c => ⟨fun h => by rw [← Char.ofNat_toNat c, h], fun h => by rw [h]; rfl⟩
  constructor
  · rintro ⟨c, hc, hb⟩
    unfold store
    rw [if_neg]
    intro h
    have := List.all_eq_true.mp h c hc
    rw [decide_eq_true_eq] at this
    omega
  · intro h
    unfold store
    rw [if_pos (List.all_eq_true.mpr fun c hc => by simpa using h c hc)]
    obtain ⟨a, h1, h2, h3⟩ := dropWhile_split (fun c => decide (c.toNat = 0)) (p.toList.take w).reverse
    refine ⟨_, rfl, a.reverse, ?_, ?_, ?_⟩
    · rw [String.toList_ofList, ← List.reverse_append, ← h1, List.reverse_reverse]
    · intro c hc
      have := h2 c (List.mem_reverse.mp hc)
      rw [decide_eq_true_eq] at this
      exact (hz c).mp this
    · intro c hc h0
      rw [String.toList_ofList, List.getLast?_reverse] at hc
      have := h3 c hc
      rw [decide_eq_false_iff_not] at this
      exact this ((hz c).mpr h0)

theorem setPath_ok {w : Nat} {t p : String} {d d' : DiskImage} (h : d.setPath w t p = .ok d') : ∃ c, store w p = .ok c ∧
    d' = { d with info := if t = "image" then { d.info with imagePath := c.text } else d.info,
                  row := { d.row with path := fun u => if u = t then some c else d.row.path u } } := by
  unfold DiskImage.setPath at h
  obtain ⟨c, h1, h2⟩ := Res.bind_eq_ok.mp h
  injection h2 with h2
  exact ⟨c, h1, h2.symm⟩

section
variable {cfg : MakerCfg} {hn : Bool} {objs : List InputObj} {images : List SrcImage} {srcs : List DiskImage} {fs : FileSys} {psf : Option (List PsfModel)}
  {psfInfo : Option String} {md : String} {mk mk' : Maker} {f : Fits} {m : MEDS}

theorem source_info (hi : Maker.init cfg hn objs images psf psfInfo md = .ok mk) (hw : mk.write = .ok (mk', f)) (ho : MEDS.openFile f = .ok m)
    {i k j : Nat} {o : ObjRow} {s : Slot} {im : SrcImage} (he : Epoch m.cat.rows i k o s) (h1 : s.fileId = (j : Int)) (h2 : images[j]? = some im) :
    m.getSourceInfo i k = .ok im.info ∧ m.getSourcePath i k = .ok im.info.imagePath := by
  obtain ⟨m₀, ho', hm, _⟩ := C01_written_file_opens hi hw
  have : m₀ = m := by rw [ho] at ho'; injection ho' with ho'; exact ho'.symm
  subst this
  have hinfo : m₀.getSourceInfo i k = .ok im.info := by
    unfold MEDS.getSourceInfo MEDS.slot
    rw [MEDS.checkIndices_some he.1 he.2.1, show m₀.row (i : Int) = .ok o from pyGet_nat_some he.1]
    simp only [Res.ok_bind]
    rw [show pyGet o.slots (k : Int) = .ok s from pyGet_nat_some he.2.2]
    simp only [Res.ok_bind]
    rw [h1]
    exact pyGet_nat_some (by rw [hm, List.getElem?_map, h2]; rfl)
  refine ⟨hinfo, ?_⟩
  unfold MEDS.getSourcePath
  rw [hinfo]
  rfl

/-- **C99** For every stored epoch, `get_source_info` and `get_source_path` give the `image_info` row and the path of the image that the cutout was taken from. -/
theorem C99_source (hi : Maker.init cfg hn objs images psf psfInfo md = .ok mk) (hw : mk.write = .ok (mk', f)) (ho : MEDS.openFile f = .ok m)
    {i k : Nat} {o : ObjRow} {s : Slot} (he : Epoch m.cat.rows i k o s) (hbox : 0 < o.boxSize) {t : String} (ht : t = "image" ∨ t ∈ cfg.cutoutTypes) :
    ∃ (im : SrcImage) (c : Img ℚ), im ∈ images ∧ m.getSourceInfo i k = .ok im.info ∧ m.getSourcePath i k = .ok im.info.imagePath ∧ m.getCutout i k t = .ok c ∧
      (∃ r, readImage cfg im t = .ok r) ∧
      (∀ src, readImage cfg im t = .ok (some src) → ∃ fill, documentedFill t = some fill ∧
        ∀ r q : Nat, (r : Int) < o.boxSize → (q : Int) < o.boxSize →
          c.get? r q = some (cutoutPixel (cfg.cast t) fill src s.origStartRow s.origStartCol r q)) ∧
      (readImage cfg im t = .ok none → ∀ r q : Nat, (r : Int) < o.boxSize → (q : Int) < o.boxSize → c.get? r q = some 0) := by
  obtain ⟨j, im, c, h1, h2, h3, _, _, _, h4, h5, h6⟩ := C01_cutouts_read_back hi hw ho he hbox ht
  have hs := source_info hi hw ho he h1 h2
  exact ⟨im, c, List.mem_of_getElem? h2, hs.1, hs.2, h3, h4, h5, h6⟩

/-- **C99 (partial)** The rows of `image_info` were filled in with paths that fit into the column.  Then `get_source_path` gives the path that was put there for the image
of the epoch, and the pixels of the cutout are those of the file of that name.  Missing: paths that do not fit, see `C99_what_is_stored` and `C99_counterexample`. -/
theorem C99_paths_partial {w : Nat} {filled : List (DiskImage × String)} (hset : List.Forall₂ (fun b src => b.1.setPath w "image" b.2 = .ok src) filled srcs)
    (hfit : ∀ b ∈ filled, FitsIn w b.2) (hi : Maker.init cfg hn objs (srcs.map (·.load fs)) psf psfInfo md = .ok mk) (hw : mk.write = .ok (mk', f))
    (ho : MEDS.openFile f = .ok m) {i k : Nat} {o : ObjRow} {s : Slot} (he : Epoch m.cat.rows i k o s) (hbox : 0 < o.boxSize)
    (hwf : ∀ p d h, fs p = some d → h ∈ d → Img.WF h.2) :
    ∃ (j : Nat) (b : DiskImage × String) (d : List (String × Img ℚ)) (e : Ext) (c raw : Img ℚ) (bkg : Option (Img ℚ)) (sc : ℚ), s.fileId = (j : Int) ∧
      filled[j]? = some b ∧ m.getSourcePath i k = .ok b.2 ∧ fs b.2 = some d ∧ b.1.row.ext "image" = some e ∧ IsHdu d e raw ∧
      m.getCutout i k "image" = .ok c ∧ Plane fs b.1.row "bkg" bkg ∧ ScaleIs b.1.row sc ∧
      ∀ r q x y : Nat, (r : Int) < o.boxSize → (q : Int) < o.boxSize → s.origStartRow + r = (x : Int) → s.origStartCol + q = (y : Int) →
        ∀ v, raw.get? x y = some v → c.get? r q = some (cfg.cast "image" ((v - bkgAt bkg x y) * sc)) := by
  obtain ⟨j, src, c, raw, bkg, sc, h1, h2, h3, h4, h5, h6, h7⟩ := C91_image hi hw ho he hbox hwf
  have hlen := hset.length_eq
  have hj : j < filled.length := by rw [hlen]; exact (List.getElem?_eq_some_iff.mp h2).1
  have hb : filled[j]? = some filled[j] := List.getElem?_eq_getElem hj
  have hsrc : filled[j].1.setPath w "image" filled[j].2 = .ok src := by
    have := (List.forall₂_iff_get.mp hset).2 j hj (by omega)
    have h2' : srcs.get ⟨j, by omega⟩ = src := by
      have := (List.getElem?_eq_some_iff.mp h2).2
      simpa using this
    rw [h2'] at this
    exact this
  have hf := hfit _ (List.getElem_mem hj)
  obtain ⟨cell, g1, rfl⟩ := setPath_ok hsrc
  rw [store_fits hf] at g1
  injection g1 with g1
  subst g1
  have hp := (source_info hi hw ho he h1 (im := DiskImage.load fs _) (by rw [List.getElem?_map, h2]; rfl)).2
  obtain ⟨c', e, path, d, n1, n2, n3, n4, n5, n6⟩ := h4
  have hc' : c' = .bytes filled[j].2 := by
    injection n1 with n1
    exact n1.symm
  subst hc'
  have hcore : path = filled[j].2 := by
    rw [← strip_of_core n3]
    exact strip_of_core ⟨[], [], by simp [Cell.text], by simp, hf.first, fun c hc => (hf.last c hc).1⟩
  subst hcore
  exact ⟨j, filled[j], d, e, c, raw, bkg, sc, h1, hb, hp, n5, n2, n6, h3, h5, h6, h7⟩

end

/-- Two rows and the paths for them. -/
def Ex.filled : List (DiskImage × String) := [(Ex.diskImage .str 5 0 (some 2), "a.fits"), (Ex.diskImage .str 5 1 none, "a.fits.fz")]

/-- The image, and a compressed one under nearly the same name. -/
def Ex.filesFz : FileSys := fun p =>
  if p = "a.fits" then some [("", Ex.pix 5 0), ("SCI", Ex.pix 5 100)]
  else if p = "a.fits.fz" then some [("", Ex.pix 5 0), ("SCI", Ex.pix 5 200)]
  else Ex.files p

/-- The rows after the assignments, with columns of this width. -/
def Ex.filledRows (w : Nat) : Res (List DiskImage) := mapRes (fun b => b.1.setPath w "image" b.2) Ex.filled

/-- What the reader says of the second epoch of the first object, when the file is made with paths in columns of this width. -/
def Ex.secondEpoch (w : Nat) : Res (Int × String × Option ℚ) := do
  let srcs ← Ex.filledRows w
  let mk ← Maker.init Ex.cfg true Ex.objs (srcs.map (·.load Ex.filesFz)) none (some "pi") "meta"
  let r ← mk.write
  let m ← MEDS.openFile r.2
  let s ← m.slot 0 1
  let p ← m.getSourcePath 0 1
  let c ← m.getCutout 0 1 "image"
  .ok (s.fileId, p, c.get? 1 1)

-- columns that are wide enough: the path is that of the second row and the pixel that of its file
example : Ex.secondEpoch 9 = .ok (1, "a.fits.fz", some 210) := by decide +kernel

example : ∀ b ∈ Ex.filled, FitsIn 9 b.2 := by
  intro b hb
  simp only [Ex.filled, List.mem_cons, List.not_mem_nil, or_false] at hb
  rcases hb with rfl | rfl <;> exact ⟨by decide, by decide, by decide, by decide⟩

/-- **C99** is false: with columns of six characters the path `a.fits.fz` of the second row is cut to the name of another file that is there, and the file is
written without an error, with the pixels and the path of the other file. -/
theorem C99_counterexample : (∃ b, Ex.filled[1]? = some b ∧ b.2 = "a.fits.fz") ∧ (∃ d, Ex.filesFz "a.fits.fz" = some d) ∧
    Ex.secondEpoch 6 = .ok (1, "a.fits", some 110) ∧ Ex.secondEpoch 9 = .ok (1, "a.fits.fz", some 210) :=
  ⟨⟨_, rfl, rfl⟩, ⟨_, rfl⟩, by decide +kernel, by decide +kernel⟩

end Meds
