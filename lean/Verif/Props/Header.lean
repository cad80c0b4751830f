import Verif.Model.Header

/-!
# Header cards of the mosaic extensions (C131)
-/

namespace Meds
namespace Spec

/-- The value that a header or a dictionary has under a key. -/
def card (k : String) : List (String × String) → Option String
  | [] => none
  | c :: t => if c.1 = k then some c.2 else card k t

/-- The keys of a python dictionary are different from each other. -/
def IsDict (d : List (String × String)) : Prop := (d.map (·.1)).Nodup

/-- A header that has the cards of `pars` and, under all other keys, those of `base`. -/
def HasCards (base pars cards : List (String × String)) : Prop := ∀ k, card k cards = (card k pars).or (card k base)

end Spec

namespace Header
open Spec

theorem card_none {k : String} {h : Cards} : card k h = none ↔ k ∉ h.map (·.1) := by
  induction h with
  | nil => simp [card]
  | cons c t ih =>
    by_cases hc : c.1 = k
    · simp [card, hc]
    · simp only [card, hc, if_false, ih, List.map_cons, List.mem_cons, not_or]
      exact ⟨fun h => ⟨fun e => hc e.symm, h⟩, fun h => h.2⟩

theorem card_append (k : String) (a b : Cards) : card k (a ++ b) = (card k a).or (card k b) := by
  induction a with
  | nil => simp [card]
  | cons c t ih =>
    by_cases hc : c.1 = k <;> simp [card, hc, ih]

theorem card_map (k : String) (c : String × String) (h : Cards) :
    card k (h.map (fun d => if d.1 = c.1 then (d.1, c.2) else d)) = if k = c.1 then (card k h).map (fun _ => c.2) else card k h := by
  induction h with
  | nil => simp [card]
  | cons d t ih =>
    rw [List.map_cons]
    by_cases hd : d.1 = c.1 <;> by_cases hk : d.1 = k
    · have : k = c.1 := hk ▸ hd
      simp [card, hd, this]
    · have h2 : k ≠ c.1 := fun e => hk (by rw [hd, e])
      have h3 : c.1 ≠ k := fun e => h2 e.symm
      simp [card, hd, ih, h2, h3]
    · have h2 : k ≠ c.1 := fun e => hd (by rw [hk, e])
      simp [card, hk, h2]
    · simp [card, hd, hk, ih]

theorem card_updateKey (k : String) (c : String × String) (h : Cards) :
    card k (updateKey h c) = if k = c.1 then some c.2 else card k h := by
  unfold updateKey
  by_cases hc : c.1 ∈ h.map (·.1)
  · rw [if_pos hc, card_map]
    by_cases hk : k = c.1
    · rw [if_pos hk, if_pos hk]
      cases hn : card k h with
      | none => exact absurd (hk ▸ hc) (card_none.mp hn)
      | some v => rfl
    · rw [if_neg hk, if_neg hk]
  · rw [if_neg hc, card_append]
    by_cases hk : k = c.1
    · rw [if_pos hk, card_none.mpr (hk ▸ hc)]
      simp [card, hk]
    · have h3 : c.1 ≠ k := fun e => hk e.symm
      simp [card, hk, h3]

theorem card_foldl (k : String) : ∀ (p : Cards), IsDict p → ∀ h, card k (p.foldl updateKey h) = (card k p).or (card k h)
  | [], _, h => by simp [card]
  | c :: t, hd, h => by
    have hd' : c.1 ∉ t.map (·.1) ∧ IsDict t := by simpa [IsDict] using hd
    rw [List.foldl_cons, card_foldl k t hd'.2, card_updateKey]
    by_cases hk : c.1 = k
    · have : card k t = none := card_none.mpr (hk ▸ hd'.1)
      simp [card, hk, this]
    · have h3 : k ≠ c.1 := fun e => hk e.symm
      simp [card, hk, h3]

theorem hasCards_writeKeys {p : Option Cards} (hp : ∀ d, p = some d → IsDict d) (b : Cards) : HasCards b (p.getD []) (writeKeys p b) := by
  intro k
  unfold writeKeys
  cases p with
  | none => simp [card]
  | some d => exact card_foldl k d (hp d rfl) b

theorem writeTo_append {name : String} {p : Option Cards} {new : ImageHdu} : ∀ {hs : List ImageHdu}, name ∉ hs.map (·.extname) →
    new.extname = name → writeTo name p (hs ++ [new]) = hs ++ [{ new with cards := writeKeys p new.cards }]
  | [], _, hn => by simp [writeTo, hn]
  | h :: t, hm, hn => by
    have : name ≠ h.extname ∧ name ∉ t.map (·.extname) := by simpa using hm
    rw [List.cons_append, writeTo, if_neg (fun e => this.1 e.symm), writeTo_append this.2 hn, List.cons_append]

/-- The extension of a type with all cards. -/
def full (io : Fitsio) (s : Setup) (p : Option Cards) (t : String) : ImageHdu :=
  ⟨t ++ "_cutouts", s.dtype t, s.totalPixels, writeKeys p (io.base (t ++ "_cutouts") (s.dtype t) s.totalPixels)⟩

theorem ext_inj {a b : String} (h : a ++ "_cutouts" = b ++ "_cutouts") : a = b := by
  have := congrArg String.toList h
  simp only [String.toList_append] at this
  exact String.toList_inj.mp (List.append_cancel_right this)

theorem psf_ne (a : String) : "psf" ≠ a ++ "_cutouts" := by
  intro h
  have := congrArg (fun s => s.toList.length) h
  simp [String.toList_append] at this

theorem foldl_types (io : Fitsio) (s : Setup) (p : Option Cards) : ∀ (ts : List String) (hs : List ImageHdu), ts.Nodup →
    (∀ t ∈ ts, t ++ "_cutouts" ∉ hs.map (·.extname)) → ts.foldl (reserveType io s) (hs, p) = (hs ++ ts.map (full io s p), p)
  | [], hs, _, _ => by simp
  | t :: ts, hs, hn, hm => by
    have hn' := List.nodup_cons.mp hn
    have h1 : reserveType io s (hs, p) t = (hs ++ [full io s p t], p) := by
      unfold reserveType createHdu
      simp only [full]
      rw [writeTo_append (hm t (by simp)) rfl]
    rw [List.foldl_cons, h1, foldl_types io s p ts _ hn'.2 ?_]
    · simp
    · intro u hu
      simp only [List.map_append, List.map_cons, List.map_nil, List.mem_append, List.mem_singleton, not_or]
      refine ⟨hm u (by simp [hu]), fun e => hn'.1 ?_⟩
      exact ext_inj (a := u) (b := t) e ▸ hu

theorem reserve_eq (io : Fitsio) (s : Setup) (hn : s.types.Nodup) :
    reserve io s = match s.psfPixels with
      | none => (s.types.map (full io s s.pars), s.pars)
      | some n => (s.types.map (full io s s.pars) ++ [⟨"psf", "f4", n, writeKeys (s.pars.map io.touch) (io.base "psf" "f4" n)⟩], s.pars.map io.touch) := by
  unfold reserve
  rw [foldl_types io s s.pars s.types [] hn (by simp)]
  unfold reservePsf createHdu
  cases s.psfPixels with
  | none => simp
  | some n =>
    dsimp only
    rw [writeTo_append (name := "psf") ?_ rfl]
    · simp
    · simp only [List.nil_append, List.map_map, List.mem_map, Function.comp, not_exists, not_and]
      intro t _ e
      exact psf_ne t e.symm

/-- **C131** (cutouts).  With different cutout types, the extension of every type is there once, in the order of the types, with the configured pixel type and
size, and its header has all the cards of `fpack_pars` - and under other keys those of fitsio - whatever fitsio does to the dictionary it is given. -/
theorem C131_cutouts (io : Fitsio) (s : Setup) (hn : s.types.Nodup) (hp : ∀ d, s.pars = some d → IsDict d) :
    ∀ (i : Nat) (t : String), s.types[i]? = some t → ∃ h : ImageHdu, (reserve io s).1[i]? = some h ∧ h.extname = t ++ "_cutouts" ∧ h.dtype = s.dtype t ∧ h.npix = s.totalPixels ∧
      HasCards (io.base h.extname h.dtype h.npix) (s.pars.getD []) h.cards := by
  intro i t ht
  refine ⟨full io s s.pars t, ?_, rfl, rfl, rfl, hasCards_writeKeys hp _⟩
  have hi : i < s.types.length := (List.getElem?_eq_some_iff.mp ht).1
  rw [reserve_eq io s hn]
  cases s.psfPixels with
  | none => simp [ht]
  | some n =>
    dsimp only
    rw [List.getElem?_append_left (by simpa using hi)]
    simp [ht]

/-- **C131** (PSFs).  With PSFs there is one more extension, and its header has the cards of `fpack_pars` when fitsio leaves the dictionary as it is. -/
theorem C131_psf (io : Fitsio) (s : Setup) (n : Nat) (hn : s.types.Nodup) (hp : ∀ d, s.pars = some d → IsDict d) (hs : s.psfPixels = some n)
    (hio : ∀ d, s.pars = some d → io.touch d = d) :
    ∃ h : ImageHdu, (reserve io s).1[s.types.length]? = some h ∧ (reserve io s).1.length = s.types.length + 1 ∧ h.extname = "psf" ∧ h.dtype = "f4" ∧ h.npix = n ∧
      HasCards (io.base "psf" "f4" n) (s.pars.getD []) h.cards := by
  have ht : s.pars.map io.touch = s.pars := by
    cases hq : s.pars with
    | none => rfl
    | some d => rw [Option.map_some, hio d hq]
  refine ⟨⟨"psf", "f4", n, writeKeys s.pars (io.base "psf" "f4" n)⟩, ?_, ?_, rfl, rfl, rfl, hasCards_writeKeys hp _⟩
  · rw [reserve_eq io s hn, hs, ht]
    dsimp only
    rw [List.getElem?_append_right (by simp)]
    simp
  · rw [reserve_eq io s hn, hs]
    simp

/-- **C131** (the caller).  The dictionary of the caller is as before when no PSFs are written, whatever fitsio does, and with PSFs when fitsio leaves it as it is. -/
theorem C131_caller (io : Fitsio) (s : Setup) (hn : s.types.Nodup) (h : s.psfPixels = none ∨ ∀ d, s.pars = some d → io.touch d = d) :
    (reserve io s).2 = s.pars := by
  rw [reserve_eq io s hn]
  cases hs : s.psfPixels with
  | none => rfl
  | some n =>
    have h' := h.resolve_left (by simp [hs])
    cases hq : s.pars with
    | none => rfl
    | some d => simp [h' d hq]

/-- **C131** (no settings).  Without `fpack_pars` all headers are those that fitsio writes by itself. -/
theorem C131_none (io : Fitsio) (s : Setup) (hn : s.types.Nodup) (hp : s.pars = none) :
    ∀ h ∈ (reserve io s).1, h.cards = io.base h.extname h.dtype h.npix := by
  intro h hm
  rw [reserve_eq io s hn, hp] at hm
  cases hs : s.psfPixels with
  | none =>
    rw [hs] at hm
    obtain ⟨t, -, rfl⟩ := List.mem_map.mp hm
    rfl
  | some n =>
    rw [hs] at hm
    dsimp only at hm
    rcases List.mem_append.mp hm with hm | hm
    · obtain ⟨t, -, rfl⟩ := List.mem_map.mp hm
      rfl
    · rw [List.mem_singleton.mp hm]
      rfl

/-- **C131** (the extensions).  These are the extensions that the model of the pixels has, with the sizes it has. -/
theorem C131_extensions (io : Fitsio) (mk : Maker) (dtype : String → String) (pars : Option Cards) (hn : mk.types.Nodup) :
    (reserve io (ofMaker mk dtype pars)).1.map (fun h => (h.extname, Hdu.image (List.replicate h.npix 0))) = mk.reservedHdus := by
  rw [reserve_eq io (ofMaker mk dtype pars) hn]
  unfold ofMaker Maker.reservedHdus full
  cases mk.psf with
  | none => simp [Function.comp_def]
  | some p => simp [Function.comp_def]

/-- **C131** (coadd files).  The same for coadd makers: their extensions for pixels are those reserved here, behind the two tables. -/
theorem C131_coadd (io : Fitsio) (c : Coadd.CMaker) (dtype : String → String) (pars : Option Cards) (hn : c.types.Nodup) :
    [("image_info", .info c.info), ("metadata", .metadata c.metaData)] ++
      (reserve io (ofCoadd c dtype pars)).1.map (fun h => (h.extname, Hdu.image (List.replicate h.npix 0))) = c.reserved := by
  rw [reserve_eq io (ofCoadd c dtype pars) hn]
  unfold ofCoadd Coadd.CMaker.reserved full
  simp [Function.comp_def]

/-- Example: fitsio that writes one card and leaves the dictionary as it is. -/
def exIo : Fitsio := ⟨fun e _ _ => [("EXTNAME", e), ("FZALGOR", "NONE")], id⟩

/-- Example: fitsio that removes the first card of the dictionary it is given. -/
def exIoRemoves : Fitsio := ⟨fun e _ _ => [("EXTNAME", e), ("FZALGOR", "NONE")], List.tail⟩

/-- Example: settings of a configuration. -/
def exPars : Cards := [("FZALGOR", "RICE_1"), ("FZTILE", "(10240,1)"), ("FZQVALUE", "16")]

/-- Example: a maker with two types and PSFs. -/
def exSetup : Setup := ⟨["image", "weight"], fun _ => "f4", 100, some 50, some exPars⟩

example : exSetup.types.Nodup ∧ IsDict exPars ∧ exIo.touch exPars = exPars := by
  refine ⟨by decide +kernel, by unfold IsDict; decide +kernel, rfl⟩

example : (reserve exIo exSetup).1.map (fun h => (h.extname, h.cards)) =
    [("image_cutouts", [("EXTNAME", "image_cutouts"), ("FZALGOR", "RICE_1"), ("FZTILE", "(10240,1)"), ("FZQVALUE", "16")]),
     ("weight_cutouts", [("EXTNAME", "weight_cutouts"), ("FZALGOR", "RICE_1"), ("FZTILE", "(10240,1)"), ("FZQVALUE", "16")]),
     ("psf", [("EXTNAME", "psf"), ("FZALGOR", "RICE_1"), ("FZTILE", "(10240,1)"), ("FZQVALUE", "16")])] := by
  decide +kernel

/-- What the deep copy is good for, and that the PSF part has none: with a fitsio that changes the dictionary the cutouts still have all cards, the PSFs
and the caller do not. -/
theorem C131_deep_copy :
    (reserve exIoRemoves exSetup).1.map (fun h => (h.extname, card "FZALGOR" h.cards)) =
      [("image_cutouts", some "RICE_1"), ("weight_cutouts", some "RICE_1"), ("psf", some "NONE")] ∧
    (reserve exIoRemoves exSetup).2 ≠ some exPars := by
  decide +kernel

/-- A type that is requested twice has two extensions, and the cards are only in the first of them. -/
theorem C131_repeated :
    (reserve exIo { exSetup with types := ["image", "weight", "weight"], psfPixels := none }).1.map (fun h => (h.extname, card "FZTILE" h.cards)) =
      [("image_cutouts", some "(10240,1)"), ("weight_cutouts", some "(10240,1)"), ("weight_cutouts", none)] := by
  decide +kernel

end Header
end Meds
