import Verif.Lemmas.Writer

/-! Helper lemmas: the HDUs of a written file. -/

namespace Meds

theorem lookup_append (a b : List (String × Hdu)) (n : String) :
    Fits.lookup (a ++ b) n = (Fits.lookup a n).or (Fits.lookup b n) := by
  induction a with
  | nil => simp [Fits.lookup]
  | cons x t ih =>
    obtain ⟨m, h⟩ := x
    simp only [List.cons_append, Fits.lookup]
    split
    · simp
    · exact ih

theorem lookup_none_of_not_mem {l : List (String × Hdu)} {n : String} (h : ∀ x ∈ l, x.1 ≠ n) : Fits.lookup l n = none := by
  induction l with
  | nil => rfl
  | cons x t ih =>
    obtain ⟨m, hd⟩ := x
    simp only [Fits.lookup]
    rw [if_neg (h (m, hd) (by simp))]
    exact ih (fun y hy => h y (by simp [hy]))

theorem modifyImage_ok {name : String} {g : List ℚ → Res (List ℚ)} {hs hs' : List (String × Hdu)}
    (h : modifyImage name g hs = .ok hs') :
    (∃ pix pix', Fits.lookup hs name = some (.image pix) ∧ g pix = .ok pix' ∧ Fits.lookup hs' name = some (.image pix')) ∧
    (∀ n, n ≠ name → Fits.lookup hs' n = Fits.lookup hs n) ∧ hs'.map Prod.fst = hs.map Prod.fst := by
  induction hs generalizing hs' with
  | nil => cases h
  | cons x t ih =>
    obtain ⟨m, hd⟩ := x
    simp only [modifyImage] at h
    split at h
    · rename_i hm
      split at h
      · rename_i pix
        obtain ⟨pix', hg, h⟩ := Res.bind_eq_ok.mp h
        injection h with h
        subst h
        refine ⟨⟨pix, pix', by simp [Fits.lookup, hm], hg, by simp [Fits.lookup, hm]⟩, ?_, by simp⟩
        intro n hn
        simp only [Fits.lookup]
        rw [if_neg (by rw [hm]; exact fun e => hn e.symm), if_neg (by rw [hm]; exact fun e => hn e.symm)]
      · cases h
    · rename_i hm
      obtain ⟨t', ht', h⟩ := Res.bind_eq_ok.mp h
      injection h with h
      subst h
      obtain ⟨⟨pix, pix', h1, h2, h3⟩, h4, h5⟩ := ih ht'
      refine ⟨⟨pix, pix', by simpa [Fits.lookup, hm] using h1, h2, by simpa [Fits.lookup, hm] using h3⟩, ?_, by simp [h5]⟩
      intro n hn
      simp only [Fits.lookup, h4 n hn]

namespace Maker

theorem cutouts_inj {t t' : String} (h : t ∈ supportedTypes) (h' : t' ∈ supportedTypes)
    (e : t ++ "_cutouts" = t' ++ "_cutouts") : t = t' := by
  have : ∀ t ∈ supportedTypes, ∀ t' ∈ supportedTypes, t ++ "_cutouts" = t' ++ "_cutouts" → t = t' := by decide
  exact this t h t' h' e

theorem cutouts_ne {t : String} (h : t ∈ supportedTypes) :
    t ++ "_cutouts" ≠ "object_data" ∧ t ++ "_cutouts" ≠ "image_info" ∧ t ++ "_cutouts" ≠ "metadata" ∧
    t ++ "_cutouts" ≠ "psf" ∧ t ++ "_cutouts" ≠ "psf_info" := by
  revert t
  decide

/-- What the writer needs from the layout. -/
structure Ready (mk : Maker) : Prop where
  types : ∀ t ∈ mk.types, t ∈ supportedTypes
  tiled : Consec 0 (regions mk.objs) mk.totalPixels
  ids : FileIdsOk mk.images mk.objs
  psfTiled : ∀ psf, mk.psf = some psf → Consec 0 (psfRegions mk.objs) mk.totalPsfPixels

/-- One pass over the types. -/
theorem fold_types {mk : Maker} (hr : mk.Ready) {h0 : List (String × Hdu)} (ts : List String) (hts : ∀ t ∈ ts, t ∈ mk.types)
    {h h1 : List (String × Hdu)}
    (hP : ∀ t ∈ mk.types, ∃ buf, Fits.lookup h (t ++ "_cutouts") = some (.image buf) ∧
        Partial 0 (target mk.cfg mk.images t mk.objs) buf)
    (hO : ∀ n, (∀ t ∈ mk.types, n ≠ t ++ "_cutouts") → Fits.lookup h n = Fits.lookup h0 n)
    (hN : h.map Prod.fst = h0.map Prod.fst)
    (hf : foldRes (fun h t => modifyImage (t ++ "_cutouts") (mk.writeCutouts t) h) h ts = .ok h1) :
    (∀ t ∈ mk.types, ∃ buf, Fits.lookup h1 (t ++ "_cutouts") = some (.image buf) ∧
        Partial 0 (target mk.cfg mk.images t mk.objs) buf) ∧
    (∀ t ∈ mk.types, (t ∈ ts ∨ Fits.lookup h (t ++ "_cutouts") = some (.image (target mk.cfg mk.images t mk.objs))) →
        Fits.lookup h1 (t ++ "_cutouts") = some (.image (target mk.cfg mk.images t mk.objs))) ∧
    (∀ n, (∀ t ∈ mk.types, n ≠ t ++ "_cutouts") → Fits.lookup h1 n = Fits.lookup h0 n) ∧
    h1.map Prod.fst = h0.map Prod.fst := by
  induction ts generalizing h with
  | nil =>
    simp only [foldRes] at hf
    injection hf with hf
    subst hf
    exact ⟨hP, fun t _ ht => by simpa using ht, hO, hN⟩
  | cons x xs ih =>
    obtain ⟨m, hm, hf⟩ := foldRes_cons_ok.mp hf
    obtain ⟨⟨pix, pix', l1, l2, l3⟩, l4, l5⟩ := modifyImage_ok hm
    have hx := hts x (by simp)
    obtain ⟨buf, hb1, hb2⟩ := hP x hx
    rw [l1] at hb1
    injection hb1 with hb1
    injection hb1 with hb1
    subst hb1
    have htar := writeCutouts_eq hr.tiled hr.ids hb2 l2
    subst htar
    have hne : ∀ t ∈ mk.types, t ≠ x → t ++ "_cutouts" ≠ x ++ "_cutouts" := fun t ht hne e =>
      hne (cutouts_inj (hr.types t ht) (hr.types x hx) e)
    obtain ⟨r1, r2, r3, r4⟩ := ih (fun t ht => hts t (by simp [ht])) (h := m) (by
        intro t ht
        by_cases e : t = x
        · subst e; exact ⟨_, l3, Partial.refl _ _⟩
        · rw [l4 _ (hne t ht e)]; exact hP t ht)
      (by
        intro n hn
        rw [l4 n (hn x hx)]; exact hO n hn)
      (by rw [l5, hN]) hf
    refine ⟨r1, ?_, r3, r4⟩
    intro t ht hh
    apply r2 t ht
    by_cases e : t = x
    · subst e; exact .inr l3
    · rcases hh with hh | hh
      · rcases List.mem_cons.mp hh with hh | hh
        · exact absurd hh e
        · exact .inl hh
      · right; rw [l4 _ (hne t ht e)]; exact hh

theorem lookup_reserved {types : List String} {n : Nat} {t : String} (ht : t ∈ types)
    (hs : ∀ t ∈ types, t ∈ supportedTypes) :
    Fits.lookup (types.map (fun t => (t ++ "_cutouts", Hdu.image (List.replicate n 0)))) (t ++ "_cutouts")
      = some (.image (List.replicate n 0)) := by
  induction types with
  | nil => cases ht
  | cons x xs ih =>
    simp only [List.map_cons, Fits.lookup]
    split
    · rfl
    · rename_i hne
      rcases List.mem_cons.mp ht with rfl | ht
      · exact absurd rfl hne
      · exact ih ht (fun t ht => hs t (by simp [ht]))

theorem lookup_reserved_none {types : List String} {n : Nat} {m : String}
    (hm : ∀ t ∈ types, m ≠ t ++ "_cutouts") :
    Fits.lookup (types.map (fun t => (t ++ "_cutouts", Hdu.image (List.replicate n 0)))) m = none := by
  apply lookup_none_of_not_mem
  intro x hx
  obtain ⟨t, ht, rfl⟩ := List.mem_map.mp hx
  exact fun e => hm t ht e.symm

/-- Contents of a written file. -/
theorem writeData_ok {mk : Maker} (hr : mk.Ready) {f : Fits} (h : mk.writeData = .ok f) :
    f.find "object_data" = some (.objects { dtype := mk.dtype, rows := mk.objs }) ∧
    f.find "image_info" = some (.info (mk.images.map (·.info))) ∧
    f.find "metadata" = some (.metadata mk.metaData) ∧
    (∀ t ∈ mk.types, f.find (t ++ "_cutouts") = some (.image (target mk.cfg mk.images t mk.objs))) ∧
    (∀ psf, mk.psf = some psf → PsfWF psf → AllDrawn psf mk.objs ∧ f.find "psf" = some (.image (psfTarget mk.cfg psf mk.objs))) ∧
    (mk.psf = none → f.find "psf" = none) ∧
    f.hdus.map Prod.fst = ["object_data", "image_info", "metadata"] ++ mk.types.map (· ++ "_cutouts")
      ++ (match mk.psf with | some _ => ["psf"] | none => []) ++ (match mk.psfInfo with | some _ => ["psf_info"] | none => []) := by
  unfold writeData at h
  obtain ⟨h1, hf1, h⟩ := Res.bind_eq_ok.mp h
  obtain ⟨h2, hf2, h⟩ := Res.bind_eq_ok.mp h
  injection h with h
  have hl : ∀ t ∈ mk.types, (target mk.cfg mk.images t mk.objs).length = mk.totalPixels.toNat := by
    intro t _
    have := target_length (cfg := mk.cfg) (images := mk.images) (t := t) hr.tiled
    omega
  have tn : ∀ n, n ≠ "object_data" → n ≠ "image_info" → n ≠ "metadata" → Fits.lookup mk.tableHdus n = none := by
    intro n a b c
    apply lookup_none_of_not_mem
    intro x hx
    simp only [tableHdus, List.mem_cons, List.not_mem_nil, or_false] at hx
    rcases hx with rfl | rfl | rfl
    · exact a.symm
    · exact b.symm
    · exact c.symm
  obtain ⟨_, r2, r3, r4⟩ := fold_types hr (h0 := mk.tableHdus ++ mk.reservedHdus) mk.types (fun t ht => ht)
    (h := mk.tableHdus ++ mk.reservedHdus) (h1 := h1) (by
      intro t ht
      have hc := cutouts_ne (hr.types t ht)
      refine ⟨List.replicate mk.totalPixels.toNat 0, ?_, Partial.replicate _ _ _ (hl t ht).symm⟩
      rw [lookup_append, tn _ hc.1 hc.2.1 hc.2.2.1, reservedHdus, lookup_append, lookup_reserved ht hr.types]
      rfl) (fun n _ => rfl) rfl hf1
  have r2' := fun t ht => r2 t ht (.inl ht)
  have hsup := hr.types
  -- the tables are untouched
  have tab : ∀ n, (n = "object_data" ∨ n = "image_info" ∨ n = "metadata") → Fits.lookup h1 n = Fits.lookup mk.tableHdus n := by
    intro n hn
    rw [r3 n (by
      intro t ht e
      have hc := cutouts_ne (hsup t ht)
      rcases hn with rfl | rfl | rfl
      · exact hc.1 e.symm
      · exact hc.2.1 e.symm
      · exact hc.2.2.1 e.symm)]
    rw [lookup_append]
    rcases hn with rfl | rfl | rfl <;> simp [tableHdus, Fits.lookup]
  have psfl : Fits.lookup h1 "psf" = match mk.psf with
      | some _ => some (.image (List.replicate mk.totalPsfPixels.toNat 0)) | none => none := by
    rw [r3 "psf" (fun t ht e => (cutouts_ne (hsup t ht)).2.2.2.1 e.symm), lookup_append,
      tn "psf" (by decide) (by decide) (by decide), reservedHdus, lookup_append,
      lookup_reserved_none (fun t ht e => (cutouts_ne (hsup t ht)).2.2.2.1 e.symm)]
    cases mk.psf <;> simp [Fits.lookup]
  have names0 : (mk.tableHdus ++ mk.reservedHdus).map Prod.fst = ["object_data", "image_info", "metadata"]
      ++ mk.types.map (· ++ "_cutouts") ++ (match mk.psf with | some _ => ["psf"] | none => []) := by
    simp only [tableHdus, reservedHdus, List.map_append, List.map_map]
    cases mk.psf <;> rfl
  -- lookups in h2
  have key : (∀ n, n ≠ "psf" → Fits.lookup h2 n = Fits.lookup h1 n) ∧ h2.map Prod.fst = h1.map Prod.fst ∧
      (∀ psf, mk.psf = some psf → PsfWF psf → AllDrawn psf mk.objs ∧
        Fits.lookup h2 "psf" = some (.image (psfTarget mk.cfg psf mk.objs))) ∧
      (mk.psf = none → Fits.lookup h2 "psf" = none) := by
    cases hp : mk.psf with
    | none =>
      rw [hp] at hf2 psfl
      injection hf2 with hf2
      subst hf2
      exact ⟨fun _ _ => rfl, rfl, by simp, fun _ => psfl⟩
    | some psf =>
      rw [hp] at hf2 psfl
      obtain ⟨⟨pix, pix', l1, l2, l3⟩, l4, l5⟩ := modifyImage_ok hf2
      refine ⟨l4, l5, ?_, by simp⟩
      intro psf' e hwf
      injection e with e
      subst e
      rw [psfl] at l1
      injection l1 with l1
      injection l1 with l1
      subst l1
      have hc := hr.psfTiled psf hp
      have hd := writePsfSerial_drawn l2
      have hlen := psfTarget_length (cfg := mk.cfg) hwf hd hc
      rw [writePsfSerial_eq hwf hc (by rw [List.length_replicate]; omega) l2] at l3
      exact ⟨hd, l3⟩
  obtain ⟨k1, k2, k3, k4⟩ := key
  have fin : ∀ n, n ≠ "psf_info" → f.find n = Fits.lookup h2 n := by
    intro n hn
    rw [← h]
    unfold Fits.find
    rw [lookup_append]
    have : Fits.lookup mk.psfInfoHdus n = none := by
      apply lookup_none_of_not_mem
      intro x hx
      unfold psfInfoHdus at hx
      cases hpi : mk.psfInfo with
      | none => rw [hpi] at hx; cases hx
      | some p =>
        rw [hpi] at hx
        simp only [List.mem_singleton] at hx
        subst hx
        exact hn.symm
    rw [this]; simp
  refine ⟨?_, ?_, ?_, ?_, ?_, ?_, ?_⟩
  · rw [fin _ (by decide), k1 _ (by decide), tab _ (.inl rfl)]; rfl
  · rw [fin _ (by decide), k1 _ (by decide), tab _ (.inr (.inl rfl))]; rfl
  · rw [fin _ (by decide), k1 _ (by decide), tab _ (.inr (.inr rfl))]; rfl
  · intro t ht
    have hc := cutouts_ne (hsup t ht)
    rw [fin _ hc.2.2.2.2, k1 _ hc.2.2.2.1, r2' t ht]
  · intro psf hp hwf
    rw [fin _ (by decide)]
    exact k3 psf hp hwf
  · intro hp
    rw [fin _ (by decide)]
    exact k4 hp
  · rw [← h]
    simp only [List.map_append, k2, r4, names0]
    congr 1
    unfold psfInfoHdus
    cases mk.psfInfo <;> rfl

end Maker
end Meds
