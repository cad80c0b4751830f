import Verif.Model.Steps
import Verif.Lemmas.Written

/-! Helper lemmas: the step-by-step write agrees with `writeData`. -/

namespace Meds

theorem foldRes_cons_bind {σ α : Type} (f : σ → α → Res σ) (s : σ) (x : α) (xs : List α) :
    foldRes f s (x :: xs) = f s x >>= fun t => foldRes f t xs := by
  simp only [foldRes]
  cases f s x <;> rfl

theorem runSteps_append (hs : List (String × Hdu)) (l₁ l₂ : List (Res WriteOp)) :
    runSteps hs (l₁ ++ l₂) = runSteps hs l₁ >>= fun h => runSteps h l₂ := foldRes_append _ _ _ _

theorem runSteps_appends (hs l : List (String × Hdu)) : runSteps hs (Maker.appends l) = .ok (hs ++ l) := by
  induction l generalizing hs with
  | nil => simp [Maker.appends, runSteps, foldRes]
  | cons x t ih =>
    have : runSteps hs (Maker.appends (x :: t)) = runSteps (hs ++ [x]) (Maker.appends t) := rfl
    rw [this, ih]
    simp

/-- The named HDU exists and is an image. -/
def HasImage (ext : String) (hs : List (String × Hdu)) : Prop := ∃ pix, Fits.lookup hs ext = some (.image pix)

theorem modifyImage_pure {ext : String} {hs : List (String × Hdu)} (h : HasImage ext hs) : modifyImage ext .ok hs = .ok hs := by
  obtain ⟨pix, h⟩ := h
  induction hs with
  | nil => cases h
  | cons x t ih =>
    obtain ⟨n, hd⟩ := x
    simp only [Fits.lookup] at h
    simp only [modifyImage]
    split at h
    · rename_i e
      injection h with h
      subst h
      rw [if_pos e]
      rfl
    · rename_i e
      rw [if_neg e, ih h]
      rfl

theorem modifyImage_error {ext : String} {hs : List (String × Hdu)} (h : HasImage ext hs) (e : Err) :
    modifyImage ext (fun _ => .error e) hs = .error e := by
  obtain ⟨pix, h⟩ := h
  induction hs with
  | nil => cases h
  | cons x t ih =>
    obtain ⟨n, hd⟩ := x
    simp only [Fits.lookup] at h
    simp only [modifyImage]
    split at h
    · rename_i e
      injection h with h
      subst h
      rw [if_pos e]
      rfl
    · rename_i e
      rw [if_neg e, ih h]
      rfl

theorem modifyImage_comp (ext : String) (g₁ g₂ : List ℚ → Res (List ℚ)) (hs : List (String × Hdu)) :
    modifyImage ext (fun b => g₁ b >>= g₂) hs = modifyImage ext g₁ hs >>= modifyImage ext g₂ := by
  induction hs with
  | nil => rfl
  | cons x t ih =>
    obtain ⟨n, hd⟩ := x
    simp only [modifyImage]
    split
    · rename_i e
      cases hd with
      | image pix =>
        dsimp only
        cases h1 : g₁ pix with
        | error e' => rfl
        | ok p =>
          simp only [Res.ok_bind]
          simp only [modifyImage, if_pos e]
      | _ => rfl
    · rename_i e
      rw [ih]
      cases h1 : modifyImage ext g₁ t with
      | error e' => rfl
      | ok p =>
        simp only [Res.ok_bind]
        simp only [modifyImage, if_neg e]

theorem HasImage.modify {ext ext' : String} {g : List ℚ → Res (List ℚ)} {hs hs' : List (String × Hdu)}
    (h : HasImage ext hs) (hm : modifyImage ext' g hs = .ok hs') : HasImage ext hs' := by
  obtain ⟨⟨pix, pix', _, _, l3⟩, l4, _⟩ := modifyImage_ok hm
  by_cases e : ext = ext'
  · subst e; exact ⟨pix', l3⟩
  · obtain ⟨p, hp⟩ := h
    exact ⟨p, by rw [l4 _ e]; exact hp⟩

/-- Running these steps is one in-place modification of the named image. -/
def Sim (ext : String) (l : List (Res WriteOp)) (g : List ℚ → Res (List ℚ)) : Prop :=
  ∀ hs, HasImage ext hs → runSteps hs l = modifyImage ext g hs

theorem Sim.nil (ext : String) : Sim ext [] .ok := fun _ h => (modifyImage_pure h).symm

theorem Sim.error (ext : String) (e : Err) : Sim ext [.error e] (fun _ => .error e) := fun _ h => (modifyImage_error h e).symm

theorem Sim.append {ext : String} {l₁ l₂ : List (Res WriteOp)} {g₁ g₂ : List ℚ → Res (List ℚ)}
    (h₁ : Sim ext l₁ g₁) (h₂ : Sim ext l₂ g₂) : Sim ext (l₁ ++ l₂) (fun b => g₁ b >>= g₂) := by
  intro hs h
  rw [runSteps_append, h₁ hs h, modifyImage_comp]
  cases hm : modifyImage ext g₁ hs with
  | error e => rfl
  | ok hs' =>
    simp only [Res.ok_bind]
    exact h₂ hs' (h.modify hm)

theorem runSteps_single (hs : List (String × Hdu)) (r : Res WriteOp) : runSteps hs [r] = execStep hs r := by
  simp only [runSteps, foldRes]
  cases execStep hs r <;> rfl

theorem Sim.flatMap {α : Type} {ext : String} {l : List α} {s : α → List (Res WriteOp)} {g : List ℚ → α → Res (List ℚ)}
    (h : ∀ a, Sim ext (s a) (fun b => g b a)) : Sim ext (l.flatMap s) (fun b => foldRes g b l) := by
  induction l with
  | nil => exact Sim.nil ext
  | cons x t ih =>
    rw [List.flatMap_cons]
    simp only [foldRes_cons_bind]
    exact Sim.append (h x) ih

namespace Maker

theorem sim_cutout (cfg : MakerCfg) (t : String) (fileId : Nat) (src : Img ℚ) (o : ObjRow) (n : Nat) (ss : List Slot) :
    Sim (t ++ "_cutouts") (cutoutSteps cfg t fileId src o n ss) (fun b => writeObjCutouts cfg t fileId src o n ss b) := by
  induction n generalizing ss with
  | zero => exact Sim.nil _
  | succ n ih =>
    cases ss with
    | nil => exact Sim.error _ _
    | cons s ss =>
      simp only [cutoutSteps, writeObjCutouts]
      by_cases e : s.fileId = (fileId : Int)
      · simp only [if_pos e]
        cases hsub : subImage cfg t src o s with
        | error e' =>
          intro hs h
          rw [runSteps_append, runSteps_single]
          exact (modifyImage_error h e').symm
        | ok sub =>
          have := Sim.append (ext := t ++ "_cutouts") (l₁ := [.ok (.put (t ++ "_cutouts") s.startRow sub.flat)])
            (g₁ := fun buf => overwrite buf s.startRow sub.flat) (fun hs _ => runSteps_single hs _) (ih ss)
          exact this
      · simp only [if_neg e]
        exact ih ss

theorem sim_file (cfg : MakerCfg) (t : String) (objs : List ObjRow) (fi : Nat × SrcImage) :
    Sim (t ++ "_cutouts") (fileSteps cfg t objs fi) (fun b => writeFileCutouts cfg t objs b fi) := by
  unfold fileSteps writeFileCutouts
  cases hr : readImage cfg fi.2 t with
  | error e => exact Sim.error _ e
  | ok r =>
    cases r with
    | none => exact Sim.nil _
    | some src => exact Sim.flatMap (fun o => sim_cutout cfg t fi.1 src o _ _)

theorem sim_type (mk : Maker) (t : String) : Sim (t ++ "_cutouts") (mk.typeSteps t) (mk.writeCutouts t) :=
  Sim.flatMap (fun fi => sim_file mk.cfg t mk.objs fi)

theorem sim_psfObj (cfg : MakerCfg) (psf : List PsfModel) (sky : SkyPos) (n : Nat) (ss : List Slot) :
    Sim "psf" (psfObjSteps cfg psf sky n ss) (fun b => writeObjPsf cfg psf sky n ss b) := by
  induction n generalizing ss with
  | zero => exact Sim.nil _
  | succ n ih =>
    cases ss with
    | nil => exact Sim.error _ _
    | cons s ss =>
      simp only [psfObjSteps, writeObjPsf, psfWrite, writePsfImage]
      cases hp : pyGet psf s.fileId with
      | error e =>
        intro hs h
        exact (modifyImage_error h e).symm
      | ok p =>
        simp only [Res.ok_bind]
        split
        · intro hs h
          exact (modifyImage_error h _).symm
        · exact Sim.append (ext := "psf") (l₁ := [_]) (fun hs _ => runSteps_single hs _) (ih ss)

theorem sim_psf (mk : Maker) (psf : List PsfModel) :
    Sim "psf" (mk.objs.flatMap (fun o => psfObjSteps mk.cfg psf o.sky o.ncutout.toNat o.slots)) (mk.writePsfSerial psf) :=
  Sim.flatMap (fun o => sim_psfObj mk.cfg psf o.sky _ _)

theorem sim_types (mk : Maker) (ts : List String) (hs : List (String × Hdu)) (h : ∀ t ∈ ts, HasImage (t ++ "_cutouts") hs) :
    runSteps hs (ts.flatMap mk.typeSteps)
      = foldRes (fun h t => modifyImage (t ++ "_cutouts") (mk.writeCutouts t) h) hs ts := by
  induction ts generalizing hs with
  | nil => rfl
  | cons x t ih =>
    rw [List.flatMap_cons, runSteps_append, sim_type mk x hs (h x (by simp))]
    simp only [foldRes]
    cases hm : modifyImage (x ++ "_cutouts") (mk.writeCutouts x) hs with
    | error e => rfl
    | ok hs' => exact ih hs' (fun t ht => (h t (by simp [ht])).modify hm)

theorem types_hasImage {mk : Maker} {ts : List String} {hs hs' : List (String × Hdu)} {ext : String} (h : HasImage ext hs)
    (hf : foldRes (fun h t => modifyImage (t ++ "_cutouts") (mk.writeCutouts t) h) hs ts = .ok hs') : HasImage ext hs' := by
  induction ts generalizing hs with
  | nil => simp only [foldRes] at hf; injection hf with hf; subst hf; exact h
  | cons x t ih =>
    obtain ⟨m, hm, hf⟩ := foldRes_cons_ok.mp hf
    exact ih (h.modify hm) hf

theorem table_none {mk : Maker} {n : String} (a : n ≠ "object_data") (b : n ≠ "image_info") (c : n ≠ "metadata") :
    Fits.lookup mk.tableHdus n = none := by
  apply lookup_none_of_not_mem
  intro x hx
  simp only [tableHdus, List.mem_cons, List.not_mem_nil, or_false] at hx
  rcases hx with rfl | rfl | rfl
  · exact a.symm
  · exact b.symm
  · exact c.symm

theorem reserved_hasImage {mk : Maker} (hsup : ∀ t ∈ mk.types, t ∈ supportedTypes) {t : String} (ht : t ∈ mk.types) :
    HasImage (t ++ "_cutouts") (mk.tableHdus ++ mk.reservedHdus) := by
  have hc := cutouts_ne (hsup t ht)
  refine ⟨List.replicate mk.totalPixels.toNat 0, ?_⟩
  rw [lookup_append, table_none hc.1 hc.2.1 hc.2.2.1, reservedHdus, lookup_append, lookup_reserved ht hsup]
  rfl

theorem reserved_hasPsf {mk : Maker} (hsup : ∀ t ∈ mk.types, t ∈ supportedTypes) {psf : List PsfModel} (hp : mk.psf = some psf) :
    HasImage "psf" (mk.tableHdus ++ mk.reservedHdus) := by
  refine ⟨List.replicate mk.totalPsfPixels.toNat 0, ?_⟩
  rw [lookup_append, table_none (by decide) (by decide) (by decide), reservedHdus, lookup_append,
    lookup_reserved_none (fun t ht e => (cutouts_ne (hsup t ht)).2.2.2.1 e.symm), hp]
  simp [Fits.lookup]

/-- The step list is the whole of `_write_data`, errors included. -/
theorem runSteps_eq_writeData (mk : Maker) (hsup : ∀ t ∈ mk.types, t ∈ supportedTypes) :
    runSteps [] mk.steps = mk.writeData >>= fun f => .ok f.hdus := by
  unfold steps writeData
  rw [runSteps_append, runSteps_append, runSteps_appends, List.nil_append]
  simp only [Res.ok_bind]
  rw [runSteps_append, sim_types mk mk.types _ (fun t ht => reserved_hasImage hsup ht)]
  cases hf : foldRes (fun h t => modifyImage (t ++ "_cutouts") (mk.writeCutouts t) h) (mk.tableHdus ++ mk.reservedHdus) mk.types with
  | error e => rfl
  | ok h1 =>
    simp only [Res.ok_bind]
    unfold psfSteps
    cases hp : mk.psf with
    | none =>
      dsimp only
      have : runSteps h1 [] = .ok h1 := rfl
      rw [this]
      simp only [Res.ok_bind]
      rw [runSteps_appends]
    | some psf =>
      dsimp only
      rw [sim_psf mk psf h1 (types_hasImage (reserved_hasPsf hsup hp) hf)]
      cases modifyImage "psf" (mk.writePsfSerial psf) h1 with
      | error e => rfl
      | ok h2 =>
        simp only [Res.ok_bind]
        rw [runSteps_appends]

end Maker
end Meds
