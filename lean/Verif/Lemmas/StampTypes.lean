import Verif.Model.StampTypes
import Verif.Lemmas.Written

namespace Meds
namespace Maker

/-- A loop whose steps are guarded. -/
theorem foldRes_guard {σ α : Type} {g gT : σ → α → Res σ} {P : α → Prop} (h : ∀ s x s', gT s x = .ok s' ↔ g s x = .ok s' ∧ P x) :
    ∀ (l : List α) (s s' : σ), foldRes gT s l = .ok s' ↔ foldRes g s l = .ok s' ∧ ∀ x ∈ l, P x := by
  intro l
  induction l with
  | nil => intro s s'; simp [foldRes]
  | cons x l ih =>
    intro s s'
    constructor
    · intro hh
      obtain ⟨t, h1, h2⟩ := foldRes_cons_ok.mp hh
      obtain ⟨a, b⟩ := (h _ _ _).mp h1
      obtain ⟨c, d⟩ := (ih _ _).mp h2
      refine ⟨foldRes_cons_ok.mpr ⟨t, a, c⟩, ?_⟩
      intro y hy
      rcases List.mem_cons.mp hy with rfl | hy
      · exact b
      · exact d y hy
    · rintro ⟨hh, hp⟩
      obtain ⟨t, h1, h2⟩ := foldRes_cons_ok.mp hh
      exact foldRes_cons_ok.mpr ⟨t, (h _ _ _).mpr ⟨h1, hp x (by simp)⟩, (ih _ _).mpr ⟨h2, fun y hy => hp y (List.mem_cons_of_mem _ hy)⟩⟩

/-- The same for the pixels of one extension. -/
theorem modifyImage_guard {n : String} {g gT : List ℚ → Res (List ℚ)} {P : Prop} (h : ∀ b b', gT b = .ok b' ↔ g b = .ok b' ∧ P) :
    ∀ (l l' : List (String × Hdu)), modifyImage n gT l = .ok l' ↔ modifyImage n g l = .ok l' ∧ P := by
  intro l
  induction l with
  | nil => intro l'; simp [modifyImage]
  | cons a l ih =>
    intro l'
    obtain ⟨m, x⟩ := a
    unfold modifyImage
    split
    · cases x with
      | image pix =>
        dsimp only
        constructor
        · intro hh
          obtain ⟨t, h1, h2⟩ := Res.bind_eq_ok.mp hh
          obtain ⟨a, b⟩ := (h _ _).mp h1
          exact ⟨Res.bind_eq_ok.mpr ⟨t, a, h2⟩, b⟩
        · rintro ⟨hh, hp⟩
          obtain ⟨t, h1, h2⟩ := Res.bind_eq_ok.mp hh
          exact Res.bind_eq_ok.mpr ⟨t, (h _ _).mpr ⟨h1, hp⟩, h2⟩
      | _ => simp
    · constructor
      · intro hh
        obtain ⟨t, h1, h2⟩ := Res.bind_eq_ok.mp hh
        obtain ⟨a, b⟩ := (ih _).mp h1
        exact ⟨Res.bind_eq_ok.mpr ⟨t, a, h2⟩, b⟩
      · rintro ⟨hh, hp⟩
        obtain ⟨t, h1, h2⟩ := Res.bind_eq_ok.mp hh
        exact Res.bind_eq_ok.mpr ⟨t, (ih _).mpr ⟨h1, hp⟩, h2⟩

/-- The guard of the reading. -/
def ReadGuard (cfg : MakerCfg) (env : StampEnv) (j : Nat) (im : SrcImage) (t : String) : Prop :=
  t = "weight" → ∀ flags, cfg.unusableBmask = some flags → ∀ b, im.plane "bmask" = some (some b) → maskAnd env.numpy2 (env.mask j) flags = .ok ()

theorem readImageT_iff {cfg : MakerCfg} {env : StampEnv} {j : Nat} {im : SrcImage} {t : String} {r : Option (Img ℚ)} :
    readImageT cfg env j im t = .ok r ↔ readImage cfg im t = .ok r ∧ ReadGuard cfg env j im t := by
  by_cases ht : t = "weight"
  · subst ht
    unfold readImageT readImage ReadGuard
    simp only [show ¬ ("weight" : String) = "image" by decide, if_false, if_true, forall_const]
    cases hraw : readOneImage im "weight" with
    | error e => constructor <;> intro h <;> [cases h; cases h.1]
    | ok raw =>
      simp only [Res.ok_bind]
      split
      · constructor <;> intro h <;> [cases h; cases h.1]
      · cases hu : cfg.unusableBmask with
        | none => exact ⟨fun h => ⟨h, fun _ hf => by cases hf⟩, fun h => h.1⟩
        | some flags =>
          dsimp only
          unfold readOneImage
          cases hp : im.plane "bmask" with
          | none => constructor <;> intro h <;> [cases h; cases h.1]
          | some bm =>
            simp only [Res.ok_bind]
            cases bm with
            | none => exact ⟨fun h => ⟨h, fun _ _ _ hb => by cases hb⟩, fun h => h.1⟩
            | some b =>
              dsimp only
              constructor
              · intro h
                obtain ⟨u, h1, h2⟩ := Res.bind_eq_ok.mp h
                refine ⟨h2, ?_⟩
                intro fl hfl b' hb'
                injection hfl with hfl
                rw [← hfl, h1]
              · rintro ⟨h, hg⟩
                rw [hg flags rfl b rfl]
                exact h
  · have : readImageT cfg env j im t = readImage cfg im t := by
      unfold readImageT readImage
      simp only [ht, if_false]
      rfl
    rw [this]
    exact ⟨fun h => ⟨h, fun hh => absurd hh ht⟩, fun h => h.1⟩

theorem writeObjCutoutsT_iff {cfg : MakerCfg} {env : StampEnv} {t : String} {fileId : Nat} {src : Img ℚ} {o : ObjRow} :
    ∀ (n : Nat) (l : List Slot) (buf buf' : List ℚ), writeObjCutoutsT cfg env t fileId src o n l buf = .ok buf' ↔
      writeObjCutouts cfg t fileId src o n l buf = .ok buf' ∧ ((∃ k < n, ∃ s, l[k]? = some s ∧ s.fileId = (fileId : Int)) → addDefault env.numpy2 (env.out t) t = .ok ()) := by
  intro n
  induction n with
  | zero => intro l buf buf'; simp [writeObjCutouts, writeObjCutoutsT]
  | succ n ih =>
    intro l buf buf'
    cases l with
    | nil => simp [writeObjCutouts, writeObjCutoutsT]
    | cons s ss =>
      unfold writeObjCutouts writeObjCutoutsT
      by_cases hs : s.fileId = (fileId : Int)
      · rw [if_pos hs, if_pos hs]
        constructor
        · intro h
          obtain ⟨b, h1, h2⟩ := Res.bind_eq_ok.mp h
          obtain ⟨u, h3, h4⟩ := Res.bind_eq_ok.mp h1
          exact ⟨Res.bind_eq_ok.mpr ⟨b, h4, ((ih _ _ _).mp h2).1⟩, fun _ => h3⟩
        · rintro ⟨h, hg⟩
          obtain ⟨b, h1, h2⟩ := Res.bind_eq_ok.mp h
          have hd := hg ⟨0, by omega, s, rfl, hs⟩
          exact Res.bind_eq_ok.mpr ⟨b, Res.bind_eq_ok.mpr ⟨(), hd, h1⟩, (ih _ _ _).mpr ⟨h2, fun _ => hd⟩⟩
      · rw [if_neg hs, if_neg hs]
        simp only [Res.ok_bind]
        rw [ih]
        refine and_congr_right fun _ => imp_congr_left ?_
        constructor
        · rintro ⟨k, hk, s', h1, h2⟩
          exact ⟨k + 1, by omega, s', by simpa using h1, h2⟩
        · rintro ⟨k, hk, s', h1, h2⟩
          cases k with
          | zero =>
            simp only [List.getElem?_cons_zero, Option.some.injEq] at h1
            exact absurd (h1 ▸ h2) hs
          | succ k => exact ⟨k, by omega, s', by simpa using h1, h2⟩

/-- The guard of one file. -/
def FileGuard (cfg : MakerCfg) (env : StampEnv) (t : String) (objs : List ObjRow) (fi : Nat × SrcImage) : Prop :=
  ReadGuard cfg env fi.1 fi.2 t ∧ ∀ src, readImage cfg fi.2 t = .ok (some src) → ∀ o ∈ objs,
    (∃ k < o.ncutout.toNat, ∃ s, o.slots[k]? = some s ∧ s.fileId = (fi.1 : Int)) → addDefault env.numpy2 (env.out t) t = .ok ()

theorem writeFileCutoutsT_iff {cfg : MakerCfg} {env : StampEnv} {t : String} {objs : List ObjRow} (buf : List ℚ) (fi : Nat × SrcImage) (buf' : List ℚ) :
    writeFileCutoutsT cfg env t objs buf fi = .ok buf' ↔ writeFileCutouts cfg t objs buf fi = .ok buf' ∧ FileGuard cfg env t objs fi := by
  unfold writeFileCutoutsT writeFileCutouts FileGuard
  constructor
  · intro h
    obtain ⟨r, h1, h2⟩ := Res.bind_eq_ok.mp h
    obtain ⟨h1, hg⟩ := readImageT_iff.mp h1
    rw [h1]
    cases r with
    | none => exact ⟨h2, hg, fun src hs => by cases hs⟩
    | some src =>
      dsimp only at h2
      obtain ⟨h3, h4⟩ := (foldRes_guard (g := fun b o => writeObjCutouts cfg t fi.1 src o o.ncutout.toNat o.slots b) (gT := fun b o => writeObjCutoutsT cfg env t fi.1 src o o.ncutout.toNat o.slots b)
        (fun b o b' => writeObjCutoutsT_iff _ _ b b') objs buf buf').mp h2
      exact ⟨h3, hg, fun _ _ => h4⟩
  · rintro ⟨h, hg, h4⟩
    obtain ⟨r, h1, h2⟩ := Res.bind_eq_ok.mp h
    refine Res.bind_eq_ok.mpr ⟨r, readImageT_iff.mpr ⟨h1, hg⟩, ?_⟩
    cases r with
    | none => exact h2
    | some src =>
      dsimp only at h2 ⊢
      exact (foldRes_guard (g := fun b o => writeObjCutouts cfg t fi.1 src o o.ncutout.toNat o.slots b) (gT := fun b o => writeObjCutoutsT cfg env t fi.1 src o o.ncutout.toNat o.slots b)
        (fun b o b' => writeObjCutoutsT_iff _ _ b b') objs buf buf').mpr ⟨h2, h4 src h1⟩

theorem writeDataT_iff {mk : Maker} {env : StampEnv} {f : Fits} :
    mk.writeDataT env = .ok f ↔ mk.writeData = .ok f ∧ ∀ t ∈ mk.types, ∀ fi ∈ numbered mk.images, FileGuard mk.cfg env t mk.objs fi := by
  have key := foldRes_guard (g := fun h t => modifyImage (t ++ "_cutouts") (mk.writeCutouts t) h)
    (gT := fun h t => modifyImage (t ++ "_cutouts") (mk.writeCutoutsT env t) h) (P := fun t => ∀ fi ∈ numbered mk.images, FileGuard mk.cfg env t mk.objs fi)
    (fun s t s' => modifyImage_guard (fun b b' => foldRes_guard (fun b fi b' => writeFileCutoutsT_iff b fi b') _ _ _) _ _)
  unfold writeDataT writeData
  constructor
  · intro h
    obtain ⟨h1, e1, h⟩ := Res.bind_eq_ok.mp h
    obtain ⟨e1, e2⟩ := (key _ _ _).mp e1
    exact ⟨Res.bind_eq_ok.mpr ⟨h1, e1, h⟩, e2⟩
  · rintro ⟨h, hg⟩
    obtain ⟨h1, e1, h⟩ := Res.bind_eq_ok.mp h
    exact Res.bind_eq_ok.mpr ⟨h1, (key _ _ _).mpr ⟨e1, hg⟩, h⟩

theorem writeT_iff {mk mk' : Maker} {env : StampEnv} {f : Fits} :
    mk.writeT env = .ok (mk', f) ↔ mk.write = .ok (mk', f) ∧ ∀ t ∈ mk'.types, ∀ fi ∈ numbered mk'.images, FileGuard mk'.cfg env t mk'.objs fi := by
  unfold writeT write
  constructor
  · intro h
    obtain ⟨mk1, h1, h⟩ := Res.bind_eq_ok.mp h
    obtain ⟨f', h2, h⟩ := Res.bind_eq_ok.mp h
    injection h with h
    injection h with h h'
    subst h h'
    obtain ⟨e1, e2⟩ := writeDataT_iff.mp h2
    exact ⟨Res.bind_eq_ok.mpr ⟨_, h1, Res.bind_eq_ok.mpr ⟨_, e1, rfl⟩⟩, e2⟩
  · rintro ⟨h, hg⟩
    obtain ⟨mk1, h1, h⟩ := Res.bind_eq_ok.mp h
    obtain ⟨f', h2, h⟩ := Res.bind_eq_ok.mp h
    injection h with h
    injection h with h h'
    subst h h'
    exact Res.bind_eq_ok.mpr ⟨_, h1, Res.bind_eq_ok.mpr ⟨_, writeDataT_iff.mpr ⟨h2, hg⟩, rfl⟩⟩

end Maker
end Meds
