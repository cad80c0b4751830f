import Verif.Spec.WcsState
import Verif.Lemmas.Basic
import Verif.Lemmas.NotANumber

/-!
# WCS objects with state: lemmas
-/

namespace Meds
namespace Maker
open Spec

/-- What getting the WCS of an image does to object `r` of the caller. -/
def touch (r : Nat) (w : WcsObj) (src : SrcImageS) : WcsObj :=
  if src.psfWcs = some r then { w with naxis := src.headerNaxis, offset := some src.info.positionOffset } else w

theorem touch_methods (r : Nat) (w : WcsObj) (src : SrcImageS) : SameMethods w (touch r w src) := by
  unfold touch
  split <;> exact ⟨rfl, rfl, rfl⟩

/-- The caller's objects are all still there, with their methods. -/
def StillThere (store0 store : List WcsObj) : Prop := ∀ (r : Nat) (w : WcsObj), store0[r]? = some w → ∃ w', store[r]? = some w' ∧ SameMethods w w'

theorem StillThere.refl (s : List WcsObj) : StillThere s s := fun _ w h => ⟨w, h, rfl, rfl, rfl⟩

theorem acquire_ok {store0 store : List WcsObj} (hk : StillThere store0 store) {src : SrcImageS} {w : WcsObj} (hw : wcsOf store0 src = some w) :
    ∃ store', acquireS store src = .ok (store', withOwn src w) ∧ (∀ r v, r < store0.length → store[r]? = some v → store'[r]? = some (touch r v src)) := by
  unfold acquireS getWcsS
  unfold wcsOf at hw
  cases hp : src.psfWcs with
  | some r =>
    rw [hp] at hw
    dsimp only at hw ⊢
    obtain ⟨v, hv, h1, h2, h3⟩ := hk r w hw
    have hlt := (List.getElem?_eq_some_iff.mp hv).1
    have hlt0 := (List.getElem?_eq_some_iff.mp hw).1
    rw [hv]
    simp only [Res.ok_bind]
    have hs : (store.set r { v with naxis := src.headerNaxis })[r]? = some { v with naxis := src.headerNaxis } := by
      rw [List.getElem?_set_self hlt]
    unfold setOffset viewS
    rw [hs]
    simp only
    rw [List.set_set, List.getElem?_set_self hlt]
    simp only [Res.ok_bind]
    refine ⟨store.set r { v with naxis := src.headerNaxis, offset := some src.info.positionOffset }, ?_, ?_⟩
    · congr 2
      unfold withOwn naxisOf
      simp only [hp, Option.isSome_some, if_true, h1, h2, h3]
    · intro r' v' _ hv'
      unfold touch
      rw [hp]
      by_cases hr : r = r'
      · subst hr
        rw [hv] at hv'
        injection hv' with hv'
        subst hv'
        rw [if_pos rfl, List.getElem?_set_self hlt]
      · rw [if_neg (by simpa using hr), List.getElem?_set_ne hr, hv']
  | none =>
    rw [hp] at hw
    dsimp only at hw ⊢
    injection hw with hw
    subst hw
    simp only [Res.ok_bind]
    have hlt : store.length < (store ++ [src.fresh]).length := by simp
    have hs : (store ++ [src.fresh])[store.length]? = some src.fresh := by simp
    unfold setOffset viewS
    rw [hs]
    simp only
    rw [List.getElem?_set_self hlt]
    simp only [Res.ok_bind]
    refine ⟨(store ++ [src.fresh]).set store.length { src.fresh with offset := some src.info.positionOffset }, ?_, ?_⟩
    · congr 2
      unfold withOwn naxisOf
      simp only [hp, Option.isSome_none, if_false]
      rfl
    · intro r' v' _ hv'
      have hlt' := (List.getElem?_eq_some_iff.mp hv').1
      unfold touch
      rw [hp, if_neg (by simp), List.getElem?_set_ne (by omega), List.getElem?_append_left hlt', hv']

theorem kept_touch {store0 store store' : List WcsObj} (hk : StillThere store0 store) {src : SrcImageS}
    (h : ∀ r v, r < store0.length → store[r]? = some v → store'[r]? = some (touch r v src)) : StillThere store0 store' := by
  intro r w hw
  obtain ⟨v, hv, h1, h2, h3⟩ := hk r w hw
  obtain ⟨g1, g2, g3⟩ := touch_methods r v src
  exact ⟨_, h r v (List.getElem?_eq_some_iff.mp hw).1 hv, by rw [g1, h1], by rw [g2, h2], by rw [g3, h3]⟩

/-- The per-file loop: the objects are those of the stateless loop, and the caller's objects went through the touches. -/
theorem fold_layoutFileS {cfg : MakerCfg} {store0 : List WcsObj} : ∀ {L : List (Nat × SrcImageS)} {LI : List (Nat × SrcImage)} {store : List WcsObj} {objs : List ObjRow},
    StillThere store0 store → List.Forall₂ (fun a b => b.1 = a.1 ∧ ∃ w, wcsOf store0 a.2 = some w ∧ b.2 = withOwn a.2 w) L LI →
    ∃ store', foldRes (layoutFileS cfg) (store, objs) L = (foldRes (layoutFile cfg) objs LI).map (fun o => (store', o)) ∧
      (∀ r v, r < store0.length → store[r]? = some v → store'[r]? = some ((L.map Prod.snd).foldl (touch r) v))
  | [], _, store, objs, _, h => by
    cases h
    exact ⟨store, rfl, fun r v _ hv => hv⟩
  | (i, src) :: L, _, store, objs, hk, h => by
    cases h with
    | @cons _ b _ LI hab h =>
      obtain ⟨j, im⟩ := b
      obtain ⟨hj, w, hw, him⟩ := hab
      simp only at hj hw him
      subst hj him
      obtain ⟨s1, h1, h2⟩ := acquire_ok hk hw
      simp only [foldRes]
      unfold layoutFileS
      rw [h1]
      simp only [Res.ok_bind]
      cases hl : layoutFile cfg objs (j, withOwn src w) with
      | error e =>
        obtain ⟨s2, _, h4⟩ := fold_layoutFileS (cfg := cfg) (objs := objs) (kept_touch hk h2) h
        exact ⟨s2, rfl, fun r v hr hv => by simpa using h4 r _ hr (h2 r v hr hv)⟩
      | ok objs' =>
        obtain ⟨s2, h3, h4⟩ := fold_layoutFileS (cfg := cfg) (objs := objs') (kept_touch hk h2) h
        exact ⟨s2, h3, fun r v hr hv => by simpa using h4 r _ hr (h2 r v hr hv)⟩

theorem trimS_eq {cfg : MakerCfg} {store : List WcsObj} {srcs : List SrcImageS} {images : List SrcImage} {objs : List ObjRow}
    (h : List.Forall₂ (fun a b => ∃ w, wcsOf store a = some w ∧ b = withOwn a w) srcs images) :
    ∃ store', trimS cfg store srcs objs = (trim cfg images objs).map (fun o => (store', o)) ∧ StillThere store store' ∧
      (∀ r v, store[r]? = some v → store'[r]? = some v ∨ ∃ src rest, srcs = src :: rest ∧ store'[r]? = some (touch r v src)) := by
  unfold trimS trim
  split
  · rename_i hc
    cases h with
    | nil => exact ⟨store, rfl, StillThere.refl _, fun r v hv => Or.inl hv⟩
    | cons hab h =>
      rename_i src im srcs images
      obtain ⟨w, hw, rfl⟩ := hab
      obtain ⟨s1, h1, h2⟩ := acquire_ok (StillThere.refl store) hw
      refine ⟨s1, ?_, kept_touch (StillThere.refl _) h2, fun r v hv => Or.inr ⟨src, srcs, rfl, h2 r v (List.getElem?_eq_some_iff.mp hv).1 hv⟩⟩
      dsimp only
      rw [h1]
      simp only [Res.ok_bind]
      split <;> rfl
  · exact ⟨store, rfl, StillThere.refl _, fun r v hv => Or.inl hv⟩

theorem foldl_touch_twice {r : Nat} {v : WcsObj} {src : SrcImageS} {rest : List SrcImageS} :
    (src :: rest).foldl (touch r) (touch r v src) = (src :: rest).foldl (touch r) v := by
  simp only [List.foldl_cons]
  congr 1
  unfold touch
  split <;> rfl

theorem forall₂_numbered {α β : Type} {R : α → β → Prop} {l : List α} {l' : List β} (h : List.Forall₂ R l l') :
    List.Forall₂ (fun a b => b.1 = a.1 ∧ R a.2 b.2) (numbered l) (numbered l') := by
  unfold numbered
  rw [h.length_eq]
  generalize List.range l'.length = ns
  induction h generalizing ns with
  | nil => simp
  | cons hab _ ih =>
    cases ns with
    | nil => simp
    | cons n ns => exact .cons ⟨rfl, hab⟩ (ih ns)

theorem numbered_snd {α : Type} (l : List α) : (numbered l).map Prod.snd = l := by
  unfold numbered
  rw [List.map_snd_zip]
  simp

theorem buildLayoutS_eq {store : List WcsObj} {srcs : List SrcImageS} {images : List SrcImage}
    (h : List.Forall₂ (fun a b => ∃ w, wcsOf store a = some w ∧ b = withOwn a w) srcs images) (mk : Maker) :
    ∃ store', (buildLayoutS store srcs mk).map (fun x => (x.1, { x.2 with images := images })) =
        (({ mk with images := images } : Maker).buildLayout).map (fun m => (store', m)) ∧
      (∀ r v, store[r]? = some v → store'[r]? = some (srcs.foldl (touch r) v)) := by
  obtain ⟨s1, t1, t2, t3⟩ := trimS_eq (cfg := mk.cfg) (objs := mk.objs) h
  have hn := forall₂_numbered h
  unfold buildLayoutS buildLayout
  dsimp only
  rw [t1]
  have state : ∀ s2 : List WcsObj, (∀ r v, r < store.length → s1[r]? = some v → s2[r]? = some ((numbered srcs).map Prod.snd |>.foldl (touch r) v)) →
      ∀ r v, store[r]? = some v → s2[r]? = some (srcs.foldl (touch r) v) := by
    intro s2 h2 r v hv
    have hr := (List.getElem?_eq_some_iff.mp hv).1
    rw [numbered_snd] at h2
    rcases t3 r v hv with hx | ⟨src, rest, rfl, hx⟩
    · exact h2 r v hr hx
    · rw [h2 r _ hr hx, foldl_touch_twice]
  cases trim mk.cfg images mk.objs with
  | error e =>
    obtain ⟨s2, _, h2⟩ := fold_layoutFileS (cfg := mk.cfg) (objs := mk.objs) t2 hn
    exact ⟨s2, rfl, state s2 h2⟩
  | ok objs0 =>
    obtain ⟨s2, h1, h2⟩ := fold_layoutFileS (cfg := mk.cfg) (objs := objs0) t2 hn
    refine ⟨s2, ?_, state s2 h2⟩
    simp only [Except.map, Res.ok_bind]
    rw [h1]
    cases foldRes (layoutFile mk.cfg) objs0 (numbered images) with
    | error e => rfl
    | ok objs1 =>
      simp only [Except.map, Res.ok_bind]
      cases resize objs1 with
      | error e => rfl
      | ok objs2 =>
        simp only [Res.ok_bind]
        cases setStartRows 0 objs2 with
        | error e => rfl
        | ok r =>
          simp only [Res.ok_bind]
          by_cases hp : pixelSum objs2 ≠ r.2
          · rw [if_pos hp, if_pos hp]
          · rw [if_neg hp, if_neg hp]
            cases mk.psf with
            | none => rfl
            | some psf =>
              dsimp only
              cases setPsfLayout psf 0 r.1 <;> rfl

end Maker
end Meds
