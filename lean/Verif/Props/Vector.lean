import Verif.Model.Vector
import Verif.Lemmas.Basic
import Verif.Props.Parallel

/-!
# The column-wise layout is the object-by-object layout
-/

namespace Meds
namespace Vec

theorem whereTrue_zipIdx {α : Type} (p : α → Bool) (l : List α) :
    whereTrue (l.map p) = (l.zipIdx.filter (fun x => p x.1)).map Prod.snd := by
  have key : ∀ (l : List α) (n : Nat), ((l.zipIdx n).filter (fun x => p x.1)).map Prod.snd =
      (List.range l.length).filterMap (fun i => if (l.map p)[i]? == some true then some (n + i) else none) := by
    intro l
    induction l with
    | nil => intro n; rfl
    | cons a l ih =>
      intro n
      rw [List.zipIdx_cons, List.length_cons, List.range_succ_eq_map, List.filterMap_cons, List.filterMap_map, List.filter_cons]
      have e : (List.range l.length).filterMap ((fun i => if ((a :: l).map p)[i]? == some true then some (n + i) else none) ∘ Nat.succ) =
          ((l.zipIdx (n + 1)).filter (fun x => p x.1)).map Prod.snd := by
        rw [ih]
        congr 1
        funext i
        simp only [Function.comp, List.map_cons, Nat.succ_eq_add_one, List.getElem?_cons_succ]
        split
        · congr 1; omega
        · rfl
      rw [e]
      cases hp : p a <;> simp [hp]
  rw [key l 0]
  unfold whereTrue
  rw [List.length_map]
  generalize List.range l.length = r
  induction r with
  | nil => rfl
  | cons i r ih =>
    rw [List.filter_cons, List.filterMap_cons]
    split
    · rw [ih]; simp
    · rw [ih]

theorem take_cons {α : Type} (a : List α) (i : Nat) (q : List Nat) {x : α} (h : a[i]? = some x) :
    take a (i :: q) = (take a q).map (x :: ·) := by
  simp only [take, mapRes, pyGet_nat_some h]
  cases mapRes (fun i : Nat => pyGet a (i : Int)) q <;> rfl

theorem take_where {α β : Type} (f : α → β) (p : α → Bool) (l : List α) :
    take (l.map f) (whereTrue (l.map p)) = .ok ((l.filter p).map f) := by
  rw [whereTrue_zipIdx]
  have key : ∀ (l : List α) (done : List β), take (done ++ l.map f) (((l.zipIdx done.length).filter (fun x => p x.1)).map Prod.snd) = .ok ((l.filter p).map f) := by
    intro l
    induction l with
    | nil => intro done; rfl
    | cons a l ih =>
      intro done
      have hs : done ++ (a :: l).map f = (done ++ [f a]) ++ l.map f := by simp
      have := ih (done ++ [f a])
      rw [← hs] at this
      rw [show (done ++ [f a]).length = done.length + 1 by simp] at this
      rw [List.zipIdx_cons, List.filter_cons, List.filter_cons]
      cases hp : p a with
      | false => simpa [hp] using this
      | true =>
        simp only [if_true, List.map_cons]
        rw [take_cons (x := f a) _ _ _ (by simp)]
        rw [show done ++ f a :: l.map f = done ++ (a :: l).map f from rfl, this]
        rfl
  exact key l []

theorem take_zipIdx {α β : Type} (f : α → β) (p : α → Bool) (l : List α) :
    take (l.map f) ((l.zipIdx.filter (fun x => p x.1)).map Prod.snd) = .ok ((l.filter p).map f) := by
  rw [← whereTrue_zipIdx, take_where]

/-- The indices of the true entries of `p`, in a list. -/
def sel {α : Type} (p : α → Bool) (l : List α) : List Nat := (l.zipIdx.filter (fun x => p x.1)).map Prod.snd

theorem putField_sel {α β γ : Type} (f : α → β → α) (p : γ → Bool) (g : γ → α) (h : γ → β) (l : List γ) :
    putField f (l.map g) (sel p l) ((l.filter p).map h) = .ok (l.map (fun o => if p o then f (g o) (h o) else g o)) := by
  have key : ∀ (l : List γ) (done : List α),
      putField f (done ++ l.map g) (((l.zipIdx done.length).filter (fun x => p x.1)).map Prod.snd) ((l.filter p).map h) =
        .ok (done ++ l.map (fun o => if p o then f (g o) (h o) else g o)) := by
    intro l
    induction l with
    | nil => intro done; rfl
    | cons a l ih =>
      intro done
      rw [List.zipIdx_cons, List.filter_cons, List.filter_cons]
      cases hp : p a with
      | false =>
        have := ih (done ++ [g a])
        rw [show (done ++ [g a]).length = done.length + 1 by simp] at this
        simpa [hp] using this
      | true =>
        have := ih (done ++ [f (g a) (h a)])
        rw [show (done ++ [f (g a) (h a)]).length = done.length + 1 by simp] at this
        simp only [if_true, List.map_cons]
        unfold putField
        rw [show (done ++ g a :: l.map g)[done.length]? = some (g a) by simp]
        dsimp only
        rw [show (done ++ g a :: l.map g).set done.length (f (g a) (h a)) = done ++ [f (g a) (h a)] ++ l.map g by simp, this]
        simp [hp]
  exact key l []

end Vec

namespace Maker
open Vec

/-- The place in the per-epoch columns where the next epoch of an object goes. -/
def nextAt (o : ObjRow) : Nat :=
  match pyIndex o.slots.length o.ncutout with
  | .ok k => k
  | .error _ => 0

/-- Rewrite the next entry of the objects in `p`. -/
def upd (p : ObjRow → Bool) (F : ObjRow → Slot → Slot) (o : ObjRow) : ObjRow :=
  if p o then { o with slots := o.slots.set (nextAt o) (F o ((o.slots[nextAt o]?).getD Slot.dflt)) } else o

/-- There is room for the next epoch. -/
def Room (o : ObjRow) : Prop := ∃ k, pyIndex o.slots.length o.ncutout = .ok k

theorem Room.next {o : ObjRow} (h : Room o) : pyIndex o.slots.length o.ncutout = .ok (nextAt o) ∧ nextAt o < o.slots.length := by
  obtain ⟨k, hk⟩ := h
  have : nextAt o = k := by unfold nextAt; rw [hk]
  rw [this]
  exact ⟨hk, pyIndex_ok hk⟩

theorem upd_id {p : ObjRow → Bool} {o : ObjRow} (h : p o = true → Room o) : upd p (fun _ s => s) o = o := by
  unfold upd
  split
  · rename_i hp
    obtain ⟨_, h2⟩ := (h hp).next
    rw [List.getElem?_eq_getElem h2, Option.getD_some, List.set_getElem_self]
  · rfl

theorem put2_sel {β : Type} (f : Slot → β → Slot) (p : ObjRow → Bool) (F : ObjRow → Slot → Slot) (h : ObjRow → β) (l : List ObjRow)
    (hr : ∀ o ∈ l, p o = true → Room o) :
    put2 f (l.map (upd p F)) (sel p l) ((l.filter p).map (·.ncutout)) ((l.filter p).map h) = .ok (l.map (upd p (fun o s => f (F o s) (h o)))) := by
  have key : ∀ (l : List ObjRow) (done : List ObjRow), (∀ o ∈ l, p o = true → Room o) →
      put2 f (done ++ l.map (upd p F)) (((l.zipIdx done.length).filter (fun x => p x.1)).map Prod.snd) ((l.filter p).map (·.ncutout)) ((l.filter p).map h) =
        .ok (done ++ l.map (upd p (fun o s => f (F o s) (h o)))) := by
    intro l
    induction l with
    | nil => intro done _; rfl
    | cons a l ih =>
      intro done hr
      rw [List.zipIdx_cons, List.filter_cons, List.filter_cons]
      have hl : ∀ o ∈ l, p o = true → Room o := fun o ho => hr o (List.mem_cons_of_mem _ ho)
      cases hp : p a with
      | false =>
        have := ih (done ++ [a]) hl
        rw [show (done ++ [a]).length = done.length + 1 by simp] at this
        have e : ∀ G, upd p G a = a := by intro G; unfold upd; rw [hp]; rfl
        simpa [hp, e] using this
      | true =>
        obtain ⟨h1, h2⟩ := (hr a (List.mem_cons_self ..) hp).next
        have := ih (done ++ [upd p (fun o s => f (F o s) (h o)) a]) hl
        rw [show (done ++ [upd p (fun o s => f (F o s) (h o)) a]).length = done.length + 1 by simp] at this
        simp only [if_true, List.map_cons]
        unfold put2
        rw [show (done ++ upd p F a :: l.map (upd p F))[done.length]? = some (upd p F a) by simp]
        dsimp only
        have hlen : (upd p F a).slots.length = a.slots.length := by unfold upd; rw [hp]; simp
        have hget : (upd p F a).slots[nextAt a]? = some (F a ((a.slots[nextAt a]?).getD Slot.dflt)) := by
          unfold upd; rw [hp]; simp [h2]
        have hpy : pyGet (upd p F a).slots a.ncutout = .ok (F a ((a.slots[nextAt a]?).getD Slot.dflt)) := by
          unfold pyGet; rw [hlen, h1]; dsimp only; rw [hget]
        rw [hlen, h1]
        simp only [Res.ok_bind]
        rw [hpy]
        simp only [Res.ok_bind]
        have hnew : { upd p F a with slots := (upd p F a).slots.set (nextAt a) (f (F a ((a.slots[nextAt a]?).getD Slot.dflt)) (h a)) } =
            upd p (fun o s => f (F o s) (h o)) a := by
          unfold upd; rw [hp]; simp
        rw [hnew, show (done ++ upd p F a :: l.map (upd p F)).set done.length (upd p (fun o s => f (F o s) (h o)) a) =
          done ++ [upd p (fun o s => f (F o s) (h o)) a] ++ l.map (upd p F) by simp, this]
        simp
  exact key l [] hr

theorem put2_fails {β : Type} (f : Slot → β → Slot) (p : ObjRow → Bool) (h : ObjRow → β) (l : List ObjRow) (hr : ¬ ∀ o ∈ l, p o = true → Room o) :
    put2 f l (sel p l) ((l.filter p).map (·.ncutout)) ((l.filter p).map h) = .error .indexError := by
  have key : ∀ (l : List ObjRow) (done : List ObjRow), (¬ ∀ o ∈ l, p o = true → Room o) →
      put2 f (done ++ l) (((l.zipIdx done.length).filter (fun x => p x.1)).map Prod.snd) ((l.filter p).map (·.ncutout)) ((l.filter p).map h) =
        .error .indexError := by
    intro l
    induction l with
    | nil => intro done hr; exact absurd (fun o ho => nomatch ho) hr
    | cons a l ih =>
      intro done hr
      rw [List.zipIdx_cons, List.filter_cons, List.filter_cons]
      cases hp : p a with
      | false =>
        have := ih (done ++ [a]) (fun hl => hr (by
          intro o ho hpo
          rcases List.mem_cons.mp ho with rfl | ho
          · rw [hp] at hpo; cases hpo
          · exact hl o ho hpo))
        rw [show (done ++ [a]).length = done.length + 1 by simp] at this
        simpa [hp] using this
      | true =>
        simp only [if_true, List.map_cons]
        unfold put2
        rw [show (done ++ a :: l)[done.length]? = some a by simp]
        dsimp only
        cases hk : pyIndex a.slots.length a.ncutout with
        | error e =>
          have : e = .indexError := by
            unfold pyIndex at hk
            split at hk
            · split at hk
              · cases hk
              · injection hk with hk; exact hk.symm
            · split at hk
              · cases hk
              · injection hk with hk; exact hk.symm
          rw [this]; rfl
        | ok k =>
          have hklt := pyIndex_ok hk
          have hget : pyGet a.slots a.ncutout = .ok a.slots[k] := by
            unfold pyGet; rw [hk]; dsimp only; rw [List.getElem?_eq_getElem hklt]
          simp only [Res.ok_bind]
          rw [hget]
          simp only [Res.ok_bind]
          have := ih (done ++ [{ a with slots := a.slots.set k (f a.slots[k] (h a)) }]) (fun hl => hr (by
            intro o ho hpo
            rcases List.mem_cons.mp ho with rfl | ho
            · exact ⟨k, hk⟩
            · exact hl o ho hpo))
          rw [List.length_append, List.length_singleton] at this
          rw [show (done ++ a :: l).set done.length { a with slots := a.slots.set k (f a.slots[k] (h a)) } =
            done ++ [{ a with slots := a.slots.set k (f a.slots[k] (h a)) }] ++ l by simp, this]
  exact key l [] hr

theorem zipIdx_fst {α : Type} (p : α → Bool) (l : List α) : (l.zipIdx.filter (fun x => p x.1)).map Prod.fst = l.filter p := by
  have key : ∀ (l : List α) (n : Nat), ((l.zipIdx n).filter (fun x => p x.1)).map Prod.fst = l.filter p := by
    intro l
    induction l with
    | nil => intro n; rfl
    | cons a l ih =>
      intro n
      rw [List.zipIdx_cons, List.filter_cons, List.filter_cons]
      cases hp : p a <;> simp [ih]
  exact key l 0

theorem sel_eq {α : Type} (p : α → Bool) (l : List α) : whereTrue (l.map p) = sel p l := whereTrue_zipIdx p l

theorem take_sel {α β : Type} (f : α → β) (p : α → Bool) (l : List α) : take (l.map f) (sel p l) = .ok ((l.filter p).map f) := take_zipIdx f p l

/-- Composed index arrays: the second selects among what the first selected. -/
theorem take_sel_sel {α : Type} (r c : α → Bool) (l : List α) : take (sel r l) (sel c (l.filter r)) = .ok (sel (fun o => r o && c o) l) := by
  have h := take_where (Prod.snd : α × Nat → Nat) (fun x => c x.1) (l.zipIdx.filter (fun x => r x.1))
  rw [show (l.zipIdx.filter (fun x => r x.1)).map (fun x => c x.1) = (l.filter r).map c by rw [← zipIdx_fst r l, List.map_map]; rfl, sel_eq] at h
  unfold sel at h ⊢
  rw [h, List.filter_filter]
  congr 2
  congr 1
  funext x
  exact Bool.and_comm _ _

theorem sel_length {α : Type} (p : α → Bool) (l : List α) : (sel p l).length = (l.filter p).length := by
  unfold sel
  rw [List.length_map, ← zipIdx_fst p l, List.length_map]

variable {useJoblib : Bool} {nJobs : Nat} {cfg : MakerCfg}

theorem posAndBoundsV_eq (hj : 0 < nJobs) (objs : List ObjRow) (fileId : Nat) (im : SrcImage) :
    posAndBoundsV useJoblib nJobs cfg objs fileId im =
      .ok ((objs.filter (fun o => im.wcs.rough o.sky)).map (objPos im), fileBounds cfg fileId im, sel (fun o => im.wcs.rough o.sky) objs) := by
  unfold posAndBoundsV
  dsimp only
  rw [sel_eq, take_sel]
  simp only [Res.ok_bind]
  rw [C13_parallel_positions hj]
  simp only [Res.ok_bind, List.map_map]
  rfl

/-- Inside the bounds of the image? -/
def inside (cfg : MakerCfg) (fileId : Nat) (im : SrcImage) (o : ObjRow) : Bool :=
  (fileBounds cfg fileId im).containsPoint (objPos im o).zrow (objPos im o).zcol

theorem containsPoints_eq (fileId : Nat) (im : SrcImage) (l : List ObjRow) :
    whereTrue (containsPoints (fileBounds cfg fileId im) (l.map (objPos im))) = sel (inside cfg fileId im) l := by
  unfold containsPoints
  rw [List.map_map]
  exact sel_eq _ _

theorem accepted_eq (fileId : Nat) (im : SrcImage) : accepted cfg fileId im = fun o => im.wcs.rough o.sky && inside cfg fileId im o := rfl

theorem filter_accepted (fileId : Nat) (im : SrcImage) (objs : List ObjRow) :
    (objs.filter (fun o => im.wcs.rough o.sky)).filter (inside cfg fileId im) = objs.filter (accepted cfg fileId im) := by
  rw [List.filter_filter, accepted_eq]
  congr 1
  funext o
  exact Bool.and_comm _ _

theorem forceIntoV_eq (fileId : Nat) (im : SrcImage) (l : List ObjRow) :
    forceIntoV (sel (inside cfg fileId im) l) (l.map (objPos im)) (fileBounds cfg fileId im) =
      if (l.filter (inside cfg fileId im)).length = 0 then .error .valueError
      else if (l.filter (inside cfg fileId im)).all (fun o => (fileBounds cfg fileId im).containsPoint (clipPos (fileBounds cfg fileId im) (objPos im o)).zrow
          (clipPos (fileBounds cfg fileId im) (objPos im o)).zcol)
        then .ok (l.map (fun o => if inside cfg fileId im o then clipPos (fileBounds cfg fileId im) (objPos im o) else objPos im o))
        else .error .creationError := by
  unfold forceIntoV
  rw [take_sel]
  simp only [Res.ok_bind, List.length_map, List.map_map]
  split
  · rfl
  · rw [putField_sel]
    simp only [Res.ok_bind]
    rw [putField_sel]
    simp only [Res.ok_bind]
    rw [take_sel]
    simp only [Res.ok_bind]
    unfold containsPoints
    rw [List.map_map, List.all_map]
    have e : (l.filter (inside cfg fileId im)).all (id ∘ (fun p : Pos => (fileBounds cfg fileId im).containsPoint p.zrow p.zcol) ∘ fun o =>
          if inside cfg fileId im o = true then
            { (if inside cfg fileId im o = true then { objPos im o with zrow := ((fun p : Pos => clipQ p.zrow (fileBounds cfg fileId im).rowmin (fileBounds cfg fileId im).rowmax) ∘ objPos im) o } else objPos im o) with
              zcol := ((fun p : Pos => clipQ p.zcol (fileBounds cfg fileId im).colmin (fileBounds cfg fileId im).colmax) ∘ objPos im) o }
          else if inside cfg fileId im o = true then { objPos im o with zrow := ((fun p : Pos => clipQ p.zrow (fileBounds cfg fileId im).rowmin (fileBounds cfg fileId im).rowmax) ∘ objPos im) o } else objPos im o) =
        (l.filter (inside cfg fileId im)).all (fun o => (fileBounds cfg fileId im).containsPoint (clipPos (fileBounds cfg fileId im) (objPos im o)).zrow
          (clipPos (fileBounds cfg fileId im) (objPos im o)).zcol) := by
      rw [Bool.eq_iff_iff, List.all_eq_true, List.all_eq_true]
      refine forall_congr' fun o => forall_congr' fun ho => ?_
      have hi := (List.mem_filter.mp ho).2
      simp only [Function.comp, hi, if_true, id]
      rfl
    rw [e]
    split
    · congr 1
      refine List.map_congr_left fun o _ => ?_
      split <;> rfl
    · rfl

theorem map_const_sel {α β : Type} (p : α → Bool) (l : List α) (b : β) : (sel p l).map (fun _ => b) = (l.filter p).map (fun _ => b) := by
  rw [List.map_const', List.map_const', sel_length]

theorem zipWith_maps {α β γ δ : Type} (f : β → γ → δ) (g : α → β) (h : α → γ) (l : List α) :
    List.zipWith f (l.map g) (l.map h) = l.map (fun a => f (g a) (h a)) := by
  induction l with
  | nil => rfl
  | cons a l ih => simp [ih]

theorem upd_sky {p : ObjRow → Bool} {F : ObjRow → Slot → Slot} (o : ObjRow) : (upd p F o).sky = o.sky := by unfold upd; split <;> rfl

theorem upd_ncutout {p : ObjRow → Bool} {F : ObjRow → Slot → Slot} (o : ObjRow) : (upd p F o).ncutout = o.ncutout := by unfold upd; split <;> rfl

theorem upd_boxSize {p : ObjRow → Bool} {F : ObjRow → Slot → Slot} (o : ObjRow) : (upd p F o).boxSize = o.boxSize := by unfold upd; split <;> rfl

theorem addEpoch_room {fileId : Nat} {im : SrcImage} {o : ObjRow} (h : Room o) : addEpoch cfg fileId im o =
    .ok { o with slots := o.slots.set (nextAt o) (newSlot fileId im (finalPos cfg fileId im o) o ((o.slots[nextAt o]?).getD Slot.dflt)), ncutout := o.ncutout + 1 } := by
  obtain ⟨h1, h2⟩ := h.next
  unfold addEpoch pyGet
  rw [h1]
  simp only [Res.ok_bind, List.getElem?_eq_getElem h2, Option.getD_some]

theorem addEpoch_no_room {fileId : Nat} {im : SrcImage} {o : ObjRow} (h : ¬ Room o) : addEpoch cfg fileId im o = .error .indexError := by
  unfold addEpoch
  cases hk : pyIndex o.slots.length o.ncutout with
  | ok k => exact absurd ⟨k, hk⟩ h
  | error e =>
    have : e = .indexError := by
      unfold pyIndex at hk
      split at hk
      · split at hk
        · cases hk
        · injection hk with hk; exact hk.symm
      · split at hk
        · cases hk
        · injection hk with hk; exact hk.symm
    rw [this]; rfl

theorem mapRes_error {α β : Type} {f : α → Res β} {e : Err} : ∀ {l : List α}, (∀ x ∈ l, ∀ e', f x = .error e' → e' = e) → (∃ x ∈ l, ∃ e', f x = .error e') →
    mapRes f l = .error e
  | [], _, h => by obtain ⟨x, hx, _⟩ := h; cases hx
  | a :: l, h1, h2 => by
    unfold mapRes
    cases ha : f a with
    | error e' => rw [h1 a (List.mem_cons_self ..) e' ha]
    | ok y =>
      obtain ⟨x, hx, e', he⟩ := h2
      rcases List.mem_cons.mp hx with rfl | hx
      · rw [ha] at he; cases he
      · dsimp only
        rw [mapRes_error (fun x hx => h1 x (List.mem_cons_of_mem _ hx)) ⟨x, hx, e', he⟩]

/-- The assignments through index arrays add one epoch to every accepted object, and to no other. -/
theorem fillV_eq (fileId : Nat) (im : SrcImage) (objs : List ObjRow) :
    fillV fileId im (objs.map (fun o => o.boxSize / 2)) objs (sel (accepted cfg fileId im) objs) ((objs.filter (accepted cfg fileId im)).map (finalPos cfg fileId im)) =
      mapRes (fun o => if accepted cfg fileId im o then addEpoch cfg fileId im o else .ok o) objs := by
  generalize hp : accepted cfg fileId im = p
  unfold fillV
  dsimp only
  rw [take_sel]
  simp only [Res.ok_bind]
  rw [map_const_sel]
  by_cases hr : ∀ o ∈ objs, p o = true → Room o
  · have hid : objs = objs.map (upd p (fun _ s => s)) := by
      conv_lhs => rw [← List.map_id objs]
      exact List.map_congr_left fun o ho => (upd_id (hr o ho)).symm
    have h1 := put2_sel (fun s x => { s with fileId := x }) p (fun _ s => s) (fun _ => (fileId : Int)) objs hr
    rw [← hid] at h1
    rw [h1]
    simp only [Res.ok_bind, List.map_map]
    rw [put2_sel _ _ _ _ _ hr]
    simp only [Res.ok_bind]
    rw [put2_sel _ _ _ _ _ hr]
    simp only [Res.ok_bind]
    rw [take_sel]
    simp only [Res.ok_bind]
    simp only [zipWith_maps]
    rw [put2_sel _ _ _ _ _ hr]
    simp only [Res.ok_bind]
    rw [put2_sel _ _ _ _ _ hr]
    simp only [Res.ok_bind]
    rw [put2_sel _ _ _ _ _ hr]
    simp only [Res.ok_bind]
    rw [put2_sel _ _ _ _ _ hr]
    simp only [Res.ok_bind, List.map_map]
    rw [take_sel]
    simp only [Res.ok_bind, zipWith_maps, List.map_map]
    rw [put2_sel _ _ _ _ _ hr]
    simp only [Res.ok_bind]
    rw [put2_sel _ _ _ _ _ hr]
    simp only [Res.ok_bind]
    rw [put2_sel _ _ _ _ _ hr]
    simp only [Res.ok_bind]
    rw [put2_sel _ _ _ _ _ hr]
    simp only [Res.ok_bind, List.map_map]
    rw [take_sel]
    simp only [Res.ok_bind, List.map_map]
    rw [putField_sel]
    rw [← mapRes_ok_map]
    refine mapRes_congr fun o ho => ?_
    by_cases hpo : p o = true
    · rw [if_pos hpo, if_pos hpo, addEpoch_room (hr o ho hpo)]
      unfold upd
      simp only [hpo, if_true, Function.comp]
      rfl
    · rw [if_neg hpo, if_neg hpo]
      unfold upd
      rw [if_neg hpo]
  · rw [put2_fails _ _ _ _ hr]
    push Not at hr
    obtain ⟨o, ho, hpo, hno⟩ := hr
    rw [mapRes_error (e := .indexError)]
    · rfl
    · intro x _ e' he
      split at he
      · by_cases hrx : Room x
        · rw [addEpoch_room hrx] at he; cases he
        · rw [addEpoch_no_room hrx] at he; injection he with he; exact he.symm
      · cases he
    · exact ⟨o, ho, .indexError, by rw [if_pos hpo, addEpoch_no_room hno]⟩

/-- One pass over a file, column by column, is one pass object by object. -/
theorem layoutFileV_eq (hj : 0 < nJobs) (objs : List ObjRow) (fi : Nat × SrcImage) :
    layoutFileV useJoblib nJobs cfg (objs.map (fun o => o.boxSize / 2)) objs fi = layoutFile cfg objs fi := by
  obtain ⟨fileId, im⟩ := fi
  unfold layoutFileV layoutFile
  dsimp only
  rw [posAndBoundsV_eq hj]
  simp only [Res.ok_bind]
  rw [containsPoints_eq, sel_length, filter_accepted]
  have hq := take_sel_sel (fun o : ObjRow => im.wcs.rough o.sky) (inside cfg fileId im) objs
  rw [← accepted_eq] at hq
  have hz : ∀ P : ObjRow → Pos, take ((objs.filter (fun o => im.wcs.rough o.sky)).map P) (sel (inside cfg fileId im) (objs.filter (fun o => im.wcs.rough o.sky))) =
      .ok ((objs.filter (accepted cfg fileId im)).map P) := by
    intro P; rw [take_sel, filter_accepted]
  unfold forceCheck
  by_cases hf : forces cfg fileId = true
  · have hf' : (cfg.firstImageIsCoadd && fileId == 0 && cfg.forceIntoCoaddBounds) = true := hf
    rw [if_pos hf, if_pos hf', forceIntoV_eq, filter_accepted]
    dsimp only
    split
    · rfl
    · split
      · simp only [Res.ok_bind]
        split
        · rfl
        · rw [hq]
          simp only [Res.ok_bind]
          rw [hz]
          simp only [Res.ok_bind]
          rw [← fillV_eq]
          congr 1
          refine List.map_congr_left fun o ho => ?_
          have hacc := (List.mem_filter.mp ho).2
          rw [accepted_eq] at hacc
          rw [if_pos (Bool.and_eq_true_iff.mp hacc).2]
          unfold finalPos
          rw [if_pos hf]
      · rfl
  · have hf' : ¬ (cfg.firstImageIsCoadd && fileId == 0 && cfg.forceIntoCoaddBounds) = true := hf
    rw [if_neg hf, if_neg hf']
    simp only [Res.ok_bind]
    split
    · rfl
    · rw [hq]
      simp only [Res.ok_bind]
      rw [hz]
      simp only [Res.ok_bind]
      rw [← fillV_eq]
      congr 1
      refine List.map_congr_left fun o ho => ?_
      unfold finalPos
      rw [if_neg hf]

theorem layoutFile_box {objs objs' : List ObjRow} {fi : Nat × SrcImage} (h : layoutFile cfg objs fi = .ok objs') :
    objs'.map (fun o => o.boxSize / 2) = objs.map (fun o => o.boxSize / 2) := by
  unfold layoutFile at h
  obtain ⟨_, hc, hr⟩ := Res.bind_eq_ok.mp h
  clear h hc
  split at hr
  · cases hr
  · rename_i hn
    have hf := mapRes_ok_iff.mp hr
    clear hr hn
    induction hf with
    | nil => rfl
    | @cons a b as bs hab _ ih =>
      rw [List.map_cons, List.map_cons, ih]
      congr 1
      split at hab
      · unfold addEpoch at hab
        obtain ⟨_, _, hab⟩ := Res.bind_eq_ok.mp hab
        obtain ⟨_, _, hab⟩ := Res.bind_eq_ok.mp hab
        injection hab with hab
        rw [← hab]
      · injection hab with hab
        rw [hab]

theorem fold_layoutFileV_eq (hj : 0 < nJobs) (L : List (Nat × SrcImage)) (objs : List ObjRow) :
    foldRes (layoutFileV useJoblib nJobs cfg (objs.map (fun o => o.boxSize / 2))) objs L = foldRes (layoutFile cfg) objs L := by
  generalize hh : objs.map (fun o => o.boxSize / 2) = half
  induction L generalizing objs with
  | nil => rfl
  | cons fi L ih =>
    simp only [foldRes]
    rw [← hh, layoutFileV_eq hj, hh]
    cases h : layoutFile cfg objs fi with
    | error e => rfl
    | ok objs' => exact ih objs' (by rw [layoutFile_box h, hh])

theorem trimV_eq (hj : 0 < nJobs) (images : List SrcImage) (objs : List ObjRow) : trimV useJoblib nJobs cfg images objs = trim cfg images objs := by
  unfold trimV trim
  split
  · cases images with
    | nil => rfl
    | cons im rest =>
      rw [show pyGet (im :: rest) 0 = .ok im from pyGet_nat_some (k := 0) rfl]
      simp only [Res.ok_bind]
      rw [posAndBoundsV_eq hj]
      simp only [Res.ok_bind]
      rw [containsPoints_eq, sel_length, filter_accepted]
      split
      · rfl
      · rw [take_sel_sel]
        simp only [Res.ok_bind]
        have := take_sel id (accepted cfg 0 im) objs
        rw [List.map_id, List.map_id] at this
        exact this
  · rfl

/-- The layout computed column by column, with or without joblib, is the layout computed object by object: same catalogue or same exception. -/
theorem buildLayoutV_eq (hj : 0 < nJobs) (mk : Maker) : mk.buildLayoutV useJoblib nJobs = mk.buildLayout := by
  unfold buildLayoutV buildLayout
  rw [trimV_eq hj]
  cases trim mk.cfg mk.images mk.objs with
  | error e => rfl
  | ok objs0 =>
    simp only [Res.ok_bind]
    rw [fold_layoutFileV_eq hj]
    rfl

theorem modifyImage_iff {name : String} {g g' : List ℚ → Res (List ℚ)} (h : ∀ b b', g b = .ok b' ↔ g' b = .ok b') :
    ∀ (l l' : List (String × Hdu)), modifyImage name g l = .ok l' ↔ modifyImage name g' l = .ok l'
  | [], l' => by simp [modifyImage]
  | (n, hd) :: t, l' => by
    unfold modifyImage
    split
    · cases hd with
      | image pix =>
        dsimp only
        rw [Res.bind_eq_ok, Res.bind_eq_ok]
        exact exists_congr fun b => and_congr (h pix b) Iff.rfl
      | _ => exact Iff.rfl
    · rw [Res.bind_eq_ok, Res.bind_eq_ok]
      exact exists_congr fun b => and_congr (modifyImage_iff h t b) Iff.rfl

/-- **C12**, **C70** The whole write: with joblib or without it, and for any number of workers, the write completes exactly when the object by object serial
one does, and then leaves the same file. -/
theorem C70_same_file (useJoblib : Bool) {nJobs : Nat} (hj : 0 < nJobs) (mk : Maker) (r : Maker × Fits) :
    mk.writeV useJoblib nJobs = .ok r ↔ mk.write = .ok r := by
  unfold writeV write
  rw [buildLayoutV_eq hj]
  cases mk.buildLayout with
  | error e => exact Iff.rfl
  | ok mk' =>
    simp only [Res.ok_bind]
    have hd : ∀ f, mk'.writeDataV useJoblib = .ok f ↔ mk'.writeData = .ok f := by
      intro f
      unfold writeDataV writeData
      dsimp only
      rw [Res.bind_eq_ok, Res.bind_eq_ok]
      refine exists_congr fun h1 => and_congr Iff.rfl ?_
      rw [Res.bind_eq_ok, Res.bind_eq_ok]
      refine exists_congr fun h2 => and_congr ?_ Iff.rfl
      cases mk'.psf with
      | none => exact Iff.rfl
      | some psf =>
        refine modifyImage_iff ?_ h1 h2
        intro b b'
        cases useJoblib with
        | false => exact Iff.rfl
        | true => exact C12_joblib_equals_serial_2000 mk' psf b b'
    rw [Res.bind_eq_ok, Res.bind_eq_ok]
    exact exists_congr fun f => and_congr (hd f) Iff.rfl

end Maker

/-- The maker of the example run writes with both layouts. -/
def Ex.sameWrites : Bool :=
  match Maker.init Ex.cfg true Ex.objs Ex.images (some Ex.psfs) (some "pi") "meta" with
  | .ok a =>
    (match a.writeV true 2 with | .ok r => decide (r.2 = Ex.file) | .error _ => false) &&
    (match a.writeV false 1 with | .ok r => decide (r.2 = Ex.file) | .error _ => false)
  | .error _ => false

example : Ex.sameWrites = true := by decide +kernel

end Meds
