import Verif.Lemmas.TableResize
import Verif.Lemmas.Steps

/-! The two loops that assign start rows in the structured array: helper lemmas.  No property theorems here. -/

namespace Meds
namespace Table
open Columns Vec

variable {psf : Bool} {w : Nat} {user : List (Col Val)}

/-- A loop over the first `n` epochs of an object that carries a running total. -/
def loop (g : Slot → Int → Res (Slot × Int)) : Nat → Int → List Slot → Res (List Slot × Int)
  | 0, cur, ss => .ok (ss, cur)
  | _ + 1, _, [] => .error .indexError
  | n + 1, cur, s :: ss => do
    let r ← g s cur
    let q ← loop g n r.2 ss
    .ok (r.1 :: q.1, q.2)

/-- A loop over the objects that carries a running total. -/
def rloop (L : ObjRow → Int → Res (List Slot × Int)) : Int → List ObjRow → Res (List ObjRow × Int)
  | cur, [] => .ok ([], cur)
  | cur, o :: os => do
    let r ← L o cur
    let rest ← rloop L r.2 os
    .ok ({ o with slots := r.1 } :: rest.1, rest.2)

theorem loop_fold {σ : Type} {g : Slot → Int → Res (Slot × Int)} {F : σ → Nat → Res σ} {enc : List Slot → Int → σ}
    (hstep : ∀ done s rest cur, F (enc (done ++ s :: rest) cur) done.length = (g s cur >>= fun r => .ok (enc (done ++ r.1 :: rest) r.2)))
    (hend : ∀ ss cur, F (enc ss cur) ss.length = .error .indexError) :
    ∀ (n : Nat) (done : List Slot) (cur : Int) (ss : List Slot),
      foldRes F (enc (done ++ ss) cur) (List.range' done.length n) = (loop g n cur ss >>= fun r => .ok (enc (done ++ r.1) r.2)) := by
  intro n
  induction n with
  | zero => intro done cur ss; rfl
  | succ n ih =>
    intro done cur ss
    rw [List.range'_succ, foldRes_cons_bind]
    cases ss with
    | nil =>
      rw [List.append_nil, hend]
      rfl
    | cons s rest =>
      rw [hstep, loop]
      cases hg : g s cur with
      | error e => rfl
      | ok r =>
        rw [Res.ok_bind, Res.ok_bind, Res.ok_bind]
        have := ih (done ++ [r.1]) r.2 rest
        rw [List.append_assoc, List.length_append] at this
        rw [show done ++ r.1 :: rest = done ++ ([r.1] ++ rest) from rfl, show done.length + 1 = done.length + [r.1].length from rfl, this]
        cases loop g n r.2 rest with
        | error e => rfl
        | ok q => simp [Res.ok_bind]

theorem rloop_fold {σ : Type} {L : ObjRow → Int → Res (List Slot × Int)} {G : σ → Nat → Res σ} {enc : List ObjRow → Int → σ} {P : List ObjRow → Prop}
    (hP : ∀ pre o post l, P (pre ++ o :: post) → P (pre ++ { o with slots := l } :: post))
    (hstep : ∀ pre o post cur, P (pre ++ o :: post) → G (enc (pre ++ o :: post) cur) pre.length = (L o cur >>= fun r => .ok (enc (pre ++ { o with slots := r.1 } :: post) r.2))) :
    ∀ (post pre : List ObjRow) (cur : Int), P (pre ++ post) →
      foldRes G (enc (pre ++ post) cur) (List.range' pre.length post.length) = (rloop L cur post >>= fun r => .ok (enc (pre ++ r.1) r.2)) := by
  intro post
  induction post with
  | nil => intro pre cur _; simp [rloop, foldRes, Res.ok_bind]
  | cons o post ih =>
    intro pre cur h
    rw [List.length_cons, List.range'_succ, foldRes_cons_bind, hstep _ _ _ _ h, rloop]
    cases hg : L o cur with
    | error e => rfl
    | ok r =>
      rw [Res.ok_bind, Res.ok_bind, Res.ok_bind]
      have h' := hP _ _ _ r.1 h
      have := ih (pre ++ [{ o with slots := r.1 }]) r.2 (by simpa using h')
      rw [List.append_assoc, List.length_append] at this
      rw [show pre ++ { o with slots := r.1 } :: post = pre ++ ([{ o with slots := r.1 }] ++ post) from rfl,
        show pre.length + 1 = pre.length + [{ o with slots := r.1 }].length from rfl, this]
      cases rloop L r.2 post with
      | error e => rfl
      | ok q => simp [Res.ok_bind]

theorem setStarts_loop (np : Int) : ∀ (n : Nat) (cur : Int) (ss : List Slot),
    Maker.setStarts np n cur ss = loop (fun s cur => .ok ({ s with startRow := cur }, cur + np)) n cur ss := by
  intro n
  induction n with
  | zero => intro cur ss; rfl
  | succ n ih =>
    intro cur ss
    cases ss with
    | nil => rfl
    | cons s ss =>
      rw [Maker.setStarts, loop, ih]
      rfl

/-- What `_set_psf_layout` does to one epoch. -/
def psfStep (psf : List PsfModel) (sky : SkyPos) (s : Slot) (cur : Int) : Res (Slot × Int) := do
  let p ← pyGet psf s.fileId
  let shape := Maker.psfShapeOf p sky s.origRow s.origCol
  let cen := p.center s.origRow s.origCol
  .ok ({ s with psfRowSize := shape.1, psfColSize := shape.2, psfCutoutRow := cen.1, psfCutoutCol := cen.2, psfStartRow := cur }, cur + (shape.1 : Int) * shape.2)

theorem setPsfSlots_loop (ps : List PsfModel) (sky : SkyPos) : ∀ (n : Nat) (cur : Int) (ss : List Slot),
    Maker.setPsfSlots ps sky n cur ss = loop (psfStep ps sky) n cur ss := by
  intro n
  induction n with
  | zero => intro cur ss; rfl
  | succ n ih =>
    intro cur ss
    cases ss with
    | nil => rfl
    | cons s ss =>
      rw [Maker.setPsfSlots, loop, psfStep]
      cases pyGet ps s.fileId with
      | error e => rfl
      | ok p =>
        rw [Res.ok_bind, Res.ok_bind, Res.ok_bind, ← ih]

theorem setStartRows_rloop : ∀ (rows : List ObjRow) (cur : Int),
    Maker.setStartRows cur rows = rloop (fun o cur => Maker.setStarts (o.boxSize * o.boxSize) o.ncutout.toNat cur o.slots) cur rows := by
  intro rows
  induction rows with
  | nil => intro cur; rfl
  | cons o os ih =>
    intro cur
    rw [Maker.setStartRows, rloop]
    cases Maker.setStarts (o.boxSize * o.boxSize) o.ncutout.toNat cur o.slots with
    | error e => rfl
    | ok r => rw [Res.ok_bind, Res.ok_bind, ih]

theorem setPsfLayout_rloop (ps : List PsfModel) : ∀ (rows : List ObjRow) (cur : Int),
    Maker.setPsfLayout ps cur rows = rloop (fun o cur => Maker.setPsfSlots ps o.sky o.ncutout.toNat cur o.slots) cur rows := by
  intro rows
  induction rows with
  | nil => intro cur; rfl
  | cons o os ih =>
    intro cur
    rw [Maker.setPsfLayout, rloop]
    cases Maker.setPsfSlots ps o.sky o.ncutout.toNat cur o.slots with
    | error e => rfl
    | ok r => rw [Res.ok_bind, Res.ok_bind, ih]

theorem pyGet_mid {α : Type} (pre : List α) (x : α) (post : List α) : pyGet (pre ++ x :: post) ((pre.length : Nat) : Int) = .ok x :=
  pyGet_nat_some (by simp)

theorem pyGet_end {α : Type} (l : List α) : pyGet l ((l.length : Nat) : Int) = .error .indexError := by
  unfold pyGet pyIndex
  simp

theorem put2_one {β : Type} (f : Slot → β → Slot) (pre : List ObjRow) (o : ObjRow) (post : List ObjRow) (done : List Slot) (s : Slot) (rest : List Slot) (x : β) :
    put2 f (pre ++ { o with slots := done ++ s :: rest } :: post) [pre.length] [((done.length : Nat) : Int)] [x] =
      .ok (pre ++ { o with slots := done ++ f s x :: rest } :: post) := by
  have hk : pyIndex (done ++ s :: rest).length ((done.length : Nat) : Int) = .ok done.length := by
    unfold pyIndex
    simp
  rw [put2, List.getElem?_append_right (Nat.le_refl _), Nat.sub_self, List.getElem?_cons_zero]
  dsimp only
  rw [hk, Res.ok_bind, pyGet_mid, Res.ok_bind, put2]
  simp

theorem put2_end {β : Type} (f : Slot → β → Slot) (pre : List ObjRow) (o : ObjRow) (post : List ObjRow) (x : β) :
    put2 f (pre ++ o :: post) [pre.length] [((o.slots.length : Nat) : Int)] [x] = .error .indexError := by
  have hk : pyIndex o.slots.length ((o.slots.length : Nat) : Int) = .error .indexError := by
    unfold pyIndex
    simp
  rw [put2, List.getElem?_append_right (Nat.le_refl _), Nat.sub_self, List.getElem?_cons_zero]
  dsimp only
  rw [hk]
  rfl

theorem setStartRowsT_table (h : UserNames user) (rows : List ObjRow) :
    setStartRowsT (table psf w user rows) =
      (Maker.setStartRows 0 rows >>= fun r => if Maker.pixelSum rows ≠ r.2 then .error .valueError else .ok (table psf w user r.1, r.2)) := by
  unfold setStartRowsT
  rw [integers_ncutout h, Res.ok_bind, integers_box h, Res.ok_bind, setStartRows_rloop]
  have hsum : (List.zipWith (fun (n b : Int) => n * (b * b)) (rows.map (·.ncutout)) (rows.map (·.boxSize))).sum = Maker.pixelSum rows := by
    unfold Maker.pixelSum
    rw [List.zipWith_map, List.zipWith_self]
  rw [hsum]
  have := rloop_fold (σ := Arr Val × Int) (enc := fun rows cur => (table psf w user rows, cur)) (P := fun _ => True)
    (L := fun o cur => Maker.setStarts (o.boxSize * o.boxSize) o.ncutout.toNat cur o.slots)
    (G := fun (s : Arr Val × Int) iobj => do
      let ncs ← integers s.1 "ncutout"
      let ncut ← pyGet ncs (iobj : Nat)
      if ncut > 0 then do
        let bss ← integers s.1 "box_size"
        let bsize ← pyGet bss (iobj : Nat)
        foldRes (fun (s : Arr Val × Int) (icut : Nat) => do
            let a ← put s.1 "start_row" [iobj] [icut] [(s.2 : ℚ)]
            .ok (a, s.2 + bsize * bsize)) s (List.range ncut.toNat)
      else .ok s) (fun _ _ _ _ _ => trivial) (by
      intro pre o post cur _
      dsimp only
      rw [integers_ncutout h, Res.ok_bind, List.map_append, List.map_cons,
        show pre.length = (pre.map (·.ncutout)).length by simp, pyGet_mid, Res.ok_bind]
      by_cases hn : o.ncutout > 0
      · rw [if_pos hn, integers_box h, Res.ok_bind, List.map_append, List.map_cons,
          show (pre.map (·.ncutout)).length = (pre.map (·.boxSize)).length by simp, pyGet_mid, Res.ok_bind, setStarts_loop, List.length_map,
          List.range_eq_range']
        refine loop_fold (σ := Arr Val × Int) (enc := fun ss cur => (table psf w user (pre ++ { o with slots := ss } :: post), cur)) ?_ ?_ o.ncutout.toNat [] cur o.slots
        · intro done s rest cur
          dsimp only
          have e := put_startRow (psf := psf) (w := w) h (pre ++ { o with slots := done ++ s :: rest } :: post) [pre.length] [((done.length : Nat) : Int)] [cur]
          rw [List.map_cons, List.map_nil, put2_one] at e
          rw [e]
          rfl
        · intro ss cur
          dsimp only
          have e := put_startRow (psf := psf) (w := w) h (pre ++ { o with slots := ss } :: post) [pre.length] [((ss.length : Nat) : Int)] [cur]
          rw [List.map_cons, List.map_nil] at e
          rw [e, put2_end (fun s x => { s with startRow := x }) pre { o with slots := ss } post cur]
          rfl
      · rw [if_neg hn, show o.ncutout.toNat = 0 by omega]
        rfl) rows [] 0 trivial
  rw [show (table psf w user rows).n = rows.length from rfl, List.range_eq_range']
  rw [List.nil_append, List.length_nil] at this
  rw [this]
  cases rloop (fun o cur => Maker.setStarts (o.boxSize * o.boxSize) o.ncutout.toNat cur o.slots) 0 rows with
  | error e => rfl
  | ok r => rfl

theorem pyGet_map {α β : Type} (f : α → β) (l : List α) (i : Int) : pyGet (l.map f) i = (pyGet l i >>= fun x => .ok (f x)) := by
  unfold pyGet
  rw [List.length_map]
  cases pyIndex l.length i with
  | error e => rfl
  | ok k =>
    dsimp only
    rw [List.getElem?_map]
    cases l[k]? <;> rfl

theorem cell_table (h : UserNames user) {name : String} {π : Slot → ℚ}
    (hp : ((⟨name, some w⟩, fun rows => rows.map (fun o => o.slots.map (fun s => Val.num (π s)))) : Field × (List ObjRow → List (List Val))) ∈ colFns psf w user)
    (pre : List ObjRow) (o : ObjRow) (post : List ObjRow) (k : Nat) :
    cell (table psf w user (pre ++ o :: post)) name pre.length k = (pyGet o.slots (k : Nat) >>= fun s => .ok (π s)) := by
  unfold cell
  have e := column_table h hp (pre ++ o :: post)
  dsimp only at e
  rw [e, Res.ok_bind, List.map_append, List.map_cons,
    show pre.length = (pre.map (fun o => o.slots.map (fun s => Val.num (π s)))).length by simp, pyGet_mid, Res.ok_bind, pyGet_map]
  cases pyGet o.slots (k : Nat) with
  | error e => rfl
  | ok s => rfl

theorem cellInt_table (h : UserNames user) {name : String} {π : Slot → Int}
    (hp : ((⟨name, some w⟩, fun rows => rows.map (fun o => o.slots.map (fun s => Val.num (π s)))) : Field × (List ObjRow → List (List Val))) ∈ colFns psf w user)
    (pre : List ObjRow) (o : ObjRow) (post : List ObjRow) (k : Nat) :
    cellInt (table psf w user (pre ++ o :: post)) name pre.length k = (pyGet o.slots (k : Nat) >>= fun s => .ok (π s)) := by
  unfold cellInt
  have e := column_table h hp (pre ++ o :: post)
  dsimp only at e
  rw [e, Res.ok_bind, List.map_append, List.map_cons,
    show pre.length = (pre.map (fun o => o.slots.map (fun s => Val.num (π s)))).length by simp, pyGet_mid, Res.ok_bind, pyGet_map]
  cases pyGet o.slots (k : Nat) with
  | error e => rfl
  | ok s => exact toInt_int _

theorem setPsfLayoutT_table (h : UserNames user) (ps : List PsfModel) {rows : List ObjRow} (hs : SkyOk true w user rows) :
    setPsfLayoutT ps (table true w user rows) = (Maker.setPsfLayout ps 0 rows >>= fun r => .ok (table true w user r.1, r.2)) := by
  unfold setPsfLayoutT
  rw [setPsfLayout_rloop]
  have := rloop_fold (σ := Arr Val × Int) (enc := fun rows cur => (table true w user rows, cur)) (P := fun rows => SkyOk true w user rows)
    (L := fun o cur => Maker.setPsfSlots ps o.sky o.ncutout.toNat cur o.slots)
    (G := fun (s : Arr Val × Int) iobj => do
      let sk ← skies s.1
      let sky ← pyGet sk (iobj : Nat)
      let ncs ← integers s.1 "ncutout"
      let ncut ← pyGet ncs (iobj : Nat)
      foldRes (psfCellT ps iobj sky) s (List.range ncut.toNat)) (fun pre o post l hP => hP.congr h (by simp)) (by
      intro pre o post cur hP
      dsimp only
      rw [show skies (table true w user (pre ++ o :: post)) = _ from hP, Res.ok_bind, List.map_append, List.map_cons,
        show pre.length = (pre.map (·.sky)).length by simp, pyGet_mid, Res.ok_bind, integers_ncutout h, Res.ok_bind, List.map_append, List.map_cons,
        show (pre.map (·.sky)).length = (pre.map (·.ncutout)).length by simp, pyGet_mid, Res.ok_bind, setPsfSlots_loop, List.length_map, List.range_eq_range']
      have c1 : ∀ o k, cell (table true w user (pre ++ o :: post)) "orig_row" pre.length k = _ := fun o k =>
        cell_table h (π := fun s => s.origRow) (mem_epoch (p := ("orig_row", fun s => .num s.origRow)) (by simp [epochCols])) pre o post k
      have c2 : ∀ o k, cell (table true w user (pre ++ o :: post)) "orig_col" pre.length k = _ := fun o k =>
        cell_table h (π := fun s => s.origCol) (mem_epoch (p := ("orig_col", fun s => .num s.origCol)) (by simp [epochCols])) pre o post k
      have c3 : ∀ o k, cellInt (table true w user (pre ++ o :: post)) "file_id" pre.length k = _ := fun o k =>
        cellInt_table h (π := fun s => s.fileId) (mem_epoch (p := ("file_id", fun s => .num s.fileId)) (by simp [epochCols])) pre o post k
      refine loop_fold (σ := Arr Val × Int) (enc := fun ss cur => (table true w user (pre ++ { o with slots := ss } :: post), cur)) ?_ ?_ o.ncutout.toNat [] cur o.slots
      · intro done s rest cur
        unfold psfCellT psfStep
        dsimp only
        rw [c1, c2, c3]
        dsimp only
        rw [pyGet_mid]
        simp only [Res.ok_bind]
        cases pyGet ps s.fileId with
        | error e => rfl
        | ok p =>
          simp only [Res.ok_bind]
          have e1 := put_psfRowSize (w := w) h (pre ++ { o with slots := done ++ s :: rest } :: post) [pre.length] [((done.length : Nat) : Int)]
            [((Maker.psfShapeOf p o.sky s.origRow s.origCol).1 : Int)]
          rw [List.map_cons, List.map_nil, put2_one] at e1
          have e2 := put_psfColSize (w := w) h (pre ++ { o with slots := done ++ { s with psfRowSize := ((Maker.psfShapeOf p o.sky s.origRow s.origCol).1 : Int) } :: rest } :: post)
            [pre.length] [((done.length : Nat) : Int)] [((Maker.psfShapeOf p o.sky s.origRow s.origCol).2 : Int)]
          rw [List.map_cons, List.map_nil, put2_one] at e2
          rw [show (((Maker.psfShapeOf p o.sky s.origRow s.origCol).1 : Nat) : ℚ) = (((Maker.psfShapeOf p o.sky s.origRow s.origCol).1 : Int) : ℚ) by push_cast; rfl,
            show (((Maker.psfShapeOf p o.sky s.origRow s.origCol).2 : Nat) : ℚ) = (((Maker.psfShapeOf p o.sky s.origRow s.origCol).2 : Int) : ℚ) by push_cast; rfl,
            e1, Res.ok_bind, Res.ok_bind, e2, Res.ok_bind, Res.ok_bind, put_psfCutoutRow h, put2_one, Res.ok_bind, Res.ok_bind, put_psfCutoutCol h, put2_one, Res.ok_bind, Res.ok_bind]
          have e5 := put_psfStartRow (w := w) h (pre ++ { o with slots := done ++ { s with
              psfRowSize := ((Maker.psfShapeOf p o.sky s.origRow s.origCol).1 : Int), psfColSize := ((Maker.psfShapeOf p o.sky s.origRow s.origCol).2 : Int),
              psfCutoutRow := (p.center s.origRow s.origCol).1, psfCutoutCol := (p.center s.origRow s.origCol).2 } :: rest } :: post)
            [pre.length] [((done.length : Nat) : Int)] [cur]
          rw [List.map_cons, List.map_nil, put2_one] at e5
          rw [e5]
          rfl
      · intro ss cur
        unfold psfCellT
        dsimp only
        rw [c1]
        dsimp only
        rw [pyGet_end]
        rfl) rows [] 0 hs
  rw [show (table true w user rows).n = rows.length from rfl, List.range_eq_range']
  rw [List.nil_append, List.length_nil] at this
  rw [this]
  rfl

end Table
end Meds
