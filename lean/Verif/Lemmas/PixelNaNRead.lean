import Verif.Lemmas.PixelNaN
import Verif.Spec.PixelNaN

/-! Lemmas on what is read from images with pixels that are not numbers. -/

namespace Meds
open Spec Maker Compare

theorem Compare.Flt.sub_zero (v : Flt) : v.sub (.num 0) = v := by
  cases v with
  | num a => show Flt.num (a - 0) = _; rw [_root_.sub_zero]
  | nan => rfl
  | inf s => rfl

theorem img_get?_wf {α : Type} {x : Img α} (h : x.WF) {r c : Nat} (hr : r < x.nr) (hc : c < x.nc) : ∃ v, x.get? r c = some v := by
  unfold Img.get?
  rw [if_pos ⟨hr, hc⟩]
  have : r * x.nc + c < x.flat.length := by
    rw [show x.flat.length = x.nr * x.nc from h]
    calc r * x.nc + c < r * x.nc + x.nc := by omega
      _ = (r + 1) * x.nc := by ring
      _ ≤ x.nr * x.nc := Nat.mul_le_mul_right _ hr
  exact ⟨_, List.getElem?_eq_getElem this⟩

theorem img_get?_lt {α : Type} {x : Img α} {r c : Nat} {v : α} (h : x.get? r c = some v) : r < x.nr ∧ c < x.nc := by
  unfold Img.get? at h
  split at h
  · assumption
  · cases h

theorem subBkgN_pixel {x b y : Img Flt} (hb : b.WF) (h : subBkgN x b = .ok y) :
    y.nr = x.nr ∧ y.nc = x.nc ∧ ∀ r c v, x.get? r c = some v → ∃ u, Background (some b) r c u ∧ y.get? r c = some (v.sub u) := by
  unfold subBkgN at h
  split at h
  · rename_i hs
    injection h with h
    subst h
    refine ⟨rfl, rfl, ?_⟩
    intro r c v hv
    obtain ⟨hr, hc⟩ := img_get?_lt hv
    obtain ⟨u, hu⟩ := img_get?_wf (x := b) hb (r := if b.nr = 1 then 0 else r) (c := if b.nc = 1 then 0 else c) (by split <;> omega) (by split <;> omega)
    refine ⟨u, hu, ?_⟩
    rw [Img.ofFn_get? _ hr hc, hv, hu]
    rfl
  · cases h

theorem readImageN_image {cfg : MakerCfg} {fl : FltPlanes} {im : SrcImage} {r : Option (Img Flt)} (hwf : ∀ b, fl "bkg" = some (some b) → b.WF) (h : readImageN cfg fl im "image" = .ok r) :
    ∃ x bkg src, fl "image" = some (some x) ∧ fl "bkg" = some bkg ∧ r = some src ∧ src.nr = x.nr ∧ src.nc = x.nc ∧
      ∀ r c v, x.get? r c = some v → ∃ u, Background bkg r c u ∧ src.get? r c = some ((v.sub u).mul (.num im.info.scale)) := by
  unfold readImageN at h
  obtain ⟨raw, h1, h⟩ := Res.bind_eq_ok.mp h
  rw [if_pos rfl] at h
  obtain ⟨bkg, h2, h⟩ := Res.bind_eq_ok.mp h
  unfold readOneImageN at h1 h2
  split at h1
  · cases h1
  · rename_i x1 e1
    injection h1 with h1
    subst h1
    split at h2
    · cases h2
    · rename_i b1 e2
      injection h2 with h2
      subst h2
      cases x1 with
      | none => cases h
      | some x =>
        dsimp only at h
        obtain ⟨y, hy, h⟩ := Res.bind_eq_ok.mp h
        injection h with h
        subst h
        cases b1 with
        | none =>
          dsimp only at hy
          injection hy with hy
          subst hy
          refine ⟨x, none, _, e1, e2, rfl, rfl, rfl, ?_⟩
          intro r c v hv
          refine ⟨.num 0, rfl, ?_⟩
          rw [img_map_get?, hv, Flt.sub_zero]
          rfl
        | some b =>
          dsimp only at hy
          obtain ⟨a1, a2, a3⟩ := subBkgN_pixel (hwf b e2) hy
          refine ⟨x, some b, _, e1, e2, rfl, a1, a2, ?_⟩
          intro r c v hv
          obtain ⟨u, hu, hyu⟩ := a3 r c v hv
          refine ⟨u, hu, ?_⟩
          rw [img_map_get?, hyu]
          rfl

open Classical in
theorem zeroWhereBadN_pixel {flags : Int} {x y : Img Flt} {bm : Img ℚ} (h : zeroWhereBadN flags x bm = .ok y) :
    y.nr = x.nr ∧ y.nc = x.nc ∧ ∀ r c v, x.get? r c = some v → y.get? r c = some (if ∃ b, bm.get? r c = some b ∧ Int.land ⌊b⌋ flags ≠ 0 then .num 0 else v) := by
  unfold zeroWhereBadN at h
  split at h
  · cases h
  · injection h with h
    subst h
    refine ⟨rfl, rfl, ?_⟩
    intro r c v hv
    obtain ⟨hr, hc⟩ := img_get?_lt hv
    rw [Img.ofFn_get? _ hr hc, hv]
    cases hb : bm.get? r c with
    | none => simp
    | some b =>
      simp only [Option.some.injEq, exists_eq_left', Option.getD_some]
      unfold badBit
      simp only [decide_eq_true_eq]

open Classical in
theorem readImageN_weight {cfg : MakerCfg} {fl : FltPlanes} {im : SrcImage} {r : Option (Img Flt)} (h : readImageN cfg fl im "weight" = .ok r) :
    ∃ x src, fl "weight" = some (some x) ∧ r = some src ∧ src.nr = x.nr ∧ src.nc = x.nc ∧
      ∀ r c v, x.get? r c = some v → src.get? r c = some ((if MaskedOut cfg im r c then .num 0 else v).mul (Flt.invSquare im.info.scale)) := by
  unfold readImageN at h
  obtain ⟨raw, h1, h⟩ := Res.bind_eq_ok.mp h
  rw [if_neg (by decide), if_pos rfl] at h
  unfold readOneImageN at h1
  split at h1
  · cases h1
  · rename_i x1 e1
    injection h1 with h1
    subst h1
    split at h
    · cases h
    · cases hu : cfg.unusableBmask with
      | none =>
        rw [hu] at h
        cases x1 with
        | none => cases h
        | some x =>
          dsimp only at h
          injection h with h
          subst h
          refine ⟨x, _, e1, rfl, rfl, rfl, ?_⟩
          intro r c v hv
          rw [img_map_get?, hv, if_neg]
          · rfl
          · rintro ⟨fl, _, _, hf, _⟩
            rw [hu] at hf; cases hf
      | some flags =>
        rw [hu] at h
        dsimp only at h
        obtain ⟨bm, h2, h⟩ := Res.bind_eq_ok.mp h
        unfold readOneImage at h2
        split at h2
        · cases h2
        · rename_i b1 e2
          injection h2 with h2
          subst h2
          cases x1 with
          | none => cases h
          | some x =>
            dsimp only at h
            obtain ⟨y, hy, h⟩ := Res.bind_eq_ok.mp h
            injection h with h
            subst h
            cases b1 with
            | none =>
              dsimp only at hy
              injection hy with hy
              subst hy
              refine ⟨x, _, e1, rfl, rfl, rfl, ?_⟩
              intro r c v hv
              rw [img_map_get?, hv, if_neg]
              · rfl
              · rintro ⟨fl, b, _, _, hb, _⟩
                rw [e2] at hb; cases hb
            | some bm =>
              dsimp only at hy
              obtain ⟨a1, a2, a3⟩ := zeroWhereBadN_pixel hy
              refine ⟨x, _, e1, rfl, a1, a2, ?_⟩
              intro r c v hv
              rw [img_map_get?, a3 r c v hv]
              have : MaskedOut cfg im r c ↔ ∃ b, bm.get? r c = some b ∧ Int.land ⌊b⌋ flags ≠ 0 := by
                constructor
                · rintro ⟨f', bm', b, hf, hb, h3, h4⟩
                  rw [hu] at hf; injection hf with hf
                  rw [e2] at hb; injection hb with hb; injection hb with hb
                  subst hf hb
                  exact ⟨b, h3, h4⟩
                · rintro ⟨b, h3, h4⟩
                  exact ⟨flags, bm, b, hu, e2, h3, h4⟩
              simp only [this]
              rfl

theorem shows_pixel {α : Type} {cast : α → α} {fill : α} {src : Img α} {s : Slot} {a b r c : Nat} {v : α} (h : ShowsPixel s a b r c) (hv : src.get? r c = some v) :
    showsG cast fill src s.origStartRow s.origStartCol a b = cast v := by
  unfold showsG pixelAt
  rw [h.1, h.2, if_pos (by omega)]
  simp only [Int.toNat_natCast]
  rw [hv]

theorem shows_nothing {α : Type} {cast : α → α} {fill : α} {src : Img α} {s : Slot} {a b : Nat} (h : ¬ ∃ r c, ShowsPixel s a b r c ∧ r < src.nr ∧ c < src.nc) :
    showsG cast fill src s.origStartRow s.origStartCol a b = cast fill := by
  unfold showsG
  rw [get?_toNat_none]
  intro hh
  exact h ⟨(s.origStartRow + a).toNat, (s.origStartCol + b).toNat, ⟨by omega, by omega⟩, by omega, by omega⟩

variable {cfg : MakerCfg}
  {fl fl' : Nat → FltPlanes}

/-- Arrays of the same shape that agree at the pixels in `P`. -/
def Alike (P : Nat → Nat → Prop) (x y : Img Flt) : Prop := x.nr = y.nr ∧ x.nc = y.nc ∧ x.WF ∧ y.WF ∧ ∀ r c, P r c → x.get? r c = y.get? r c

/-- The same for what is read. -/
inductive AlikeR (P : Nat → Nat → Prop) : Res (Option (Img Flt)) → Res (Option (Img Flt)) → Prop
  | err (e : Err) : AlikeR P (.error e) (.error e)
  | none : AlikeR P (.ok .none) (.ok .none)
  | some {x y : Img Flt} : Alike P x y → AlikeR P (.ok (.some x)) (.ok (.some y))

theorem Alike.map {P : Nat → Nat → Prop} {x y : Img Flt} (h : Alike P x y) (k : Flt → Flt) : Alike P (x.map k) (y.map k) := by
  obtain ⟨h1, h2, h3, h4, h5⟩ := h
  refine ⟨h1, h2, ?_, ?_, ?_⟩
  · show (x.flat.map k).length = _; rw [List.length_map]; exact h3
  · show (y.flat.map k).length = _; rw [List.length_map]; exact h4
  · intro r c hp
    rw [img_map_get?, img_map_get?, h5 r c hp]

theorem Alike.ofFn {P : Nat → Nat → Prop} {nr nc : Nat} {u v : Nat → Nat → Flt} (h : ∀ r c, P r c → u r c = v r c) : Alike P (Img.ofFn nr nc u) (Img.ofFn nr nc v) := by
  refine ⟨rfl, rfl, ?_, ?_, ?_⟩
  · exact Img.ofFn_flat_length _ _ _
  · exact Img.ofFn_flat_length _ _ _
  · intro r c hp
    by_cases hr : r < nr ∧ c < nc
    · rw [Img.ofFn_get? _ hr.1 hr.2, Img.ofFn_get? _ hr.1 hr.2, h r c hp]
    · have e : ∀ w, (Img.ofFn nr nc w : Img Flt).get? r c = .none := fun w => by
        unfold Img.get?
        exact if_neg hr
      rw [e, e]

theorem subBkgN_alike {P : Nat → Nat → Prop} {x y b : Img Flt} (h : Alike P x y) :
    (∃ e, subBkgN x b = .error e ∧ subBkgN y b = .error e) ∨ ∃ x' y', subBkgN x b = .ok x' ∧ subBkgN y b = .ok y' ∧ Alike P x' y' := by
  obtain ⟨h1, h2, _, _, h5⟩ := h
  unfold subBkgN
  rw [h1, h2]
  split
  · exact .inr ⟨_, _, rfl, rfl, Alike.ofFn (fun r c hp => by rw [h5 r c hp])⟩
  · exact .inl ⟨_, rfl, rfl⟩

theorem zeroWhereBadN_alike {P : Nat → Nat → Prop} {flags : Int} {x y : Img Flt} {b : Img ℚ} (h : Alike P x y) :
    (∃ e, zeroWhereBadN flags x b = .error e ∧ zeroWhereBadN flags y b = .error e) ∨
    ∃ x' y', zeroWhereBadN flags x b = .ok x' ∧ zeroWhereBadN flags y b = .ok y' ∧ Alike P x' y' := by
  obtain ⟨h1, h2, _, _, h5⟩ := h
  unfold zeroWhereBadN
  rw [h1, h2]
  split
  · exact .inl ⟨_, rfl, rfl⟩
  · exact .inr ⟨_, _, rfl, rfl, Alike.ofFn (fun r c hp => by rw [h5 r c hp])⟩

theorem readImageN_alike {P : Nat → Nat → Prop} {fl fl' : FltPlanes} {im : SrcImage} {t : String} (hb : fl "bkg" = fl' "bkg") (h : AlikeR P (readOneImageN fl t) (readOneImageN fl' t)) :
    AlikeR P (readImageN cfg fl im t) (readImageN cfg fl' im t) := by
  have hb' : readOneImageN fl' "bkg" = readOneImageN fl "bkg" := by unfold readOneImageN; rw [hb]
  unfold readImageN
  rw [hb']
  generalize readOneImageN fl t = a at h
  generalize readOneImageN fl' t = a' at h
  generalize readOneImageN fl "bkg" = bk
  generalize readOneImage im "bmask" = bm
  cases h with
  | err e => exact .err e
  | none =>
    simp only [Res.ok_bind]
    split
    · cases bk with
      | error e => exact .err e
      | ok b => exact .err _
    · split
      · split
        · exact .err _
        · split
          · exact .err _
          · cases bm with
            | error e => exact .err e
            | ok b => exact .err _
      · exact .none
  | @some x y hxy =>
    simp only [Res.ok_bind]
    split
    · cases bk with
      | error e => exact .err e
      | ok b =>
        simp only [Res.ok_bind]
        cases b with
        | none => exact .some (hxy.map _)
        | some b =>
          dsimp only
          rcases subBkgN_alike (b := b) hxy with ⟨e, h1, h2⟩ | ⟨x', y', h1, h2, h3⟩
          · rw [h1, h2]; exact .err e
          · rw [h1, h2]; exact .some (h3.map _)
    · split
      · split
        · exact .err _
        · split
          · exact .some (hxy.map _)
          · cases bm with
            | error e => exact .err e
            | ok b =>
              simp only [Res.ok_bind]
              cases b with
              | none => exact .some (hxy.map _)
              | some b =>
                dsimp only
                rename_i flags _
                rcases zeroWhereBadN_alike (flags := flags) (b := b) hxy with ⟨e, h1, h2⟩ | ⟨x', y', h1, h2, h3⟩
                · rw [h1, h2]; exact .err e
                · rw [h1, h2]; exact .some (h3.map _)
      · exact .some hxy

theorem alike_of_sameBut {j r c : Nat} (h : SameBut j r c fl fl') (h1 : PlanesWF fl) (h2 : PlanesWF fl') (j' : Nat) (t : String) :
    AlikeR (fun r' c' => ¬ (j' = j ∧ r' = r ∧ c' = c)) (readOneImageN (fl j') t) (readOneImageN (fl' j') t) := by
  have h3 := h.2 j' t
  have h1 := h1 j' t
  have h2 := h2 j' t
  unfold readOneImageN
  generalize fl j' t = a at h1 h3
  generalize fl' j' t = b at h2 h3
  match a, b with
  | .none, .none => exact .err _
  | .some .none, .some .none => exact .none
  | .some (.some x), .some (.some y) =>
    obtain ⟨e1, e2, e3⟩ := h3
    exact .some ⟨e1, e2, h1 x rfl, h2 y rfl, e3⟩
  | .none, .some _ => exact h3.elim
  | .some .none, .none => exact h3.elim
  | .some .none, .some (.some _) => exact h3.elim
  | .some (.some _), .none => exact h3.elim
  | .some (.some _), .some .none => exact h3.elim

theorem list_unit_ext {l l' : List Unit} (h : l.length = l'.length) : l = l' := by
  apply List.ext_getElem h
  intro i _ _
  rfl

theorem AlikeR.shape {P : Nat → Nat → Prop} {a b : Res (Option (Img Flt))} (h : AlikeR P a b) :
    a.map (Option.map (Img.map (fun _ => ()))) = b.map (Option.map (Img.map (fun _ => ()))) := by
  cases h with
  | err e => rfl
  | none => rfl
  | @some x y h =>
    obtain ⟨h1, h2, h3, h4, _⟩ := h
    show Except.ok (Option.some _) = Except.ok (Option.some _)
    congr 2
    unfold Img.map
    rw [h1, h2]
    congr 1
    apply list_unit_ext
    simp only [List.length_map]
    rw [show x.flat.length = _ from h3, show y.flat.length = _ from h4, h1, h2]

theorem mapRes_unit {α β γ : Type} {f : α → Res β} {f' : α → Res γ} {l : List α} (h : ∀ x, (f x).map (fun _ => ()) = (f' x).map (fun _ => ())) :
    (mapRes f l).map (fun _ => ()) = (mapRes f' l).map (fun _ => ()) := by
  induction l with
  | nil => rfl
  | cons x l ih =>
    have hx := h x
    unfold mapRes
    cases e1 : f x with
    | error e =>
      rw [e1] at hx
      cases e2 : f' x with
      | error e' => rw [e2] at hx; injection hx with hx; subst hx; rfl
      | ok y => rw [e2] at hx; cases hx
    | ok y =>
      rw [e1] at hx
      cases e2 : f' x with
      | error e' => rw [e2] at hx; cases hx
      | ok y' =>
        simp only [Res.ok_bind]
        cases e3 : mapRes f l with
        | error e =>
          rw [e3] at ih
          cases e4 : mapRes f' l with
          | error e' => rw [e4] at ih; injection ih with ih; subst ih; rfl
          | ok _ => rw [e4] at ih; cases ih
        | ok z =>
          rw [e3] at ih
          cases e4 : mapRes f' l with
          | error e' => rw [e4] at ih; cases ih
          | ok _ => rfl

theorem except_map_map {ε α β γ : Type} (a : Except ε α) (p : α → β) (q : β → γ) : (a.map p).map q = a.map (fun x => q (p x)) := by
  cases a <;> rfl

theorem num_getD (o : Option ℚ) : (o.map Flt.num).getD (.num 0) = .num (o.getD 0) := by cases o <;> rfl

theorem subBkgN_num (x b : Img ℚ) : subBkgN (x.map .num) (b.map .num) = (subBkg x b).map (Img.map .num) := by
  unfold subBkgN subBkg
  show (if (b.nr = x.nr ∨ b.nr = 1) ∧ (b.nc = x.nc ∨ b.nc = 1) then _ else _) = _
  split
  · show Except.ok _ = Except.ok _
    congr 1
    rw [img_ofFn_map]
    congr 1
    funext r c
    rw [img_map_get?, img_map_get?, num_getD, num_getD]
    rfl
  · rfl

theorem zeroWhereBadN_num (flags : Int) (x b : Img ℚ) : zeroWhereBadN flags (x.map .num) b = (zeroWhereBad flags x b).map (Img.map .num) := by
  unfold zeroWhereBadN zeroWhereBad
  show (if badOutside flags b x.nr x.nc then _ else _) = _
  split
  · rfl
  · show Except.ok _ = Except.ok _
    congr 1
    rw [img_ofFn_map]
    congr 1
    funext r c
    rw [img_map_get?, num_getD]
    cases b.get? r c with
    | none => rfl
    | some v =>
      dsimp only
      split <;> rfl

theorem img_map_num (x : Img ℚ) (w : ℚ) : (x.map Flt.num).map (fun v => v.mul (.num w)) = (x.map (fun v => v * w)).map .num := by
  unfold Img.map
  simp only [List.map_map]
  rfl

theorem readImageN_num {fl : FltPlanes} {im : SrcImage} (h : ∀ t, fl t = (im.plane t).map (Option.map (Img.map .num))) (hs : im.info.scale ≠ 0) (t : String) :
    readImageN cfg fl im t = (readImage cfg im t).map (Option.map (Img.map .num)) := by
  have h1 : ∀ t, readOneImageN fl t = (readOneImage im t).map (Option.map (Img.map .num)) := by
    intro t
    unfold readOneImageN readOneImage
    rw [h t]
    cases im.plane t <;> rfl
  unfold readImageN readImage
  have e : Flt.invSquare im.info.scale = .num (1 / im.info.scale ^ 2) := if_neg hs
  rw [h1, h1, e]
  generalize readOneImage im t = a
  generalize readOneImage im "bkg" = b
  generalize readOneImage im "bmask" = m
  cases a with
  | error e => rfl
  | ok a =>
    simp only [Except.map, Res.ok_bind]
    by_cases h1 : t = "image"
    · rw [if_pos h1, if_pos h1]
      cases b with
      | error e => rfl
      | ok b =>
        simp only [Res.ok_bind]
        cases a with
        | none => rfl
        | some x =>
          cases b with
          | none => exact congrArg (fun z => Except.ok (some z)) (img_map_num x _)
          | some b =>
            simp only [Option.map]
            rw [subBkgN_num]
            cases subBkg x b with
            | error e => rfl
            | ok y => exact congrArg (fun z => Except.ok (some z)) (img_map_num y _)
    · rw [if_neg h1, if_neg h1]
      by_cases h2 : t = "weight"
      · rw [if_pos h2, if_pos h2]
        split
        · rfl
        · cases cfg.unusableBmask with
          | none =>
            cases a with
            | none => rfl
            | some x => exact congrArg (fun z => Except.ok (some z)) (img_map_num x _)
          | some flags =>
            cases m with
            | error e => rfl
            | ok b =>
              simp only [Res.ok_bind]
              cases a with
              | none => rfl
              | some x =>
                cases b with
                | none => exact congrArg (fun z => Except.ok (some z)) (img_map_num x _)
                | some b =>
                  simp only [Option.map]
                  rw [zeroWhereBadN_num]
                  cases zeroWhereBad flags x b with
                  | error e => rfl
                  | ok y => exact congrArg (fun z => Except.ok (some z)) (img_map_num y _)
      · rw [if_neg h2, if_neg h2]

end Meds
