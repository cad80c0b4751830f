import Verif.Lemmas.Memory
import Verif.Props.CompositeMosaic
import Verif.Examples.Composite

/-!
# The arrays that a reader hands out (C117)
-/

namespace Meds.Memory
open Meds.MEDS

theorem newArrays_alloc (μ : Mem ℚ) {im : Img ℚ} (hw : im.WF) : NewArrays μ (alloc μ im).1 [(alloc μ im).2] where
  held := by
    intro v hv
    rw [List.mem_singleton.mp hv]
    exact held_alloc μ hw
  apart := by simp
  old := by
    intro u hu
    refine ⟨hu.append _, read_append_old hu _, ?_⟩
    intro v hv
    rw [List.mem_singleton.mp hv]
    exact Or.inl (Nat.ne_of_lt hu.lt)

theorem getMosaic_WF {m : MEDS} {i : Int} {t : String} {im : Img ℚ} (h : m.getMosaic i t = .ok im) : im.WF := by
  unfold MEDS.getMosaic at h
  obtain ⟨_, _, h⟩ := Res.bind_eq_ok.mp h
  obtain ⟨_, _, h⟩ := Res.bind_eq_ok.mp h
  obtain ⟨_, _, h⟩ := Res.bind_eq_ok.mp h
  obtain ⟨_, _, h⟩ := Res.bind_eq_ok.mp h
  obtain ⟨_, _, h⟩ := Res.bind_eq_ok.mp h
  obtain ⟨h1, h2, h3, rfl⟩ := reshape_ok h
  show _ = _
  dsimp only
  rw [← Int.toNat_mul h1 h2]
  omega

/-- The mosaic and the coadd's cutout of one object have the same width. -/
theorem same_box {m : MEDS} {i : Int} {mosaic seg : Img ℚ} (h : m.getMosaic i "seg" = .ok mosaic) (hs : m.getCutout i 0 "seg" = .ok seg) :
    seg.nr = mosaic.nc ∧ seg.nc = mosaic.nc := by
  unfold MEDS.getMosaic at h
  obtain ⟨_, _, h⟩ := Res.bind_eq_ok.mp h
  obtain ⟨o, ho, h⟩ := Res.bind_eq_ok.mp h
  obtain ⟨_, _, h⟩ := Res.bind_eq_ok.mp h
  obtain ⟨_, _, h⟩ := Res.bind_eq_ok.mp h
  obtain ⟨_, _, h⟩ := Res.bind_eq_ok.mp h
  obtain ⟨_, _, _, rfl⟩ := reshape_ok h
  unfold MEDS.getCutout at hs
  rw [if_neg (by decide)] at hs
  obtain ⟨_, _, hs⟩ := Res.bind_eq_ok.mp hs
  rw [ho] at hs
  obtain ⟨_, h1, hs⟩ := Res.bind_eq_ok.mp hs
  injection h1 with h1
  subst h1
  obtain ⟨_, _, hs⟩ := Res.bind_eq_ok.mp hs
  obtain ⟨_, _, hs⟩ := Res.bind_eq_ok.mp hs
  obtain ⟨_, _, hs⟩ := Res.bind_eq_ok.mp hs
  obtain ⟨_, _, _, rfl⟩ := reshape_ok hs
  exact ⟨rfl, rfl⟩

theorem getPsf_WF {m : MEDS} {i k : Int} {im : Img ℚ} (h : m.getPsf i k = .ok im) : im.WF := by
  unfold MEDS.getPsf at h
  split at h
  · obtain ⟨_, _, h⟩ := Res.bind_eq_ok.mp h
    obtain ⟨_, _, h⟩ := Res.bind_eq_ok.mp h
    obtain ⟨_, _, h⟩ := Res.bind_eq_ok.mp h
    obtain ⟨_, _, h⟩ := Res.bind_eq_ok.mp h
    obtain ⟨h1, h2, h3, rfl⟩ := reshape_ok h
    show _ = _
    dsimp only
    rw [← Int.toNat_mul h1 h2]
    omega
  · cases h

theorem getCutout_WF {m : MEDS} {i k : Int} {t : String} {im : Img ℚ} (h : m.getCutout i k t = .ok im) : im.WF := by
  unfold MEDS.getCutout at h
  split at h
  · exact getPsf_WF h
  · obtain ⟨_, _, h⟩ := Res.bind_eq_ok.mp h
    obtain ⟨_, _, h⟩ := Res.bind_eq_ok.mp h
    obtain ⟨_, _, h⟩ := Res.bind_eq_ok.mp h
    obtain ⟨_, _, h⟩ := Res.bind_eq_ok.mp h
    obtain ⟨_, _, h⟩ := Res.bind_eq_ok.mp h
    obtain ⟨h1, h2, h3, rfl⟩ := reshape_ok h
    show _ = _
    dsimp only
    rw [← Int.toNat_mul h1 h2]
    omega

theorem returns_alloc {μ : Mem ℚ} {x : Res (Img ℚ)} (hw : ∀ im, x = .ok im → im.WF) :
    Returns μ (one (x.map (alloc μ))) (x.map (fun im => [im])) := by
  cases x with
  | error e => exact rfl
  | ok im =>
    have hw := hw im rfl
    exact ⟨newArrays_alloc μ hw, by show [(alloc μ im).2.read (alloc μ im).1] = [im]; rw [read_alloc μ hw]⟩

theorem bind_alloc {μ : Mem ℚ} (x : Res (Img ℚ)) : (x >>= fun im => Except.ok (alloc μ im)) = x.map (alloc μ) := by
  cases x <;> rfl

/-- **C117** `get_cutout` returns a new array. -/
theorem C117_cutout (m : MEDS) (μ : Mem ℚ) (iobj icutout : Int) (type : String) :
    Returns μ (one (getCutout m μ iobj icutout type)) ((m.getCutout iobj icutout type).map (fun im => [im])) := by
  unfold getCutout
  rw [bind_alloc]
  exact returns_alloc (fun im h => getCutout_WF h)

/-- **C117** `get_mosaic` returns a new array. -/
theorem C117_mosaic (m : MEDS) (μ : Mem ℚ) (iobj : Int) (type : String) :
    Returns μ (one (getMosaic m μ iobj type)) ((m.getMosaic iobj type).map (fun im => [im])) := by
  unfold getMosaic
  rw [bind_alloc]
  exact returns_alloc (fun im h => getMosaic_WF h)

/-- The parts of a new array are new arrays. -/
theorem returns_split {μ : Mem ℚ} {x : Res (Img ℚ)} (hw : ∀ im, x = .ok im → im.WF) :
    Returns μ (x.map (alloc μ) >>= fun r => splitMosaic r.2 >>= fun vs => Except.ok (r.1, vs)) (x >>= fun im => Meds.splitMosaic im) := by
  cases x with
  | error e => exact rfl
  | ok im =>
    have hw := hw im rfl
    show Returns μ (splitMosaic (alloc μ im).2 >>= fun vs => Except.ok ((alloc μ im).1, vs)) (Meds.splitMosaic im)
    have h := splitMosaic_read (alloc μ im).2 (alloc μ im).1
    rw [read_alloc μ hw] at h
    rw [h]
    cases hs : splitMosaic (alloc μ im).2 with
    | error e => exact rfl
    | ok vs =>
      have hn := newArrays_alloc μ hw
      refine ⟨⟨splitMosaic_held (held_alloc μ hw) hs, splitMosaic_apart hs, ?_⟩, rfl⟩
      intro u hu
      obtain ⟨h1, h2, _⟩ := hn.old u hu
      refine ⟨h1, h2, fun v hv => Or.inl ?_⟩
      rw [splitMosaic_buf hs v hv]
      exact Nat.ne_of_lt hu.lt

theorem psf_loop (m : MEDS) (iobj : Int) (μ : Mem ℚ) : ∀ (l : List Nat) (μ1 : Mem ℚ) (vs : List View) (ims : List (Img ℚ)),
    NewArrays μ μ1 vs → vs.map (·.read μ1) = ims →
    Returns μ (foldRes (psfStep m iobj) (μ1, vs) l) ((mapRes (fun k : Nat => m.getPsf iobj k) l).map (fun r => ims ++ r)) := by
  intro l
  induction l with
  | nil =>
    intro μ1 vs ims hn hv
    exact ⟨hn, by rw [hv]; simp⟩
  | cons k t ih =>
    intro μ1 vs ims hn hv
    unfold foldRes mapRes psfStep
    cases hp : m.getPsf iobj (k : Int) with
    | error e => exact rfl
    | ok im =>
      have hw := getPsf_WF hp
      simp only [Res.ok_bind]
      have hn' : NewArrays μ (alloc μ1 im).1 (vs ++ [(alloc μ1 im).2]) := by
        refine ⟨?_, ?_, ?_⟩
        · intro v hv
          rcases List.mem_append.mp hv with hv | hv
          · exact (hn.held v hv).append _
          · rw [List.mem_singleton.mp hv]; exact held_alloc μ1 hw
        · rw [List.pairwise_append]
          refine ⟨hn.apart, by simp, ?_⟩
          intro a ha b hb
          rw [List.mem_singleton.mp hb]
          exact Or.inl (Nat.ne_of_lt (hn.held a ha).lt)
        · intro u hu
          obtain ⟨h1, h2, h3⟩ := hn.old u hu
          refine ⟨h1.append _, (read_append_old h1 _).trans h2, ?_⟩
          intro v hv
          rcases List.mem_append.mp hv with hv | hv
          · exact h3 v hv
          · rw [List.mem_singleton.mp hv]; exact Or.inl (Nat.ne_of_lt h1.lt)
      have hv' : (vs ++ [(alloc μ1 im).2]).map (·.read (alloc μ1 im).1) = ims ++ [im] := by
        rw [List.map_append, ← hv, List.map_cons, List.map_nil, read_alloc μ1 hw]
        congr 1
        exact List.map_congr_left (fun v hv => read_append_old (hn.held v hv) _)
      have := ih _ _ _ hn' hv'
      unfold psfStep at this
      cases hr : mapRes (fun k : Nat => m.getPsf iobj k) t with
      | error e => rw [hr] at this; exact this
      | ok r =>
        rw [hr] at this
        simp only [Except.map, List.append_assoc, List.singleton_append] at this ⊢
        exact this

/-- **C117** `get_cutout_list` returns new arrays: each holds one cutout, and no two of them share memory, although (but for PSFs) they are parts of one mosaic. -/
theorem C117_list (m : MEDS) (μ : Mem ℚ) (iobj : Int) (type : String) :
    Returns μ (getCutoutList m μ iobj type) (m.getCutoutList iobj type) := by
  unfold getCutoutList MEDS.getCutoutList
  split
  · unfold MEDS.getPsfList
    cases hr : m.row iobj with
    | error e => exact rfl
    | ok o =>
      simp only [Res.ok_bind]
      have := psf_loop m iobj μ (List.range o.ncutout.toNat) μ [] []
        ⟨by simp, List.Pairwise.nil, fun u hu => ⟨hu, rfl, by simp⟩⟩ rfl
      cases hp : mapRes (fun k : Nat => m.getPsf iobj k) (List.range o.ncutout.toNat) with
      | error e => rw [hp] at this; exact this
      | ok r => rw [hp] at this; exact this
  · unfold getMosaic
    rw [bind_alloc]
    exact returns_split (fun im h => getMosaic_WF h)

/-- **C117** Storing pixels: an array sees its own pixel change. -/
theorem C117_store {α : Type} {μ : Mem α} {v : View} (hv : Held μ v) {i j : Nat} (hi : i < v.nr) (hj : j < v.nc) (x : α) (i' j' : Nat) :
    (v.read (v.set μ i j x)).get? i' j' = if i' = i ∧ j' = j then some x else (v.read μ).get? i' j' := by
  have hlt : ∀ a b, a < v.nr → b < v.nc → a * v.nc + b < v.nr * v.nc := by
    intro a b ha hb
    have : (a + 1) * v.nc ≤ v.nr * v.nc := Nat.mul_le_mul_right _ ha
    rw [Nat.add_mul] at this
    omega
  have hlen := read_length hv
  rw [set_eq_write hv hi hj, read_write_self hv (by rw [List.length_set, hlen])]
  unfold Img.get?
  dsimp only
  rw [read_nr, read_nc]
  by_cases h : i' < v.nr ∧ j' < v.nc
  · rw [if_pos h, if_pos h, List.getElem?_set]
    by_cases h2 : i' = i ∧ j' = j
    · rw [if_pos h2, h2.1, h2.2, if_pos rfl, if_pos (by rw [hlen]; exact hlt i j hi hj)]
    · rw [if_neg h2, if_neg]
      intro e
      apply h2
      have h3 : i' = i := by
        have h4 : (i * v.nc + j) / v.nc = (i' * v.nc + j') / v.nc := by rw [e]
        have h5 : ∀ a b, b < v.nc → (a * v.nc + b) / v.nc = a := by
          intro a b hb
          rw [Nat.mul_comm, Nat.mul_add_div (by omega), Nat.div_eq_of_lt hb, Nat.add_zero]
        rw [h5 i j hj, h5 i' j' h.2] at h4
        exact h4.symm
      subst h3
      exact ⟨rfl, by omega⟩
  · rw [if_neg h, if_neg h, if_neg]
    rintro ⟨rfl, rfl⟩
    exact h ⟨hi, hj⟩

theorem Held.set {α : Type} {μ : Mem α} {v w : View} (hv : Held μ v) (hw : Held μ w) {i j : Nat} (hi : i < v.nr) (hj : j < v.nc) (x : α) :
    Held (v.set μ i j x) w := by
  rw [set_eq_write hv hi hj]
  exact hv.write hw (by rw [List.length_set, read_length hv])

/-- **C117** Storing pixels: whatever is stored into some arrays, an array that shares no memory with them stays as it is. -/
theorem C117_others {α : Type} {μ : Mem α} {w : View} : ∀ {l : List (View × Nat × Nat × α)},
    (∀ s ∈ l, Held μ s.1 ∧ s.2.1 < s.1.nr ∧ s.2.2.1 < s.1.nc ∧ Apart s.1 w) → w.read (stores μ l) = w.read μ := by
  intro l
  induction l generalizing μ with
  | nil => intro _; rfl
  | cons s t ih =>
    intro h
    obtain ⟨h1, h2, h3, h4⟩ := h s (by simp)
    show w.read (stores (s.1.set μ s.2.1 s.2.2.1 s.2.2.2) t) = _
    rw [ih]
    · rw [set_eq_write h1 h2 h3]
      exact read_write_apart h1 (by rw [List.length_set, read_length h1]) h4
    · intro s' hs'
      obtain ⟨g1, g2⟩ := h s' (by simp [hs'])
      exact ⟨h1.set g1 h2 h3 _, g2⟩

/-! ### Functions that work in place on a mosaic -/

/-- The loop keeps the shape of every part. -/
def KeepsShape (f : Nat → Img ℚ → Res (Img ℚ)) (n : Nat) : Prop :=
  ∀ i x c, x.nr = n → x.nc = n → x.WF → f i x = .ok c → c.nr = n ∧ c.nc = n ∧ c.WF

theorem parts_length {f : Nat → Img ℚ → Res (Img ℚ)} {mosaic : Img ℚ} (hw : mosaic.WF) (hf : KeepsShape f mosaic.nc) {parts : List (Img ℚ)}
    (hp : mapRes (fun i => f i (mosaic.rowSlice (i * mosaic.nc) ((i + 1) * mosaic.nc))) (List.range (mosaic.nr / mosaic.nc)) = .ok parts) :
    ((parts.map (·.flat)).flatten).length = mosaic.nr / mosaic.nc * (mosaic.nc * mosaic.nc) := by
  have hl := mapRes_length hp
  rw [List.length_range] at hl
  rw [← hl]
  apply vstack_flat_length
  intro im him
  obtain ⟨k, hk, rfl⟩ := List.mem_iff_getElem.mp him
  obtain ⟨k', hk', hg⟩ := mapRes_getElem?_inv hp (List.getElem?_eq_getElem hk)
  have hkl : k < mosaic.nr / mosaic.nc := by omega
  rw [List.getElem?_range hkl] at hk'
  injection hk' with hk'
  subst hk'
  have hv : ((alloc [] mosaic).2.rows (k * mosaic.nc) ((k + 1) * mosaic.nc)).read (alloc [] mosaic).1 = mosaic.rowSlice (k * mosaic.nc) ((k + 1) * mosaic.nc) := by
    have hr := read_rows (alloc [] mosaic).2 (alloc [] mosaic).1 (r1 := k * mosaic.nc) (r2 := (k + 1) * mosaic.nc)
      (Nat.mul_le_mul_right _ (Nat.le_succ k)) (part_le (v := (alloc [] mosaic).2) hkl)
    rw [hr, read_alloc [] hw]
  have hle1 : (k + 1) * mosaic.nc ≤ mosaic.nr := part_le (v := (alloc [] mosaic).2) hkl
  refine hf k (mosaic.rowSlice (k * mosaic.nc) ((k + 1) * mosaic.nc)) _ ?_ rfl ?_ hg
  · show min ((k + 1) * mosaic.nc) mosaic.nr - k * mosaic.nc = mosaic.nc
    rw [Nat.min_eq_left hle1, Nat.add_mul]
    omega
  · rw [← hv]
    exact read_WF ((held_alloc [] hw).rows (Nat.mul_le_mul_right _ (Nat.le_succ k)) hle1)

/-- The same on values: split, work on the parts, put them back. -/
def replaceParts (f : Nat → Img ℚ → Res (Img ℚ)) (mosaic : Img ℚ) : Res (Img ℚ) :=
  Meds.splitMosaic mosaic >>= fun wl => mapRes (fun x : Img ℚ × Nat => f x.2 x.1) wl.zipIdx >>= fun parts => Except.ok (putBack mosaic parts)

theorem replaceParts_eq (f : Nat → Img ℚ → Res (Img ℚ)) (mosaic : Img ℚ) :
    replaceParts f mosaic = if mosaic.nc = 0 then .error .zeroDivision else
      mapRes (fun i => f i (mosaic.rowSlice (i * mosaic.nc) ((i + 1) * mosaic.nc))) (List.range (mosaic.nr / mosaic.nc)) >>= fun parts =>
        Except.ok (putBack mosaic parts) := by
  unfold replaceParts Meds.splitMosaic
  dsimp only
  split
  · rfl
  · simp only [Res.ok_bind]
    rw [zipIdx_map_range, mapRes_map]

theorem replaceParts_WF {f : Nat → Img ℚ → Res (Img ℚ)} {mosaic r : Img ℚ} (hw : mosaic.WF) (hf : KeepsShape f mosaic.nc) (h : replaceParts f mosaic = .ok r) :
    r.WF := by
  have hw' : mosaic.flat.length = mosaic.nr * mosaic.nc := hw
  rw [replaceParts_eq] at h
  split at h
  · cases h
  · obtain ⟨parts, hp, h⟩ := Res.bind_eq_ok.mp h
    injection h with h
    subst h
    have hl := parts_length hw hf hp
    show (putBack mosaic parts).flat.length = mosaic.nr * mosaic.nc
    unfold putBack
    dsimp only
    have hle : mosaic.nr / mosaic.nc * (mosaic.nc * mosaic.nc) ≤ mosaic.nr * mosaic.nc := by
      rw [← Nat.mul_assoc]
      exact Nat.mul_le_mul_right _ (Nat.div_mul_le_self _ _)
    rw [List.length_append, List.length_drop, hl, hw']
    omega

/-- Replacing the parts of a new mosaic one after the other, in place, leaves in memory what computing all of them first and putting them together would. -/
theorem replace_eq (f : Nat → Img ℚ → Res (Img ℚ)) (μ : Mem ℚ) {mosaic : Img ℚ} (hw : mosaic.WF) (hf : KeepsShape f mosaic.nc) :
    (splitMosaic (alloc μ mosaic).2 >>= fun wl => foldRes (replaceStep f) (alloc μ mosaic).1 wl.zipIdx >>= fun μ' => Except.ok (μ', (alloc μ mosaic).2)) =
      (replaceParts f mosaic).map (alloc μ) := by
  have hw' : mosaic.flat.length = mosaic.nr * mosaic.nc := hw
  rw [replaceParts_eq]
  unfold splitMosaic
  show (if mosaic.nc = 0 then _ else _) >>= _ = _
  by_cases h0 : mosaic.nc = 0
  · rw [if_pos h0, if_pos h0]; rfl
  · rw [if_neg h0, if_neg h0]
    simp only [Res.ok_bind]
    rw [zipIdx_map_range]
    have hle : (0 + mosaic.nr / mosaic.nc) * mosaic.nc ≤ mosaic.nr := by rw [Nat.zero_add]; exact Nat.div_mul_le_self _ _
    have key := replace_loop f μ mosaic.flat mosaic.nr mosaic.nc hf hw' (mosaic.nr / mosaic.nc) 0 [] (by simp) hle
    rw [Nat.zero_mul, List.drop_zero, List.nil_append, ← List.range_eq_range'] at key
    show foldRes (replaceStep f) (μ ++ [mosaic.flat]) ((List.range (mosaic.nr / mosaic.nc)).map (fun i => (View.rows ⟨μ.length, 0, mosaic.nr, mosaic.nc⟩ (i * mosaic.nc) ((i + 1) * mosaic.nc), i))) >>= _ = _
    rw [key]
    cases hp : mapRes (fun i => f i (mosaic.rowSlice (i * mosaic.nc) ((i + 1) * mosaic.nc))) (List.range (mosaic.nr / mosaic.nc)) with
    | error e => rfl
    | ok parts =>
      simp only [Except.map, Res.ok_bind]
      have hlen := parts_length hw hf hp
      unfold putBack alloc
      dsimp only
      rw [hlen, List.nil_append, Nat.zero_add]

theorem composite_keeps (m : MEDS) (iobj : Int) (seg : Img ℚ) (r : Bool) (n : Nat) : KeepsShape (fun k x => m.makeComposite iobj k x seg r) n := by
  intro i x c h1 h2 hw h
  obtain ⟨a, b, d⟩ := makeComposite_shape h
  exact ⟨a.trans h1, b.trans h2, d hw⟩

theorem cweight_eq (m : MEDS) (μ : Mem ℚ) (iobj : Int) (restrict : Bool) :
    getCweightMosaic m μ iobj restrict = (m.getCweightMosaic iobj restrict).map (alloc μ) ∧ ∀ im, m.getCweightMosaic iobj restrict = .ok im → im.WF := by
  unfold getCweightMosaic MEDS.getCweightMosaic getMosaic
  cases hm : m.getMosaic iobj "weight" with
  | error e => exact ⟨rfl, fun im h => by cases h⟩
  | ok mosaic =>
    simp only [Res.ok_bind]
    cases hs : m.getCutout iobj 0 "seg" with
    | error e => exact ⟨rfl, fun im h => by cases h⟩
    | ok seg =>
      simp only [Res.ok_bind]
      exact ⟨replace_eq _ μ (getMosaic_WF hm) (composite_keeps m iobj seg restrict _),
        fun im h => replaceParts_WF (getMosaic_WF hm) (composite_keeps m iobj seg restrict _) h⟩

theorem cseg_eq (m : MEDS) (μ : Mem ℚ) (iobj : Int) :
    getCsegMosaic m μ iobj = (m.getCsegMosaic iobj).map (alloc μ) ∧ ∀ im, m.getCsegMosaic iobj = .ok im → im.WF := by
  unfold getCsegMosaic MEDS.getCsegMosaic getMosaic
  cases hm : m.getMosaic iobj "seg" with
  | error e => exact ⟨rfl, fun im h => by cases h⟩
  | ok mosaic =>
    simp only [Res.ok_bind]
    cases hn : m.getNumber iobj with
    | error e => exact ⟨rfl, fun im h => by cases h⟩
    | ok n =>
      simp only [Res.ok_bind]
      cases hs : m.getCutout iobj 0 "seg" with
      | error e => exact ⟨rfl, fun im h => by cases h⟩
      | ok seg =>
        simp only [Res.ok_bind]
        have hw' : mosaic.flat.length = mosaic.nr * mosaic.nc := getMosaic_WF hm
        have hfill : (alloc μ mosaic).2.write (alloc μ mosaic).1 (List.replicate ((alloc μ mosaic).2.nr * (alloc μ mosaic).2.nc) (n : ℚ)) =
            (alloc μ (mosaic.map (fun _ => (n : ℚ)))).1 := by
          unfold View.write alloc
          dsimp only
          rw [modify_last]
          congr 2
          simp [Img.map, ← hw']
        rw [hfill]
        have hw2 : (mosaic.map (fun _ => (n : ℚ))).WF := by
          show (mosaic.flat.map _).length = mosaic.nr * mosaic.nc
          rw [List.length_map, hw']
        exact ⟨replace_eq _ μ hw2 (composite_keeps m iobj seg false _), fun im h => replaceParts_WF hw2 (composite_keeps m iobj seg false _) h⟩

theorem interp_eq (m : MEDS) (μ : Mem ℚ) (iobj : Int) :
    interpolateCoaddSegMosaic m μ iobj = (m.interpolateCoaddSegMosaic iobj).map (alloc μ) ∧ ∀ im, m.interpolateCoaddSegMosaic iobj = .ok im → im.WF := by
  unfold interpolateCoaddSegMosaic MEDS.interpolateCoaddSegMosaic getMosaic
  cases hm : m.getMosaic iobj "seg" with
  | error e => exact ⟨rfl, fun im h => by cases h⟩
  | ok mosaic =>
    simp only [Res.ok_bind]
    have hk : KeepsShape (fun k seg => if k = 0 then .ok seg else m.interpolateCoaddSeg iobj k) mosaic.nc := by
      intro i x c h1 h2 hw h
      dsimp only at h
      split at h
      · injection h with h
        subst h
        exact ⟨h1, h2, hw⟩
      · rename_i hi
        unfold MEDS.interpolateCoaddSeg at h
        obtain ⟨seg, hs, h⟩ := Res.bind_eq_ok.mp h
        rw [if_neg (by omega)] at h
        obtain ⟨_, _, h⟩ := Res.bind_eq_ok.mp h
        obtain ⟨_, _, h⟩ := Res.bind_eq_ok.mp h
        obtain ⟨a, b, d⟩ := interpolateImage_shape hs h
        have e := same_box hm hs
        exact ⟨a.trans e.1, b.trans e.2, d⟩
    refine ⟨(replace_eq _ μ (getMosaic_WF hm) hk).trans ?_, fun im h => replaceParts_WF (getMosaic_WF hm) hk h⟩
    rfl

/-- **C117** `get_cweight_mosaic`, which works in place on the views of its mosaic, returns one new array with the values of the stack of composite weights. -/
theorem C117_cweight_mosaic (m : MEDS) (μ : Mem ℚ) (iobj : Int) (restrict : Bool) :
    Returns μ (one (getCweightMosaic m μ iobj restrict)) ((m.getCweightMosaic iobj restrict).map (fun im => [im])) := by
  rw [(cweight_eq m μ iobj restrict).1]
  exact returns_alloc (cweight_eq m μ iobj restrict).2

/-- **C117** `get_cweight_cutout_list` returns new arrays that share no memory. -/
theorem C117_cweight_list (m : MEDS) (μ : Mem ℚ) (iobj : Int) (restrict : Bool) :
    Returns μ (getCweightCutoutList m μ iobj restrict) (m.getCweightCutoutList iobj restrict) := by
  unfold getCweightCutoutList MEDS.getCweightCutoutList
  rw [(cweight_eq m μ iobj restrict).1]
  exact returns_split (cweight_eq m μ iobj restrict).2

/-- **C117** The same for `get_cseg_mosaic`. -/
theorem C117_cseg_mosaic (m : MEDS) (μ : Mem ℚ) (iobj : Int) :
    Returns μ (one (getCsegMosaic m μ iobj)) ((m.getCsegMosaic iobj).map (fun im => [im])) := by
  rw [(cseg_eq m μ iobj).1]
  exact returns_alloc (cseg_eq m μ iobj).2

/-- **C117** The same for `get_cseg_cutout_list`. -/
theorem C117_cseg_list (m : MEDS) (μ : Mem ℚ) (iobj : Int) :
    Returns μ (getCsegCutoutList m μ iobj) (m.getCsegCutoutList iobj) := by
  unfold getCsegCutoutList MEDS.getCsegCutoutList
  rw [(cseg_eq m μ iobj).1]
  exact returns_split (cseg_eq m μ iobj).2

/-- **C117** The same for `interpolate_coadd_seg_mosaic`. -/
theorem C117_interpolated (m : MEDS) (μ : Mem ℚ) (iobj : Int) :
    Returns μ (one (interpolateCoaddSegMosaic m μ iobj)) ((m.interpolateCoaddSegMosaic iobj).map (fun im => [im])) := by
  rw [(interp_eq m μ iobj).1]
  exact returns_alloc (interp_eq m μ iobj).2

/-- **C117** What a caller relies on: having got new arrays, it may store into some of them whatever it likes; the others, and the arrays it had before, stay as they are. -/
theorem C117_caller {α : Type} {μ μ' : Mem α} {vs : List View} (h : NewArrays μ μ' vs) {l : List (View × Nat × Nat × α)} {w : View} {S : List View}
    (hS : ∀ s ∈ l, s.1 ∈ S ∧ s.2.1 < s.1.nr ∧ s.2.2.1 < s.1.nc) :
    (∀ (k : Nat), vs[k]? = some w → (∀ u ∈ S, ∃ j, j ≠ k ∧ vs[j]? = some u) → w.read (stores μ' l) = w.read μ') ∧
    (Held μ w → (∀ u ∈ S, u ∈ vs) → w.read (stores μ' l) = w.read μ) := by
  constructor
  · intro k hk hj
    apply C117_others
    intro s hs
    obtain ⟨h1, h2, h3⟩ := hS s hs
    obtain ⟨j, hjk, hj⟩ := hj s.1 h1
    refine ⟨h.held _ (List.mem_of_getElem? hj), h2, h3, ?_⟩
    obtain ⟨hj', ej⟩ := List.getElem?_eq_some_iff.mp hj
    obtain ⟨hk', ek⟩ := List.getElem?_eq_some_iff.mp hk
    rw [← ej, ← ek]
    rcases Nat.lt_or_gt_of_ne hjk with hlt | hlt
    · exact List.pairwise_iff_getElem.mp h.apart j k hj' hk' hlt
    · exact (List.pairwise_iff_getElem.mp h.apart k j hk' hj' hlt).symm
  · intro hw hv
    obtain ⟨o1, o2, o3⟩ := h.old w hw
    rw [← o2]
    apply C117_others
    intro s hs
    obtain ⟨h1, h2, h3⟩ := hS s hs
    exact ⟨h.held _ (hv _ h1), h2, h3, (o3 _ (hv _ h1)).symm⟩

/-! ### Concrete cases -/

/-- How many arrays are handed out, in how many buffers, of which shapes. -/
def handed (call : Res (Mem ℚ × List View)) : Option (Nat × List (Nat × Nat × Nat × Nat)) :=
  match call with
  | .ok r => some (r.1.length, r.2.map (fun v => (v.buf, v.off, v.nr, v.nc)))
  | .error _ => none

/-- The cutouts of an object with two epochs are parts of one buffer; its PSFs lie in buffers of their own. -/
example : handed (getCutoutList Ex.segMed [[1]] 0 "image") = some (2, [(1, 0, 4, 4), (1, 16, 4, 4)]) := by decide +kernel
-- an array that is not square takes images of its own shape only
example : (View.mk 0 1 1 2).assign [[0, 0, 0, 0]] (Img.mk 1 2 [7, 8]) = .ok [[0, 7, 8, 0]] := by decide +kernel
example : (View.mk 0 1 1 2).assign [[0, 0, 0, 0]] (Img.mk 2 1 [7, 8]) = .error .valueError := by decide +kernel
example : handed (getCutoutList Ex.segMed [[1]] 0 "psf") = some (3, [(1, 0, 1, 2), (2, 0, 2, 2)]) := by decide +kernel
example : handed (one (getCutout Ex.segMed [[1]] 0 1 "weight")) = some (2, [(1, 0, 4, 4)]) := by decide +kernel
example : handed (one (getMosaic Ex.segMed [[1]] 0 "weight")) = some (2, [(1, 0, 8, 4)]) := by decide +kernel
example : handed (getCweightCutoutList Ex.segMed [[1]] 0 false) = some (2, [(1, 0, 4, 4), (1, 16, 4, 4)]) := by decide +kernel
example : handed (one (getCweightMosaic Ex.segMed [[1]] 0 true)) = some (2, [(1, 0, 8, 4)]) := by decide +kernel
example : handed (getCsegCutoutList Ex.segMed [[1]] 0) = some (2, [(1, 0, 4, 4), (1, 16, 4, 4)]) := by decide +kernel
example : handed (one (getCsegMosaic Ex.segMed [[1]] 0)) = some (2, [(1, 0, 8, 4)]) := by decide +kernel
example : handed (one (interpolateCoaddSegMosaic Ex.segMed [[1]] 0)) = some (2, [(1, 0, 8, 4)]) := by decide +kernel

/-- A store into the first cutout is seen there and in the mosaic's buffer, not in the second. -/
def storeTest : Bool :=
  match getCutoutList Ex.segMed [] 0 "image" with
  | .ok (μ, [v, w]) => decide ((v.read (v.set μ 1 2 7)).get? 1 2 = some 7) && decide ((v.read μ).get? 1 2 ≠ some 7) && decide (w.read (v.set μ 1 2 7) = w.read μ)
  | _ => false

example : storeTest = true := by decide +kernel

end Meds.Memory
