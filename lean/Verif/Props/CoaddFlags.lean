import Verif.Props.CoaddExtract
import Verif.Props.CoaddMade

/-!
# The record of the epochs in the catalogue of a coadd file (C112)
-/

namespace Meds.Coadd
open Spec Maker

/-- A list of cutouts has one entry per cutout. -/
theorem list_has_ncutout {m : MEDS} {i : Nat} {t : String} (ht : t ≠ "psf") {l : List (Img ℚ)} {o : ObjRow} (ho : m.cat.rows[i]? = some o)
    (h : m.getCutoutList i t = .ok l) : l.length = o.ncutout.toNat := by
  unfold MEDS.getCutoutList at h
  rw [if_neg ht] at h
  obtain ⟨mo, hm, h⟩ := Res.bind_eq_ok.mp h
  unfold MEDS.getMosaic at hm
  obtain ⟨_, _, hm⟩ := Res.bind_eq_ok.mp hm
  obtain ⟨o', ho', hm⟩ := Res.bind_eq_ok.mp hm
  rw [show m.row (i : Int) = .ok o from pyGet_nat_some ho] at ho'
  injection ho' with ho'
  subst ho'
  obtain ⟨_, _, hm⟩ := Res.bind_eq_ok.mp hm
  obtain ⟨_, _, hm⟩ := Res.bind_eq_ok.mp hm
  obtain ⟨fl, _, hm⟩ := Res.bind_eq_ok.mp hm
  obtain ⟨q1, q2, q3, q4⟩ := reshape_ok hm
  unfold splitMosaic at h
  simp only at h
  split at h
  · cases h
  · rename_i hb
    injection h with h
    subst h
    rw [List.length_map, List.length_range, q4]
    simp only
    have hb' : o.boxSize.toNat ≠ 0 := by rw [q4] at hb; exact hb
    have hbp : 0 < o.boxSize := by omega
    have hn : 0 ≤ o.ncutout := by
      rcases lt_or_ge o.ncutout 0 with h | h
      · have := mul_neg_of_neg_of_pos h hbp
        omega
      · exact h
    have : (o.ncutout * o.boxSize).toNat = o.ncutout.toNat * o.boxSize.toNat := Int.toNat_mul hn hbp.le
    rw [this, Nat.mul_div_cancel _ (by omega)]

/-- The record of epochs before the coaddition: a width that depends on the largest number of cutouts, and DEFVAL everywhere. -/
theorem init_flags {req : List String} {cast : String → ℚ → ℚ} {coadder : Nat → Res (Option CoaddObs × Int)} {np : Int} {md : String} {m : MEDS} {k : CMaker}
    (h : CMaker.init req cast coadder np md m = .ok k) :
    ∃ w : Nat, 2 ≤ w ∧ (∀ o ∈ m.cat.rows, o.ncutout - 1 ≤ w) ∧ (w = 2 ∨ ∃ o ∈ m.cat.rows, o.ncutout - 1 = w) ∧ ∀ (i : Nat) o, m.cat.rows[i]? = some o →
      ∃ c, k.rows[i]? = some c ∧ c.origFlags = List.replicate w DEFVAL ∧ c.origNcutout = o.ncutout - 1 ∧ c.ncoadd = 0 ∧ c.coaddFlags = 0 := by
  unfold CMaker.init at h
  obtain ⟨ts, h1, h⟩ := Res.bind_eq_ok.mp h
  obtain ⟨rows, h2, h⟩ := Res.bind_eq_ok.mp h
  injection h with h
  subst h
  unfold setObjData at h2
  obtain ⟨mx, h3, h2⟩ := Res.bind_eq_ok.mp h2
  obtain ⟨hle, o0, ho0, he⟩ := maxNcutout_ok h3
  split at h2
  · refine ⟨(max (mx - 1) 2).toNat, by omega, ?_, ?_, ?_⟩
    · intro o ho
      have := hle o ho
      omega
    · by_cases hm : mx - 1 ≤ 2
      · left; omega
      · right; exact ⟨o0, ho0, by omega⟩
    · intro i o ho
      obtain ⟨c, hc, hn⟩ := mapRes_getElem? h2 ho
      refine ⟨c, hc, ?_⟩
      unfold newRow at hn
      obtain ⟨s, hs, hn⟩ := Res.bind_eq_ok.mp hn
      injection hn with hn
      subst hn
      exact ⟨rfl, rfl, rfl, rfl⟩
  · cases h2

variable {k k' : CMaker} {lo hi : Nat} {m : MEDS} {f : Fits} {ext : Ext} {cfg : Cfg} {combine : List Obs → Stamp} {jm : MEDS.Mat2}

/-- The rows after the loop. -/
theorem written_rows (h : CoaddWritten k k' lo hi m f) :
    ∃ box : Nat → Int, (∀ i, ¬ (lo ≤ i ∧ i < hi) → k'.rows[i]? = k.rows[i]?) ∧ ∀ i, lo ≤ i → i < hi → ∃ c, k.rows[i]? = some c ∧
      ((∃ fl, k.coadder i = .ok (none, fl) ∧ k'.rows[i]? = some { c with coaddFlags := fl }) ∨
       ∃ obs fl, k.coadder i = .ok (some obs, fl) ∧
         k'.rows[i]? = some (fillRow c obs fl (before (stampPixels k.coadder box) lo i) (before (psfStampPixels k.coadder) lo i))) := by
  obtain ⟨req, np, md, hinit⟩ := h.init
  obtain ⟨ec, ed, ep, ei, em, et, etot, elen, erows⟩ := init_rows hinit
  obtain ⟨hty, _⟩ := loadTypes_supported et
  have hin := h.inside
  set box : Nat → Int := fun i => ((m.cat.rows[i]?).map (·.boxSize)).getD 1 with hbox
  have hboxrow : ∀ i o, m.cat.rows[i]? = some o → box i = o.boxSize := fun i o h => by simp [hbox, h]
  have hw := h.write
  unfold CMaker.write at hw
  obtain ⟨st, hst, hw⟩ := Res.bind_eq_ok.mp hw
  injection hw with hw
  injection hw with hk' hf
  unfold CMaker.writeCutouts at hst
  have hrowsome : ∀ i, i < hi → ∃ o, m.cat.rows[i]? = some o := fun i h => ⟨m.cat.rows[i], List.getElem?_eq_getElem (by omega)⟩
  have inv := writeCutouts_inv (box := box) hty (by
      intro i c hc
      have : i < k.rows.length := (List.getElem?_eq_some_iff.mp hc).1
      obtain ⟨c', s, h1, _, _, h2, _⟩ := erows i m.cat.rows[i] (List.getElem?_eq_getElem (by omega))
      rw [hc] at h1
      injection h1 with h1
      subst h1
      rw [h2, hboxrow i _ (List.getElem?_eq_getElem (by omega))]) (hi - lo) (by
      intro i h1 h2 obs hco
      obtain ⟨o, ho⟩ := hrowsome i (by omega)
      rw [hboxrow i o ho]
      exact h.good i o obs h1 (by omega) ho hco) (by
      intro i h1 h2
      obtain ⟨o, ho⟩ := hrowsome i (by omega)
      rw [hboxrow i o ho]
      exact h.pos o (List.mem_of_getElem? ho)) hst
  have hkr : k'.rows = st.rows := by rw [← hk']
  rw [hkr]
  refine ⟨box, fun i hi' => inv.others i (by omega), ?_⟩
  intro i h1 h2
  obtain ⟨c, hc, hcase⟩ := inv.done i h1 (by omega)
  refine ⟨c, hc, ?_⟩
  rcases hcase with hcase | ⟨obs, fl, g1, _, g2⟩
  · exact .inl hcase
  · exact .inr ⟨obs, fl, g1, g2⟩

/-- The list of flags that a coadd carries has one entry per epoch behind the coadd. -/
theorem imflags_length {i : Nat} {o : ObjRow} {c : CoaddObs} {fl : Int} (ho : m.cat.rows[i]? = some o) (hc : getCoaddObs ext cfg combine jm m i = .ok (some c, fl)) :
    (c.imflags.length : Int) = o.ncutout - 1 ∧ fl = 0 ∧ ∃ obs, getObslist ext cfg m i = .ok (obs, some c.imflags) ∧ c.ncoadd = obs.length := by
  obtain ⟨obs, flags, b, g1, g2, g3, g4, g5, _⟩ := C60_ormask hc
  subst g5
  refine ⟨?_, g3, obs, g1, g4⟩
  obtain ⟨⟨ims, i1, i2⟩, i3, i4, _⟩ := C46_zero_flags g1
  have hl := list_has_ncutout (by decide) ho i1
  have : 0 < c.imflags.length := by
    rcases Nat.eq_zero_or_pos c.imflags.length with h0 | h0
    · have hnil := List.length_eq_zero_iff.mp h0
      rw [hnil] at i3
      exact absurd (List.length_eq_zero_iff.mp i3) g2
    · exact h0
  omega

/-- **C112** (partial: objects with a coadd) The catalogue of a coadd file records the epochs of every coadded object: `orig_ncutout` is the number of epochs, the first
`orig_ncutout` entries of `orig_flags` are their flags - zero exactly for the epochs in the coadd - and the others -9999; `ncoadd` counts the zeros.  Missing:
objects without coadd, whose flags are lost, see `C112_not_coadded` and `C112_counterexample`. -/
theorem C112_coadded_partial (h : CoaddWritten k k' lo hi m f) (hco : ∀ i : Nat, k.coadder i = getCoaddObs ext cfg combine jm m i) {i : Nat} (h1 : lo ≤ i) (h2 : i < hi)
    {o : ObjRow} (ho : m.cat.rows[i]? = some o) {obs : List Obs} {flags : Option (List Int)} (hl : getObslist ext cfg m i = .ok (obs, flags)) (hne : obs ≠ []) :
    ∃ c fs n, k'.rows[i]? = some c ∧ flags = some fs ∧ c.origNcutout = o.ncutout - 1 ∧ (fs.length : Int) = o.ncutout - 1 ∧
      c.origFlags = fs ++ List.replicate n (-9999) ∧ c.coaddFlags = 0 ∧ c.ncoadd = fs.count 0 ∧
      ∀ e, e < fs.length → (c.origFlags[e]? = some 0 ↔ ∃ x ∈ obs, x.icut = e + 1) := by
  obtain ⟨req, np, md, hinit⟩ := h.init
  obtain ⟨w, w2, w3, _, w4⟩ := init_flags hinit
  obtain ⟨box, _, hrows⟩ := written_rows h
  obtain ⟨c0, hc0, a1, a2, a3, a4⟩ := w4 i o ho
  obtain ⟨c, hc, hcase⟩ := hrows i h1 h2
  rw [hc0] at hc
  injection hc with hc
  subst hc
  rcases hcase with ⟨fl, g1, g2⟩ | ⟨co, fl, g1, g2⟩
  · rw [hco] at g1
    unfold getCoaddObs at g1
    rw [hl] at g1
    simp only [Res.ok_bind] at g1
    cases obs with
    | nil => exact absurd rfl hne
    | cons x xs =>
      dsimp only at g1
      obtain ⟨_, _, g1⟩ := Res.bind_eq_ok.mp g1
      injection g1 with g1
      injection g1 with g1 _
      cases g1
  · rw [hco] at g1
    obtain ⟨q1, q2, obs', q3, q4⟩ := imflags_length ho g1
    rw [hl] at q3
    injection q3 with q3
    injection q3 with q3 q3'
    subst q3
    obtain ⟨_, z1, z2, _⟩ := C46_zero_flags (by rw [q3'] at hl; exact hl)
    refine ⟨_, co.imflags, w - co.imflags.length, g2, q3', a2, q1, ?_, ?_, ?_, ?_⟩
    · show co.imflags ++ c0.origFlags.drop co.imflags.length = _
      rw [a1, List.drop_replicate]
      rfl
    · exact q2
    · show co.ncoadd = _
      rw [q4, z1]
    · intro e he
      show (co.imflags ++ c0.origFlags.drop co.imflags.length)[e]? = _ ↔ _
      rw [List.getElem?_append_left he]
      exact z2 e he

/-- **C112** What happens to an object without coadd: in the range, `coadd_flags` is 1, outside it 0; `orig_flags` has -9999 everywhere and `ncoadd` is zero,
whatever became of the epochs. -/
theorem C112_not_coadded (h : CoaddWritten k k' lo hi m f) (hco : ∀ i : Nat, k.coadder i = getCoaddObs ext cfg combine jm m i) {i : Nat} {o : ObjRow}
    (ho : m.cat.rows[i]? = some o) (hno : lo ≤ i → i < hi → ∃ flags, getObslist ext cfg m i = .ok ([], flags)) :
    ∃ c, k'.rows[i]? = some c ∧ (∀ v ∈ c.origFlags, v = -9999) ∧ c.origNcutout = o.ncutout - 1 ∧ c.ncoadd = 0 ∧ c.coaddFlags = if lo ≤ i ∧ i < hi then 1 else 0 := by
  obtain ⟨req, np, md, hinit⟩ := h.init
  obtain ⟨w, w2, w3, _, w4⟩ := init_flags hinit
  obtain ⟨box, hothers, hrows⟩ := written_rows h
  obtain ⟨c0, hc0, a1, a2, a3, a4⟩ := w4 i o ho
  have hall : ∀ v ∈ c0.origFlags, v = -9999 := fun v hv => by rw [a1] at hv; exact (List.mem_replicate.mp hv).2
  by_cases hr : lo ≤ i ∧ i < hi
  · obtain ⟨c, hc, hcase⟩ := hrows i hr.1 hr.2
    rw [hc0] at hc
    injection hc with hc
    subst hc
    obtain ⟨flags, hl⟩ := hno hr.1 hr.2
    have hres : k.coadder i = .ok (none, 1) := by
      rw [hco]
      unfold getCoaddObs
      rw [hl]
      rfl
    rcases hcase with ⟨fl, g1, g2⟩ | ⟨co, fl, g1, g2⟩
    · rw [hres] at g1
      injection g1 with g1
      injection g1 with _ g1
      exact ⟨_, g2, hall, a2, a3, by rw [if_pos hr]; exact g1.symm⟩
    · rw [hres] at g1
      cases g1
  · exact ⟨c0, by rw [hothers i hr]; exact hc0, hall, a2, a3, by rw [if_neg hr]; exact a4⟩

/-- **C112** There is always room: `orig_flags` has one width for all objects, not less than the number of epochs of any of them, and no larger than needed
(but at least 2).  So no file fails to be written for want of room for the flags. -/
theorem C112_room (h : CoaddWritten k k' lo hi m f) (hco : ∀ i : Nat, k.coadder i = getCoaddObs ext cfg combine jm m i) :
    ∃ w : Nat, (∀ c ∈ k'.rows, c.origFlags.length = w) ∧ (∀ o ∈ m.cat.rows, o.ncutout - 1 ≤ w) ∧ 2 ≤ w ∧ (w = 2 ∨ ∃ o ∈ m.cat.rows, o.ncutout - 1 = w) := by
  obtain ⟨req, np, md, hinit⟩ := h.init
  obtain ⟨w, w1, w2, w3, w4⟩ := init_flags hinit
  obtain ⟨box, hothers, hrows⟩ := written_rows h
  obtain ⟨_, _, _, _, _, _, _, elen, _⟩ := init_rows hinit
  have hin := h.inside
  refine ⟨w, ?_, w2, w1, w3⟩
  intro c hc
  obtain ⟨i, hi'⟩ := List.mem_iff_getElem?.mp hc
  by_cases hr : lo ≤ i ∧ i < hi
  · obtain ⟨c0, hc0, hcase⟩ := hrows i hr.1 hr.2
    have ho : m.cat.rows[i]? = some m.cat.rows[i] := List.getElem?_eq_getElem (by omega)
    obtain ⟨c1, hc1, a1, _⟩ := w4 i _ ho
    rw [hc0] at hc1
    injection hc1 with hc1
    subst hc1
    rcases hcase with ⟨fl, g1, g2⟩ | ⟨co, fl, g1, g2⟩
    · rw [hi'] at g2
      injection g2 with g2
      subst g2
      show c0.origFlags.length = w
      rw [a1, List.length_replicate]
    · rw [hi'] at g2
      injection g2 with g2
      subst g2
      rw [hco] at g1
      obtain ⟨q1, _⟩ := imflags_length ho g1
      have := w2 _ (List.getElem_mem (show i < m.cat.rows.length by omega))
      show (co.imflags ++ c0.origFlags.drop co.imflags.length).length = w
      rw [a1, List.length_append, List.length_drop, List.length_replicate]
      omega
  · rw [hothers i hr] at hi'
    have hlt : i < m.cat.rows.length := by
      have := (List.getElem?_eq_some_iff.mp hi').1
      omega
    obtain ⟨c1, hc1, a1, _⟩ := w4 i _ (List.getElem?_eq_getElem hlt)
    rw [hi'] at hc1
    injection hc1 with hc1
    subst hc1
    rw [a1, List.length_replicate]

/-- **C112** A coadd file gets written whenever no coaddition raises, the stamps have the box size of their objects and the space for PSFs is enough
(`C45_completes` without its assumption about the flags). -/
theorem C112_completes {req : List String} {cast : String → ℚ → ℚ} {np : Int} {md : String}
    (hinit : CMaker.init req cast (fun i => getCoaddObs ext cfg combine jm m i) np md m = .ok k) (hlo : lo ≤ hi) (hhi : hi ≤ m.cat.rows.length)
    (hgood : ∀ i o obs, lo ≤ i → i < hi → m.cat.rows[i]? = some o → Coadded (fun i => getCoaddObs ext cfg combine jm m i) i obs → GoodStamp o.boxSize.toNat obs)
    (hpos : ∀ o ∈ m.cat.rows, 0 < o.boxSize) (hout : ∀ i : Nat, lo ≤ i → i < hi → ∃ r, getCoaddObs ext cfg combine jm m i = .ok r)
    (hpsf : before (psfStampPixels (fun i => getCoaddObs ext cfg combine jm m i)) lo hi ≤ np) : ∃ r, k.write lo hi = .ok r := by
  refine C45_completes hinit hlo hhi hgood hpos hout ?_ hpsf
  intro i c obs hc hco
  obtain ⟨fl, hco⟩ := hco
  obtain ⟨w, w1, w2, w3, w4⟩ := init_flags hinit
  obtain ⟨_, _, _, _, _, _, _, elen, _⟩ := init_rows hinit
  have hlt : i < m.cat.rows.length := by
    have := (List.getElem?_eq_some_iff.mp hc).1
    omega
  have ho : m.cat.rows[i]? = some m.cat.rows[i] := List.getElem?_eq_getElem hlt
  obtain ⟨c1, hc1, a1, _⟩ := w4 i _ ho
  rw [hc] at hc1
  injection hc1 with hc1
  subst hc1
  obtain ⟨q1, _⟩ := imflags_length ho hco
  have := w2 _ (List.getElem_mem hlt)
  rw [a1, List.length_replicate]
  omega

/-- The three-object coadd file of the examples: written by a coadder of the kind the theorems speak of. -/
theorem exFlags : ∃ k k' f, CoaddWritten k k' 0 3 Ex.stampsMed f ∧
    (∀ i : Nat, k.coadder i = getCoaddObs Ex.coaddExt Ex.coaddCfg Ex.combine ⟨1, 0, 0, 1⟩ Ex.stampsMed i) ∧
    k'.rows.map (fun c => (c.origFlags, c.origNcutout, c.ncoadd, c.coaddFlags)) = [([0, 0], 2, 2, 0), ([-9999, -9999], 2, 0, 1), ([0, 0], 2, 2, 0)] := by
  have h : (match Ex.coaddMaker with
    | .error _ => false
    | .ok k => match k.write 0 3 with
      | .error _ => false
      | .ok r => decide (r.1.rows.map (fun c => (c.origFlags, c.origNcutout, c.ncoadd, c.coaddFlags)) = [([0, 0], 2, 2, 0), ([-9999, -9999], 2, 0, 1), ([0, 0], 2, 2, 0)])) = true := by
    decide +kernel
  cases hk : Ex.coaddMaker with
  | error e => rw [hk] at h; cases h
  | ok k =>
    rw [hk] at h
    dsimp only at h
    cases hw : k.write 0 3 with
    | error e => rw [hw] at h; cases h
    | ok r =>
      rw [hw] at h
      have h := of_decide_eq_true h
      have hk' := hk
      unfold Ex.coaddMaker at hk'
      obtain ⟨hc, hcd, _⟩ := init_rows hk'
      refine ⟨k, r.1, r.2, ⟨⟨["weight", "seg", "bmask"], 100, "", by rw [hc, hcd]; exact hk'⟩, hw, by decide +kernel, ?_, by decide +kernel⟩, fun i => by rw [hcd]; rfl, h⟩
      intro i o obs _ hi hio hco
      rw [hcd] at hco
      obtain ⟨fl, hco⟩ := hco
      apply goodTest_ok
      have key : (List.range 3).all (fun i => match Ex.stampsMed.cat.rows[i]?, Ex.coadder i with
        | some o, .ok (some obs, _) => goodTest o.boxSize.toNat obs
        | _, _ => true) = true := by decide +kernel
      have := List.all_eq_true.mp key i (List.mem_range.mpr hi)
      rw [hio, hco] at this
      exact this

/-- The hypotheses of `C112_coadded_partial` (object 0) and `C112_not_coadded` (object 1) are met by that file. -/
example : (getObslist Ex.coaddExt Ex.coaddCfg Ex.stampsMed 0).toOption.map (fun r => (r.1.length, r.2)) = some (2, some [0, 0]) ∧
    (getObslist Ex.coaddExt Ex.coaddCfg Ex.stampsMed 1).toOption.map (fun r => (r.1.length, r.2)) = some (0, some [2, 2]) := by decide +kernel

/-- **C112** The full claim - the first `orig_ncutout` entries of `orig_flags` are the flags of the epochs, for every object coaddition was tried for - is false:
both epochs of object 1 hit the edge (flag 2), the object gets no coadd, and the catalogue has -9999 for both. -/
theorem C112_counterexample : ∃ k k' f c, CoaddWritten k k' 0 3 Ex.stampsMed f ∧
    (∀ i : Nat, k.coadder i = getCoaddObs Ex.coaddExt Ex.coaddCfg Ex.combine ⟨1, 0, 0, 1⟩ Ex.stampsMed i) ∧
    getObslist Ex.coaddExt Ex.coaddCfg Ex.stampsMed 1 = .ok ([], some [2, 2]) ∧ k'.rows[1]? = some c ∧ c.origNcutout = 2 ∧ c.origFlags = [-9999, -9999] := by
  obtain ⟨k, k', f, h1, h2, h3⟩ := exFlags
  have hl : getObslist Ex.coaddExt Ex.coaddCfg Ex.stampsMed 1 = .ok ([], some [2, 2]) := by
    have h : (match getObslist Ex.coaddExt Ex.coaddCfg Ex.stampsMed 1 with
      | .ok ([], some l) => decide (l = [2, 2])
      | _ => false) = true := by decide +kernel
    split at h
    · rename_i l e
      rw [e, of_decide_eq_true h]
    · cases h
  have e := congrArg (fun l => l[1]?) h3
  simp only [List.getElem?_map, List.getElem?_cons_succ, List.getElem?_cons_zero, Option.map_eq_some_iff] at e
  obtain ⟨c, hc, e⟩ := e
  injection e with e1 e2
  injection e2 with e2 _
  exact ⟨k, k', f, c, h1, h2, hl, hc, e2, e1⟩

end Meds.Coadd
