import Verif.Spec.Coadd
import Verif.Spec.Layout
import Verif.Lemmas.Written
import Verif.Lemmas.Reader
import Verif.Lemmas.File

/-!
# Writing coadds: what the loop leaves in the file
-/

namespace Meds.Coadd
open Spec Maker

theorem hduName_inj {t t' : String} (h : t ∈ "psf" :: supportedTypes) (h' : t' ∈ "psf" :: supportedTypes) (e : hduName t = hduName t') : t = t' := by
  have : ∀ t ∈ "psf" :: supportedTypes, ∀ t' ∈ "psf" :: supportedTypes, hduName t = hduName t' → t = t' := by decide
  exact this t h t' h' e

theorem hduName_ne {t : String} (h : t ∈ "psf" :: supportedTypes) : hduName t ≠ "object_data" ∧ hduName t ≠ "image_info" ∧ hduName t ≠ "metadata" := by
  revert t
  decide

/-- What one object's writes do to the buffer of one type. -/
structure Wrote (cast : String → ℚ → ℚ) (obs : CoaddObs) (start psfStart : Int) (ts : List String) (t : String) (buf buf' : List ℚ) : Prop where
  len : buf'.length = buf.length
  kept : t ∉ ts → buf' = buf
  data : t ∈ ts → ∃ p, plane obs t = .ok p ∧ 0 ≤ (if t = "psf" then psfStart else start) ∧ (if t = "psf" then psfStart else start) + p.flat.length ≤ buf.length ∧
    AgreesWith buf' (if t = "psf" then psfStart else start) (p.flat.map (cast t)) ∧
    ∀ q : Nat, ¬ ((if t = "psf" then psfStart else start) ≤ q ∧ (q : Int) < (if t = "psf" then psfStart else start) + p.flat.length) → buf'[q]? = buf[q]?

theorem fold_writeCutout {cast : String → ℚ → ℚ} {obs : CoaddObs} {start psfStart : Int} : ∀ (ts : List String) (_ : ∀ t ∈ ts, t ∈ "psf" :: supportedTypes)
    {h h' : List (String × Hdu)}, foldRes (writeCutout cast obs start psfStart) h ts = .ok h' →
    h'.map Prod.fst = h.map Prod.fst ∧ (∀ n, (∀ t ∈ ts, n ≠ hduName t) → Fits.lookup h' n = Fits.lookup h n) ∧
    ∀ t ∈ "psf" :: supportedTypes, ∀ buf, Fits.lookup h (hduName t) = some (.image buf) →
      ∃ buf', Fits.lookup h' (hduName t) = some (.image buf') ∧ Wrote cast obs start psfStart ts t buf buf' := by
  intro ts
  induction ts with
  | nil =>
    intro _ h h' hf
    simp only [foldRes] at hf
    injection hf with hf
    subst hf
    refine ⟨rfl, fun _ _ => rfl, ?_⟩
    intro t _ buf hb
    exact ⟨buf, hb, rfl, fun _ => rfl, by simp⟩
  | cons x xs ih =>
    intro hts h h' hf
    obtain ⟨h1, hw, hf⟩ := foldRes_cons_ok.mp hf
    obtain ⟨n2, k2, b2⟩ := ih (fun t ht => hts t (by simp [ht])) hf
    unfold writeCutout at hw
    obtain ⟨p, hp, hw⟩ := Res.bind_eq_ok.mp hw
    obtain ⟨⟨pix, pix', l1, o1, l1'⟩, k1, n1⟩ := modifyImage_ok hw
    obtain ⟨s0, s1, s2, s3⟩ := overwrite_ok o1
    rw [List.length_map] at s1 s3
    have hx := hts x (by simp)
    refine ⟨n2.trans n1, ?_, ?_⟩
    · intro n hn
      rw [k2 n (fun t ht => hn t (by simp [ht])), k1 n (hn x (by simp))]
    · intro t ht buf hb
      by_cases e : t = x
      · subst e
        rw [hb] at l1
        injection l1 with l1
        injection l1 with l1
        subst l1
        obtain ⟨buf', q1, q2⟩ := b2 t ht pix' l1'
        refine ⟨buf', q1, ⟨by rw [q2.len, s2], fun hn => absurd (by simp) hn, fun _ => ?_⟩⟩
        have agrees1 : AgreesWith pix' (if t = "psf" then psfStart else start) (p.flat.map (cast t)) := by
          intro j hj
          rw [List.length_map] at hj
          rw [s3, if_pos ⟨by omega, by omega⟩, Nat.add_sub_cancel_left]
        have outside1 : ∀ q : Nat, ¬ ((if t = "psf" then psfStart else start) ≤ q ∧ (q : Int) < (if t = "psf" then psfStart else start) + p.flat.length) → pix'[q]? = buf[q]? := by
          intro q hq
          rw [s3, if_neg]
          intro hh
          apply hq
          constructor <;> omega
        by_cases hxs : t ∈ xs
        · obtain ⟨p', e1, e2, e3, e4, e5⟩ := q2.data hxs
          rw [hp] at e1
          injection e1 with e1
          subst e1
          exact ⟨p, hp, e2, by rw [s2] at e3; exact e3, e4, fun q hq => by rw [e5 q hq, outside1 q hq]⟩
        · rw [q2.kept hxs]
          exact ⟨p, hp, s0, s1, agrees1, outside1⟩
      · have hne : hduName t ≠ hduName x := fun hh => e (hduName_inj ht hx hh)
        obtain ⟨buf', q1, q2⟩ := b2 t ht buf (by rw [k1 _ hne]; exact hb)
        refine ⟨buf', q1, ⟨q2.len, fun hn => q2.kept (fun hm => hn (by simp [hm])), fun hm => ?_⟩⟩
        rcases List.mem_cons.mp hm with rfl | hm
        · exact absurd rfl e
        · exact q2.data hm

/-- State of the loop after the objects `lo, ..., lo + n - 1`. -/
structure Inv (k : CMaker) (lo n : Nat) (box : Nat → Int) (st : WState) : Prop where
  len : st.rows.length = k.rows.length
  others : ∀ i, ¬ (lo ≤ i ∧ i < lo + n) → st.rows[i]? = k.rows[i]?
  cur : st.lastRowStart + st.lastSize = before (stampPixels k.coadder box) lo (lo + n)
  psfCur : st.lastPsfRowStart + st.lastPsfSize = before (psfStampPixels k.coadder) lo (lo + n)
  names : st.hdus.map Prod.fst = k.reserved.map Prod.fst
  rest : ∀ nm, (∀ t ∈ k.types ++ ["psf"], nm ≠ hduName t) → Fits.lookup st.hdus nm = Fits.lookup k.reserved nm
  bufs : ∀ t ∈ k.types ++ ["psf"], ∃ buf, Fits.lookup st.hdus (hduName t) = some (.image buf) ∧ buf.length = (if t = "psf" then k.psfPixels.toNat else k.totalPixels.toNat) ∧
    ∀ i, lo ≤ i → i < lo + n → ∀ obs, Coadded k.coadder i obs → ∃ p, plane obs t = .ok p ∧
      (if t = "psf" then before (psfStampPixels k.coadder) lo i else before (stampPixels k.coadder box) lo i) + p.flat.length ≤ buf.length ∧
      AgreesWith buf (if t = "psf" then before (psfStampPixels k.coadder) lo i else before (stampPixels k.coadder box) lo i) (p.flat.map (k.cast t))
  done : ∀ i, lo ≤ i → i < lo + n → ∃ c, k.rows[i]? = some c ∧
    ((∃ fl, k.coadder i = .ok (none, fl) ∧ st.rows[i]? = some { c with coaddFlags := fl }) ∨
     ∃ obs fl, k.coadder i = .ok (some obs, fl) ∧ c.row.boxSize = obs.stamp.image.nr ∧
       st.rows[i]? = some (fillRow c obs fl (before (stampPixels k.coadder box) lo i) (before (psfStampPixels k.coadder) lo i)))

theorem before_succ (size : Nat → Int) (lo n : Nat) : before size lo (lo + n + 1) = before size lo (lo + n) + size (lo + n) := by
  unfold before
  rw [show lo + n + 1 - lo = n + 1 by omega, show lo + n - lo = n by omega, List.range'_1_concat, List.map_append, List.sum_append]
  simp

theorem before_nonneg {size : Nat → Int} {lo : Nat} : ∀ n, (∀ i, lo ≤ i → i < lo + n → 0 ≤ size i) → 0 ≤ before size lo (lo + n) := by
  intro n
  induction n with
  | zero => intro _; simp [before]
  | succ n ih =>
    intro h
    have h1 := ih (fun i a b => h i a (by omega))
    have h2 := h (lo + n) (by omega) (by omega)
    rw [show lo + (n + 1) = lo + n + 1 by omega, before_succ]
    omega

theorem before_mono {size : Nat → Int} {lo i j : Nat} (h0 : lo ≤ i) (hij : i < j) (h : ∀ a, lo ≤ a → a < j → 0 ≤ size a) : before size lo i + size i ≤ before size lo j := by
  obtain ⟨a, rfl⟩ := Nat.exists_eq_add_of_le h0
  obtain ⟨b, rfl⟩ := Nat.exists_eq_add_of_lt hij
  clear hij
  induction b with
  | zero => rw [Nat.add_zero, before_succ]
  | succ b ih =>
    have := ih (fun x h1 h2 => h x h1 (by omega))
    rw [show lo + a + (b + 1) + 1 = lo + (a + b + 1) + 1 by omega, before_succ, show lo + (a + b + 1) = lo + a + b + 1 by omega]
    have := h (lo + a + b + 1) (by omega) (by omega)
    omega

theorem plane_size {b : Nat} {obs : CoaddObs} (hg : GoodStamp b obs) {t : String} {p : Img ℚ} (h : plane obs t = .ok p) :
    p.WF ∧ if t = "psf" then p = obs.stamp.psf else p.nr = b ∧ p.nc = b := by
  unfold plane at h
  split at h
  · rename_i e; injection h with h; subst h; rw [if_pos e]; exact ⟨hg.psf.2.2, rfl⟩
  · rename_i hne
    rw [if_neg hne]
    split at h
    · injection h with h; subst h; exact ⟨hg.image.2.2, hg.image.1, hg.image.2.1⟩
    split at h
    · injection h with h; subst h; exact ⟨hg.weight.2.2, hg.weight.1, hg.weight.2.1⟩
    split at h
    · injection h with h; subst h; exact ⟨hg.seg.2.2, hg.seg.1, hg.seg.2.1⟩
    split at h
    · injection h with h; subst h; exact ⟨hg.bmask.2.2, hg.bmask.1, hg.bmask.2.1⟩
    split at h
    · injection h with h; subst h; exact ⟨hg.ormask.2.2, hg.ormask.1, hg.ormask.2.1⟩
    split at h
    · injection h with h; subst h; exact ⟨hg.noise.2.2, hg.noise.1, hg.noise.2.1⟩
    · cases h

/-- Number of pixels of a plane. -/
theorem plane_length {b : Nat} {obs : CoaddObs} (hg : GoodStamp b obs) {t : String} {p : Img ℚ} (h : plane obs t = .ok p) :
    p.flat.length = if t = "psf" then obs.stamp.psf.nr * obs.stamp.psf.nr else b * b := by
  obtain ⟨h1, h2⟩ := plane_size hg h
  have h1' : p.flat.length = p.nr * p.nc := h1
  rw [h1']
  split at h2
  · rename_i e; rw [if_pos e, h2, hg.psf.2.1]
  · rename_i e; rw [if_neg e, h2.1, h2.2]

theorem stampPixels_nonneg (coadder : Nat → Res (Option CoaddObs × Int)) (box : Nat → Int) (i : Nat) : 0 ≤ stampPixels coadder box i := by
  unfold stampPixels
  split
  · exact mul_self_nonneg _
  · exact le_refl 0

theorem psfStampPixels_nonneg (coadder : Nat → Res (Option CoaddObs × Int)) (i : Nat) : 0 ≤ psfStampPixels coadder i := by
  unfold psfStampPixels
  split
  · exact mul_self_nonneg _
  · exact le_refl 0

theorem writeObject_inv {k : CMaker} {lo n : Nat} {box : Nat → Int} {st st' : WState} (hty : ∀ t ∈ k.types, t ∈ supportedTypes)
    (hbox : ∀ i c, k.rows[i]? = some c → c.row.boxSize = box i)
    (hgood : ∀ i, lo ≤ i → i < lo + (n + 1) → ∀ obs, Coadded k.coadder i obs → GoodStamp (box i).toNat obs) (hpos : ∀ i, lo ≤ i → i < lo + (n + 1) → 0 < box i)
    (inv : Inv k lo n box st) (h : writeObject k.types k.cast k.coadder st (lo + n) = .ok st') : Inv k lo (n + 1) box st' := by
  have hts : ∀ t ∈ k.types ++ ["psf"], t ∈ "psf" :: supportedTypes := by
    intro t ht
    rcases List.mem_append.mp ht with ht | ht
    · exact List.mem_cons_of_mem _ (hty t ht)
    · rw [List.mem_singleton.mp ht]; simp
  unfold writeObject at h
  obtain ⟨r, hr, h⟩ := Res.bind_eq_ok.mp h
  obtain ⟨c, hc, h⟩ := Res.bind_eq_ok.mp h
  have hc1 : st.rows[lo + n]? = some c := pyGet_ok_nonneg hc (by omega)
  have hc0 : k.rows[lo + n]? = some c := by rw [← inv.others (lo + n) (by omega)]; exact hc1
  have hlt : lo + n < st.rows.length := (List.getElem?_eq_some_iff.mp hc1).1
  obtain ⟨ro, fl⟩ := r
  cases ro with
  | none =>
    simp only at h
    injection h with h
    subst h
    have hs : stampPixels k.coadder box (lo + n) = 0 := by unfold stampPixels; rw [hr]
    have hps : psfStampPixels k.coadder (lo + n) = 0 := by unfold psfStampPixels; rw [hr]
    refine ⟨by simp [inv.len], ?_, ?_, ?_, inv.names, inv.rest, ?_, ?_⟩
    · intro i hi
      simp only
      rw [List.getElem?_set_ne (by omega)]
      exact inv.others i (by omega)
    · rw [show lo + (n + 1) = lo + n + 1 by omega, before_succ, hs, ← inv.cur, Int.add_zero]
    · rw [show lo + (n + 1) = lo + n + 1 by omega, before_succ, hps, ← inv.psfCur, Int.add_zero]
    · intro t ht
      obtain ⟨buf, b1, b2, b3⟩ := inv.bufs t ht
      refine ⟨buf, b1, b2, ?_⟩
      intro i h1 h2 obs hco
      by_cases e : i = lo + n
      · subst e
        obtain ⟨f', hf'⟩ := hco
        rw [hr] at hf'
        injection hf' with hf'
        injection hf' with hf' _
        cases hf'
      · exact b3 i h1 (by omega) obs hco
    · intro i h1 h2
      by_cases e : i = lo + n
      · subst e
        exact ⟨c, hc0, .inl ⟨fl, hr, List.getElem?_set_self hlt⟩⟩
      · obtain ⟨c', q1, q2⟩ := inv.done i h1 (by omega)
        refine ⟨c', q1, ?_⟩
        simp only
        rw [List.getElem?_set_ne (by omega)]
        exact q2
  | some obs =>
    simp only at h
    split at h
    · cases h
    · rename_i hsz
      split at h
      · cases h
      · obtain ⟨hd, hf, h⟩ := Res.bind_eq_ok.mp h
        injection h with h
        have hbc := hbox _ _ hc0
        have hco : Coadded k.coadder (lo + n) obs := ⟨fl, hr⟩
        have hg := hgood (lo + n) (by omega) (by omega) obs hco
        have hp0 := hpos (lo + n) (by omega) (by omega)
        have hs : stampPixels k.coadder box (lo + n) = box (lo + n) * box (lo + n) := by unfold stampPixels; rw [hr]
        have hps : psfStampPixels k.coadder (lo + n) = (obs.stamp.psf.nr : Int) * obs.stamp.psf.nr := by unfold psfStampPixels; rw [hr]
        rw [inv.cur, inv.psfCur] at hf h
        obtain ⟨nm, rs, bs⟩ := fold_writeCutout (k.types ++ ["psf"]) hts hf
        subst h
        refine ⟨by simp [inv.len], ?_, ?_, ?_, nm.trans inv.names, ?_, ?_, ?_⟩
        · intro i hi
          simp only
          rw [List.getElem?_set_ne (by omega)]
          exact inv.others i (by omega)
        · rw [show lo + (n + 1) = lo + n + 1 by omega, before_succ, hs, hbc]
        · rw [show lo + (n + 1) = lo + n + 1 by omega, before_succ, hps]
        · intro n' hn
          rw [← inv.rest n' hn]
          exact rs n' hn
        · intro t ht
          obtain ⟨buf, b1, b2, b3⟩ := inv.bufs t ht
          obtain ⟨buf', w1, w2⟩ := bs t (hts t ht) buf b1
          refine ⟨buf', w1, by rw [w2.len, b2], ?_⟩
          obtain ⟨p, p1, p2, p3, p4, p5⟩ := w2.data ht
          have plen := plane_length hg p1
          have e1 : before (stampPixels k.coadder box) lo (lo + n) = before (stampPixels k.coadder box) lo (lo + n) := rfl
          intro i h1 h2 obs' hco'
          by_cases e : i = lo + n
          · subst e
            obtain ⟨f', hf'⟩ := hco'
            rw [hr] at hf'
            injection hf' with hf'
            injection hf' with hf' _
            injection hf' with hf'
            subst hf'
            exact ⟨p, p1, by rw [w2.len]; exact p3, p4⟩
          · obtain ⟨p', q1, q2, q3⟩ := b3 i h1 (by omega) obs' hco'
            refine ⟨p', q1, by rw [w2.len]; exact q2, ?_⟩
            have hg' := hgood i h1 (by omega) obs' hco'
            have plen' := plane_length hg' q1
            obtain ⟨f', hf'⟩ := hco'
            intro j hj
            have hj' : j < p'.flat.length := by rw [List.length_map] at hj; exact hj
            rw [p5, q3 j hj]
            by_cases hps : t = "psf"
            · simp only [if_pos hps] at *
              have hm := before_mono (size := psfStampPixels k.coadder) (lo := lo) (i := i) (j := lo + n) h1 (by omega) (fun a _ _ => psfStampPixels_nonneg _ a)
              have hsz : psfStampPixels k.coadder i = (obs'.stamp.psf.nr : Int) * obs'.stamp.psf.nr := by unfold psfStampPixels; rw [hf']
              have h0 := before_nonneg (size := psfStampPixels k.coadder) (lo := lo) (i - lo) (fun a _ _ => psfStampPixels_nonneg _ a)
              rw [show lo + (i - lo) = i by omega] at h0
              have : ((p'.flat.length : Nat) : Int) = (obs'.stamp.psf.nr : Int) * obs'.stamp.psf.nr := by rw [plen']; push_cast; rfl
              omega
            · simp only [if_neg hps] at *
              have hm := before_mono (size := stampPixels k.coadder box) (lo := lo) (i := i) (j := lo + n) h1 (by omega) (fun a _ _ => stampPixels_nonneg _ _ a)
              have hsz : stampPixels k.coadder box i = box i * box i := by unfold stampPixels; rw [hf']
              have h0 := before_nonneg (size := stampPixels k.coadder box) (lo := lo) (i - lo) (fun a _ _ => stampPixels_nonneg _ _ a)
              rw [show lo + (i - lo) = i by omega] at h0
              have hbi := hpos i h1 (by omega)
              have : ((p'.flat.length : Nat) : Int) = box i * box i := by rw [plen']; push_cast; rw [Int.toNat_of_nonneg hbi.le]
              omega
        · intro i h1 h2
          by_cases e : i = lo + n
          · subst e
            refine ⟨c, hc0, .inr ⟨obs, fl, hr, by simpa using hsz, List.getElem?_set_self hlt⟩⟩
          · obtain ⟨c', q1, q2⟩ := inv.done i h1 (by omega)
            refine ⟨c', q1, ?_⟩
            simp only
            rw [List.getElem?_set_ne (by omega)]
            exact q2

theorem reserved_lookup {k : CMaker} (hty : ∀ t ∈ k.types, t ∈ supportedTypes) {t : String} (ht : t ∈ k.types ++ ["psf"]) :
    Fits.lookup k.reserved (hduName t) = some (.image (List.replicate (if t = "psf" then k.psfPixels.toNat else k.totalPixels.toNat) 0)) := by
  have hts : t ∈ "psf" :: supportedTypes := by
    rcases List.mem_append.mp ht with ht | ht
    · exact List.mem_cons_of_mem _ (hty t ht)
    · rw [List.mem_singleton.mp ht]; simp
  have hne := hduName_ne hts
  unfold CMaker.reserved
  rw [lookup_append, lookup_none_of_not_mem (l := [("image_info", Hdu.info k.info), ("metadata", Hdu.metadata k.metaData)]) (by
    intro x hx
    simp only [List.mem_cons, List.not_mem_nil, or_false] at hx
    rcases hx with rfl | rfl
    · exact fun h => hne.2.1 h.symm
    · exact fun h => hne.2.2 h.symm), Option.none_or, lookup_append]
  by_cases e : t = "psf"
  · subst e
    rw [if_pos rfl, show hduName "psf" = "psf" by rfl, lookup_reserved_none (fun t' ht' => (cutouts_ne (hty t' ht')).2.2.2.1.symm), Option.none_or]
    rfl
  · rw [if_neg e, show hduName t = t ++ "_cutouts" by unfold hduName; rw [if_neg e]]
    have : t ∈ k.types := by
      rcases List.mem_append.mp ht with ht | ht
      · exact ht
      · exact absurd (List.mem_singleton.mp ht) e
    rw [lookup_reserved this hty]
    rfl

theorem writeCutouts_inv {k : CMaker} {lo : Nat} {box : Nat → Int} (hty : ∀ t ∈ k.types, t ∈ supportedTypes)
    (hbox : ∀ i c, k.rows[i]? = some c → c.row.boxSize = box i) : ∀ n, (∀ i, lo ≤ i → i < lo + n → ∀ obs, Coadded k.coadder i obs → GoodStamp (box i).toNat obs) →
    (∀ i, lo ≤ i → i < lo + n → 0 < box i) → ∀ {st : WState},
    foldRes (writeObject k.types k.cast k.coadder) ⟨k.rows, k.reserved, 0, 0, 0, 0⟩ (List.range' lo n) = .ok st → Inv k lo n box st := by
  intro n
  induction n with
  | zero =>
    intro _ _ st h
    simp only [List.range'_zero, foldRes] at h
    injection h with h
    subst h
    refine ⟨rfl, fun _ _ => rfl, by simp [before], by simp [before], rfl, fun _ _ => rfl, ?_, by omega⟩
    intro t ht
    exact ⟨_, reserved_lookup hty ht, by simp, by omega⟩
  | succ n ih =>
    intro hg hp st h
    rw [List.range'_1_concat, foldRes_append] at h
    obtain ⟨st1, h1, h2⟩ := Res.bind_eq_ok.mp h
    obtain ⟨st2, h3, h4⟩ := foldRes_cons_ok.mp h2
    simp only [foldRes] at h4
    injection h4 with h4
    subst h4
    exact writeObject_inv hty hbox hg hp (ih (fun i a b => hg i a (by omega)) (fun i a b => hp i a (by omega)) h1) h3

end Meds.Coadd
