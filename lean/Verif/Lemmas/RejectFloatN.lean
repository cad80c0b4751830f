import Verif.Lemmas.RejectFloat
import Verif.Props.RejectNaN
import Verif.Props.CoaddNaN

/-!
# Outlier rejection of floats without infinities
-/

namespace Meds.Reject
open Meds.Spec Compare

/-- A float that is a number or NaN. -/
def fltOf : Option ℚ → Flt
  | some q => .num q
  | none => .nan

/-- An image of such floats. -/
def fltI (im : Img (Option ℚ)) : Img Flt := im.map fltOf

/-- A result without infinities. -/
def RejectedN.flt (r : RejectedN ℚ) : RejectedFlt := ⟨r.ims.map fltI, r.wts.map fltI, r.nreject⟩

theorem zipWith_flt {f : Flt → Flt → Flt} {g : ℚ → ℚ → ℚ} (h : ∀ a b, f (fltOf a) (fltOf b) = fltOf (nan2 g a b)) (a b : Img (Option ℚ)) :
    Img.zipWith f (fltI a) (fltI b) = fltI (Img.zipWith (nan2 g) a b) := by
  simp only [fltI, Img.zipWith, Img.map, Img.mk.injEq, true_and]
  rw [List.map_zipWith, List.zipWith_map]
  congr 1
  funext x y
  exact h x y

theorem map_flt {f : Flt → Flt} {g : Option ℚ → Option ℚ} (h : ∀ a, f (fltOf a) = fltOf (g a)) (a : Img (Option ℚ)) : (fltI a).map f = fltI (a.map g) := by
  simp [fltI, Img.map, List.map_map, Function.comp_def, h]

theorem sub_flt (a b : Option ℚ) : (fltOf a).sub (fltOf b) = fltOf (nan2 (· - ·) a b) := by cases a <;> cases b <;> rfl
theorem mul_flt (a b : Option ℚ) : (fltOf a).mul (fltOf b) = fltOf (nan2 (· * ·) a b) := by cases a <;> cases b <;> rfl
theorem gt_flt (a b : Option ℚ) : (fltOf a).gtF (fltOf b) = gtN a b := by cases a <;> cases b <;> rfl
theorem clip_flt (a : Option ℚ) : (fltOf a).clipF = fltOf (a.map (max · 0)) := by cases a <;> rfl

theorem outlierFlt_flt (rt : ℚ → ℚ) (nsigma A : ℚ) (med im wt : Img (Option ℚ)) :
    outlierFlt rt nsigma A (fltI med) (fltI im) (fltI (wt.map (Option.map (max · 0)))) = outlierN rt nsigma A med im (wt.map (Option.map (max · 0))) := by
  have hs : (fltI (wt.map (Option.map (max · 0)))).map (Flt.sqrtF rt) = fltI ((wt.map (Option.map (max · 0))).map (Option.map rt)) := by
    simp only [fltI, Img.map, List.map_map, Img.mk.injEq, true_and]
    apply List.map_congr_left
    intro x _
    cases x with
    | none => rfl
    | some q =>
      show Flt.sqrtF rt (.num (max q 0)) = .num (rt (max q 0))
      simp [Flt.sqrtF]
  unfold outlierFlt outlierN
  simp only [hs, zipWith_flt sub_flt, zipWith_flt mul_flt, map_flt (f := Flt.absF) (g := Option.map (fun m => |m|)) (fun a => by cases a <;> rfl),
    map_flt (f := (Flt.mul · (.num A))) (g := Option.map (· * A)) (fun a => by cases a <;> rfl),
    map_flt (f := (Flt.add · (.num nsigma))) (g := Option.map (· + nsigma)) (fun a => by cases a <;> rfl)]
  simp only [fltI, Img.zipWith, Img.map, Img.mk.injEq, true_and]
  rw [List.zipWith_map]
  congr 1
  funext x y
  exact gt_flt x y

theorem medianF_flt {l : List (Option ℚ)} (hne : l ≠ []) : Coadd.medianF (l.map fltOf) = fltOf (medianN l) := by
  unfold medianN
  split
  · rename_i h
    obtain ⟨x, hx, hn⟩ := List.any_eq_true.mp h
    cases x with
    | some q => cases hn
    | none =>
      unfold Coadd.medianF
      rw [if_pos (show Flt.nan ∈ l.map fltOf from List.mem_map.mpr ⟨none, hx, rfl⟩)]
      rfl
  · rename_i h
    have e : l = (l.filterMap id).map some := by
      clear hne
      induction l with
      | nil => rfl
      | cons x l ih =>
        cases x with
        | none => exact absurd (by simp) h
        | some q =>
          simp only [List.any_cons, Option.isNone_some, Bool.false_or] at h
          simp only [List.filterMap_cons, id, List.map_cons]
          exact congrArg (some q :: ·) (ih h)
    have hne' : l.filterMap id ≠ [] := fun h0 => hne (by rw [e, h0]; rfl)
    conv_lhs => rw [e]
    rw [List.map_map]
    exact Coadd.medianF_num hne'

theorem pyGet_flt {l : List (Img (Option ℚ))} {i : Int} : pyGet (l.map fltI) i = (pyGet l i >>= fun x => .ok (fltI x)) := by
  unfold pyGet
  rw [List.length_map]
  cases pyIndex l.length i with
  | error e => rfl
  | ok k =>
    simp only [List.getElem?_map]
    cases l[k]? <;> rfl

theorem stepFlt_flt (rt : ℚ → ℚ) (nsigma A : ℚ) (med : Img (Option ℚ)) (st : RejectedN ℚ) (i : Nat) :
    stepFlt rt nsigma A (fltI med) st.flt i = (stepN rt nsigma A med st i >>= fun r => .ok r.flt) := by
  unfold stepFlt stepN
  simp only [RejectedN.flt, pyGet_flt]
  cases pyGet st.ims i with
  | error e => rfl
  | ok im =>
    simp only [Res.ok_bind]
    cases pyGet st.wts i with
    | error e => rfl
    | ok wt =>
      simp only [Res.ok_bind]
      rw [map_flt clip_flt, outlierFlt_flt]
      by_cases h : (wt.map (Option.map (max · 0))).nr = im.nr ∧ (wt.map (Option.map (max · 0))).nc = im.nc
      · rw [if_neg (by rw [not_not]; exact h), if_neg (by rw [not_not]; exact h)]
        simp only [Res.ok_bind, Except.ok.injEq, RejectedFlt.mk.injEq, true_and, and_true]
        rw [List.map_set]
        congr 1
        simp only [fltI, Img.zipWith, Img.map, Img.mk.injEq, true_and]
        rw [List.map_zipWith, List.zipWith_map_right]
        congr 1
        funext bad v
        cases bad <;> rfl
      · rw [if_pos h, if_pos (show ¬ ((fltI (wt.map (Option.map (max · 0)))).nr = (fltI im).nr ∧ (fltI (wt.map (Option.map (max · 0)))).nc = (fltI im).nc) from h)]
        rfl

theorem medianImageFlt_flt {im0 : Img (Option ℚ)} {t : List (Img (Option ℚ))} (hw : im0.WF) :
    medianImageFlt (im0.nr, im0.nc) ((im0 :: t).map fltI) = fltI (medianImageN (im0.nr, im0.nc) (im0 :: t)) := by
  refine Img.ext_get (Img.ofFn_WF _ _ _) (Img.map_WF (Img.ofFn_WF _ _ _) _) rfl rfl ?_
  intro i j hi hj
  have hi : i < im0.nr := hi
  have hj : j < im0.nc := hj
  have e : ((im0 :: t).map fltI).filterMap (·.get? i j) = ((im0 :: t).filterMap (·.get? i j)).map fltOf := by
    rw [List.filterMap_map, List.map_filterMap]
    congr 1
    funext im
    exact Img.map_get? _ _ _ _
  have hne : (im0 :: t).filterMap (·.get? i j) ≠ [] := by
    obtain ⟨v, hv⟩ := Img.get?_some_of_WF hw hi hj
    intro h
    have : v ∈ (im0 :: t).filterMap (·.get? i j) := List.mem_filterMap.mpr ⟨im0, by simp, hv⟩
    rw [h] at this
    cases this
  unfold medianImageFlt medianImageN fltI
  rw [Img.map_get?, Img.ofFn_get? _ hi hj, Img.ofFn_get? _ hi hj, Option.map_some]
  congr 1
  exact (congrArg Coadd.medianF e).trans (medianF_flt hne)

end Meds.Reject
