import Verif.Model.MakeInput
import Mathlib.Tactic.IntervalCases
import Mathlib.Tactic.Linarith
import Mathlib.Tactic.Ring
import Mathlib.Tactic.FieldSimp
import Mathlib.Tactic.NormNum

/-!
# Box sizes of the C input program (C43, C44)
-/

namespace Meds.MakeInput

theorem fftLoop_spec (size : Int) : ∀ (l : List Int) (d : Int), l.Pairwise (· < ·) →
    (∀ s ∈ l, size ≤ s → fftLoop size d l ∈ l ∧ size ≤ fftLoop size d l ∧ fftLoop size d l ≤ s) ∧
      ((∀ s ∈ l, s < size) → fftLoop size d l = l.getLast?.getD d) := by
  intro l
  induction l with
  | nil => intro d _; exact ⟨by simp, by simp [fftLoop]⟩
  | cons a l ih =>
    intro d hl
    obtain ⟨ha, hl⟩ := List.pairwise_cons.mp hl
    obtain ⟨i1, i2⟩ := ih a hl
    constructor
    · intro s hs hsz
      unfold fftLoop
      by_cases hc : a ≥ size
      · rw [if_pos hc]
        refine ⟨by simp, hc, ?_⟩
        rcases List.mem_cons.mp hs with rfl | hs
        · exact le_refl _
        · exact (ha s hs).le
      · rw [if_neg hc]
        rcases List.mem_cons.mp hs with rfl | hs
        · exact absurd hsz hc
        · obtain ⟨j1, j2, j3⟩ := i1 s hs hsz
          exact ⟨List.mem_cons_of_mem _ j1, j2, j3⟩
    · intro hall
      unfold fftLoop
      rw [if_neg (by have := hall a (by simp); omega), i2 (fun s hs => hall s (List.mem_cons_of_mem _ hs))]
      cases l with
      | nil => rfl
      | cons b l => simp [List.getLast?_cons]

theorem sizes_sorted : SIZES.Pairwise (· < ·) := by decide

theorem sizes_last : ∀ s ∈ SIZES, s ≤ 6144 := by decide

/-- **C43** The smallest table size that is at least `n`; the largest, 6144, if there is none. -/
theorem C43_least (n : Int) :
    fftRoundSize n ∈ SIZES ∧
      (n ≤ 6144 → n ≤ fftRoundSize n ∧ ∀ s ∈ SIZES, n ≤ s → fftRoundSize n ≤ s) ∧ (6144 < n → fftRoundSize n = 6144) := by
  obtain ⟨h1, h2⟩ := fftLoop_spec n SIZES 0 sizes_sorted
  have hbig : 6144 < n → fftRoundSize n = 6144 := fun hn => h2 (fun s hs => lt_of_le_of_lt (sizes_last s hs) hn)
  refine ⟨?_, fun hn => ⟨(h1 6144 (by decide) hn).2.1, fun s hs hle => (h1 s hs hle).2.2⟩, hbig⟩
  by_cases hn : n ≤ 6144
  · exact (h1 6144 (by decide) hn).1
  · rw [hbig (by omega)]; decide

/-- **C43** Monotone. -/
theorem C43_monotone {a b : Int} (hab : a ≤ b) : fftRoundSize a ≤ fftRoundSize b := by
  obtain ⟨a1, a2, a3⟩ := C43_least a
  obtain ⟨b1, b2, b3⟩ := C43_least b
  by_cases hb : b ≤ 6144
  · exact (a2 (by omega)).2 _ b1 (le_trans hab (b2 hb).1)
  · rw [b3 (by omega)]; exact sizes_last _ a1

/-- **C43** Idempotent: table sizes are left alone. -/
theorem C43_idempotent (n : Int) : fftRoundSize (fftRoundSize n) = fftRoundSize n ∧ (n ∈ SIZES → fftRoundSize n = n) := by
  have fixed : ∀ s ∈ SIZES, fftRoundSize s = s := by decide
  exact ⟨fixed _ (C43_least n).1, fixed n⟩

/-- `2^N` or `3 * 2^N`, the sizes the header of the program promises. -/
def Friendly (s : Int) : Prop := ∃ k : Nat, s = 2 ^ k ∨ s = 3 * 2 ^ k

/-- **C43** In words of the program's header: from 2 to 6144, the result is the nearest `2^N` or `3 * 2^N` at or above. -/
theorem C43_nearest_friendly {n : Int} (h2 : 2 ≤ n) (hn : n ≤ 6144) :
    Friendly (fftRoundSize n) ∧ n ≤ fftRoundSize n ∧ ∀ s, Friendly s → n ≤ s → fftRoundSize n ≤ s := by
  obtain ⟨m1, m2, _⟩ := C43_least n
  refine ⟨?_, (m2 hn).1, ?_⟩
  · have all : ∀ s ∈ SIZES, ∃ k < 14, s = 2 ^ k ∨ s = 3 * 2 ^ k := by decide
    obtain ⟨k, _, h⟩ := all _ m1
    exact ⟨k, h⟩
  · rintro s ⟨k, hk⟩ hns
    by_cases hbig : 6144 ≤ s
    · exact le_trans (sizes_last _ m1) hbig
    · have hk13 : k < 13 := by
        by_contra hc
        have : (2 : Int) ^ 13 ≤ 2 ^ k := pow_le_pow_right₀ (by norm_num) (by omega)
        norm_num at this
        rcases hk with h | h <;> omega
      refine (m2 hn).2 s ?_ hns
      have tab : ∀ j < 13, ((2 : Int) ^ j ∈ SIZES ∨ (2 : Int) ^ j < 2 ∨ 6144 ≤ (2 : Int) ^ j) ∧ ((3 : Int) * 2 ^ j ∈ SIZES ∨ 6144 ≤ (3 : Int) * 2 ^ j) := by decide
      obtain ⟨t1, t2⟩ := tab k hk13
      rcases hk with h | h
      · rw [← h] at t1
        rcases t1 with t | t | t
        · exact t
        · omega
        · omega
      · rw [← h] at t2
        rcases t2 with t | t
        · exact t
        · omega

-- 2, 3 and then every 2^N and 3 * 2^N
example : fftRoundSize 33 = 48 ∧ fftRoundSize 48 = 48 ∧ fftRoundSize (-7) = 2 ∧ fftRoundSize 7000 = 6144 := by decide

/-- **C44** With limits in order, whatever the object: a table size, between the rounded limits. -/
theorem C44_limits_partial (o : Obj) {minsize maxsize : Int} (hlim : minsize ≤ maxsize) :
    mainBoxSize minsize maxsize o ∈ SIZES ∧ fftRoundSize minsize ≤ mainBoxSize minsize maxsize o ∧ mainBoxSize minsize maxsize o ≤ fftRoundSize maxsize ∧
      (minsize ≤ 6144 → minsize ≤ mainBoxSize minsize maxsize o) := by
  have hmm := C43_monotone hlim
  have hlo : fftRoundSize minsize ≤ mainBoxSize minsize maxsize o := by
    rw [← (C43_idempotent minsize).1]
    unfold mainBoxSize getBoxSize
    simp only
    apply C43_monotone
    split <;> split <;> omega
  refine ⟨(C43_least _).1, hlo, ?_, fun h => le_trans ((C43_least minsize).2.1 h).1 hlo⟩
  rw [← (C43_idempotent maxsize).1]
  unfold mainBoxSize getBoxSize
  simp only
  apply C43_monotone
  split <;> omega

/-- **C44** The maximum is respected even when the limits are the wrong way round. -/
theorem C44_max_wins (o : Obj) (minsize maxsize : Int) : mainBoxSize minsize maxsize o ∈ SIZES ∧ mainBoxSize minsize maxsize o ≤ fftRoundSize maxsize := by
  refine ⟨(C43_least _).1, ?_⟩
  rw [← (C43_idempotent maxsize).1]
  unfold mainBoxSize getBoxSize
  simp only
  apply C43_monotone
  split <;> omega

/-- **C44** is false for limits the wrong way round: the box is smaller than the configured minimum. -/
theorem C44_counterexample : ¬ ∀ (o : Obj) (minsize maxsize : Int), minsize ≤ mainBoxSize minsize maxsize o := by
  intro h
  have := h ⟨0, 9, 0, 9, 1, 0⟩ 64 32
  revert this
  decide +kernel

/-- **C44** Unless the maximum limits it, the box holds the object's bounding box, and five sigma to either side, stretched by the ellipticity. -/
theorem C44_holds_object (o : Obj) (minsize maxsize : Int) :
    mainBoxSize minsize maxsize o = fftRoundSize maxsize ∨
      (o.rowmax - o.rowmin + 1 ≤ mainBoxSize minsize maxsize o ∧ o.colmax - o.colmin + 1 ≤ mainBoxSize minsize maxsize o ∧
        2 * (5 * (o.fluxRadius * 2 / (23548200450309493 / 10000000000000000)) * (1 + o.ellipticity)) ≤ mainBoxSize minsize maxsize o) := by
  show _ ∨ (_ ∧ _ ∧ 2 * (5 * (o.fluxRadius * 2 / FWHM_FAC) * (1 + o.ellipticity)) ≤ _)
  have hmax := (C43_least maxsize).1
  by_cases hlim : mainBoxSize minsize maxsize o = fftRoundSize maxsize
  · left; exact hlim
  · right
    obtain ⟨B, hB⟩ : ∃ B, B = (if (if getSigmaSize o.fluxRadius o.ellipticity > (if o.rowmax - o.rowmin + 1 > o.colmax - o.colmin + 1 then o.rowmax - o.rowmin + 1 else o.colmax - o.colmin + 1) then getSigmaSize o.fluxRadius o.ellipticity else (if o.rowmax - o.rowmin + 1 > o.colmax - o.colmin + 1 then o.rowmax - o.rowmin + 1 else o.colmax - o.colmin + 1)) < fftRoundSize minsize then fftRoundSize minsize else (if getSigmaSize o.fluxRadius o.ellipticity > (if o.rowmax - o.rowmin + 1 > o.colmax - o.colmin + 1 then o.rowmax - o.rowmin + 1 else o.colmax - o.colmin + 1) then getSigmaSize o.fluxRadius o.ellipticity else (if o.rowmax - o.rowmin + 1 > o.colmax - o.colmin + 1 then o.rowmax - o.rowmin + 1 else o.colmax - o.colmin + 1))) := ⟨_, rfl⟩
    have hval : mainBoxSize minsize maxsize o = fftRoundSize (if B > fftRoundSize maxsize then fftRoundSize maxsize else B) := by rw [hB]; rfl
    have hBle : B ≤ fftRoundSize maxsize := by
      by_contra hc
      apply hlim
      rw [hval, if_pos (by omega), (C43_idempotent maxsize).1]
    rw [if_neg (by omega)] at hval
    have hle : B ≤ mainBoxSize minsize maxsize o := by
      rw [hval]
      exact ((C43_least B).2.1 (le_trans hBle (sizes_last _ hmax))).1
    have hr : o.rowmax - o.rowmin + 1 ≤ B := by rw [hB]; split <;> split <;> split <;> omega
    have hcol : o.colmax - o.colmin + 1 ≤ B := by rw [hB]; split <;> split <;> split <;> omega
    have hs : getSigmaSize o.fluxRadius o.ellipticity ≤ B := by rw [hB]; split <;> split <;> split <;> omega
    refine ⟨le_trans hr hle, le_trans hcol hle, ?_⟩
    have hc : o.fluxRadius * 2 / FWHM_FAC * SIGMA_FAC * (1 + o.ellipticity) ≤ ⌈o.fluxRadius * 2 / FWHM_FAC * SIGMA_FAC * (1 + o.ellipticity)⌉ := Int.le_ceil _
    have hs' : ((getSigmaSize o.fluxRadius o.ellipticity : Int) : ℚ) ≤ (mainBoxSize minsize maxsize o : Int) := by exact_mod_cast le_trans hs hle
    refine le_trans ?_ hs'
    unfold getSigmaSize
    push_cast
    have e : SIGMA_FAC = 5 := rfl
    rw [e] at hc ⊢
    linarith

-- flux radius 3, ellipticity 0.5: five sigma are 12.74 pixels, times 1.5, rounded up: 40 pixels and so a box of 48
example : mainBoxSize 32 256 ⟨10, 20, 5, 18, 3, 1 / 2⟩ = 48 := by decide +kernel

end Meds.MakeInput
