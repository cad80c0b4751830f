import Verif.Lemmas.Uberseg

/-! Rounding errors of the `float` arithmetic. -/

namespace Meds.Uberseg

/-! ### Rounding of integers -/

theorem roundHE_mono {x y : ℚ} (h : x ≤ y) : roundHE x ≤ roundHE y := by
  have hf : ⌊x⌋ ≤ ⌊y⌋ := Int.floor_le_floor h
  rcases lt_or_eq_of_le hf with hlt | heq
  · have h1 : roundHE x ≤ ⌊x⌋ + 1 := by
      unfold roundHE
      dsimp only
      split_ifs <;> omega
    have h2 : ⌊y⌋ ≤ roundHE y := by
      unfold roundHE
      dsimp only
      split_ifs <;> omega
    omega
  · unfold roundHE
    dsimp only
    rw [heq]
    split_ifs <;> first | omega | (exfalso; linarith)

/-- The exponent: bits beyond the first `p`. -/
def ex (p n : Nat) : Nat := n.log2 + 1 - p

/-- `rndZ` on natural numbers. -/
def rndN (p n : Nat) : Int := roundHE ((n : ℚ) / 2 ^ ex p n) * 2 ^ ex p n

theorem rndZ_nonneg (p : Nat) {k : Int} (h : 0 ≤ k) : rndZ p k = rndN p k.natAbs := by
  unfold rndZ rndN ex
  rcases lt_or_eq_of_le h with h | h
  · rw [Int.sign_eq_one_of_pos h, one_mul]
  · subst h
    simp [roundHE]

theorem rndZ_neg (p : Nat) (k : Int) : rndZ p (-k) = -rndZ p k := by
  unfold rndZ
  rw [Int.sign_neg, Int.natAbs_neg, neg_mul]

theorem lt_two_pow_ex (p n : Nat) : n < 2 ^ (p + ex p n) := by
  refine lt_of_lt_of_le (Nat.lt_log2_self (n := n)) (Nat.pow_le_pow_right (by norm_num) ?_)
  unfold ex
  omega

theorem two_pow_le {p n : Nat} (hp : 0 < p) (h : ex p n ≠ 0) : 2 ^ (p + ex p n) ≤ 2 * n := by
  have hn : n ≠ 0 := by
    intro h0
    subst h0
    unfold ex at h
    rw [Nat.log2_zero] at h
    omega
  have h1 := Nat.log2_self_le hn
  have h2 : p + ex p n = n.log2 + 1 := by unfold ex at *; omega
  rw [h2, pow_succ]
  omega

theorem rndN_of_dvd {p n : Nat} (h : 2 ^ ex p n ∣ n) : rndN p n = n := by
  obtain ⟨m, hm⟩ := h
  unfold rndN
  have : (n : ℚ) / 2 ^ ex p n = ((m : Int) : ℚ) := by
    rw [div_eq_iff (by positivity)]
    push_cast
    have : ((n : Nat) : ℚ) = ((2 ^ ex p n * m : Nat) : ℚ) := by rw [← hm]
    rw [this]
    push_cast
    ring
  rw [this, roundHE_int]
  have : ((2 ^ ex p n * m : Nat) : Int) = n := by rw [← hm]
  rw [← this]
  push_cast
  ring

/-- The rounded significand. -/
def sig (p n : Nat) : Int := roundHE ((n : ℚ) / 2 ^ ex p n)

theorem sig_le (p n : Nat) : sig p n ≤ 2 ^ p := by
  have h := lt_two_pow_ex p n
  have : (n : ℚ) / 2 ^ ex p n ≤ (((2 : Int) ^ p : Int) : ℚ) := by
    rw [div_le_iff₀ (by positivity)]
    have h' : (n : ℚ) < 2 ^ (p + ex p n) := by exact_mod_cast h
    rw [pow_add] at h'
    push_cast
    exact h'.le
  have := roundHE_mono this
  rwa [roundHE_int] at this

theorem le_sig {p n : Nat} (hp : 0 < p) (h : ex p n ≠ 0) : 2 ^ (p - 1) ≤ sig p n := by
  have h1 := two_pow_le hp h
  have : (((2 : Int) ^ (p - 1) : Int) : ℚ) ≤ (n : ℚ) / 2 ^ ex p n := by
    rw [le_div_iff₀ (by positivity)]
    obtain ⟨q, rfl⟩ : ∃ q, p = q + 1 := ⟨p - 1, by omega⟩
    have h2 : (2 : ℚ) ^ (q + 1 + ex (q + 1) n) ≤ 2 * n := by exact_mod_cast h1
    rw [pow_add, pow_succ] at h2
    rw [Nat.add_sub_cancel]
    push_cast
    linarith
  have := roundHE_mono this
  rwa [roundHE_int] at this

theorem sig_nonneg (p n : Nat) : 0 ≤ sig p n := by
  have : (((0 : Int) : Int) : ℚ) ≤ (n : ℚ) / 2 ^ ex p n := by
    push_cast
    positivity
  have := roundHE_mono this
  rwa [roundHE_int] at this

theorem rndN_mono {p : Nat} (hp : 0 < p) {n m : Nat} (h : n ≤ m) : rndN p n ≤ rndN p m := by
  have hex : ex p n ≤ ex p m := by
    unfold ex
    have : n.log2 ≤ m.log2 := by
      rw [Nat.log2_eq_log_two, Nat.log2_eq_log_two]
      exact Nat.log_mono_right h
    omega
  rcases lt_or_eq_of_le hex with hlt | heq
  · have h1 := sig_le p n
    have h2 := le_sig (p := p) (n := m) hp (by omega)
    show sig p n * 2 ^ ex p n ≤ sig p m * 2 ^ ex p m
    calc sig p n * 2 ^ ex p n ≤ 2 ^ p * 2 ^ ex p n := by gcongr
      _ = 2 ^ (p - 1) * 2 ^ (ex p n + 1) := by
          obtain ⟨q, rfl⟩ : ∃ q, p = q + 1 := ⟨p - 1, by omega⟩
          rw [Nat.add_sub_cancel]
          ring
      _ ≤ 2 ^ (p - 1) * 2 ^ ex p m := by gcongr <;> omega
      _ ≤ sig p m * 2 ^ ex p m := by gcongr
  · unfold rndN
    rw [heq]
    have : roundHE ((n : ℚ) / 2 ^ ex p m) ≤ roundHE ((m : ℚ) / 2 ^ ex p m) := by
      apply roundHE_mono
      gcongr
    gcongr

theorem rndN_nonneg (p n : Nat) : 0 ≤ rndN p n := mul_nonneg (sig_nonneg p n) (by positivity)

/-- The result of a rounding is left as it is. -/
theorem rndN_idem {p : Nat} (hp : 0 < p) (n : Nat) : rndN p (rndN p n).natAbs = rndN p n := by
  by_cases h0 : ex p n = 0
  · have : rndN p n = n := rndN_of_dvd (by rw [h0]; simp)
    rw [this, Int.natAbs_natCast, this]
  · have hs := le_sig hp h0
    have hl := sig_le p n
    have hv : ((rndN p n).natAbs : Int) = rndN p n := Int.natAbs_of_nonneg (rndN_nonneg p n)
    obtain ⟨m, hm⟩ : ∃ m : Nat, sig p n = m := ⟨(sig p n).toNat, (Int.toNat_of_nonneg (sig_nonneg p n)).symm⟩
    have hr : (rndN p n).natAbs = m * 2 ^ ex p n := by
      have : rndN p n = ((m * 2 ^ ex p n : Nat) : Int) := by
        show sig p n * 2 ^ ex p n = _
        rw [hm]
        push_cast
        ring
      rw [this, Int.natAbs_natCast]
    rw [hm] at hs hl
    have hs' : 2 ^ (p - 1) ≤ m := by exact_mod_cast hs
    have hl' : m ≤ 2 ^ p := by exact_mod_cast hl
    rw [← hv, Int.natAbs_natCast]
    apply rndN_of_dvd
    rw [hr]
    obtain ⟨q, rfl⟩ : ∃ q, p = q + 1 := ⟨p - 1, by omega⟩
    rw [Nat.add_sub_cancel] at hs'
    rcases lt_or_eq_of_le hl' with hlt | heq
    · have : (m * 2 ^ ex (q + 1) n).log2 = q + ex (q + 1) n := by
        have hne : m * 2 ^ ex (q + 1) n ≠ 0 := by
          have : 0 < 2 ^ q := by positivity
          have : 0 < m := by omega
          positivity
        rw [Nat.log2_eq_iff hne]
        constructor
        · rw [pow_add]; gcongr
        · rw [show q + ex (q + 1) n + 1 = (q + 1) + ex (q + 1) n by ring, pow_add]
          gcongr
      have : ex (q + 1) (m * 2 ^ ex (q + 1) n) = ex (q + 1) n := by
        generalize ex (q + 1) n = e at *
        unfold ex
        omega
      rw [this]
      exact Dvd.intro_left _ rfl
    · subst heq
      have h1 : 2 ^ (q + 1) * 2 ^ ex (q + 1) n = 2 ^ (q + 1 + ex (q + 1) n) := (pow_add 2 (q + 1) (ex (q + 1) n)).symm
      rw [h1]
      have : ex (q + 1) (2 ^ (q + 1 + ex (q + 1) n)) = ex (q + 1) n + 1 := by
        generalize ex (q + 1) n = e at *
        unfold ex
        rw [Nat.log2_two_pow]
        omega
      rw [this]
      exact pow_dvd_pow 2 (by omega)

theorem rndN_error {p : Nat} (hp : 0 < p) (n : Nat) : |(rndN p n : ℚ) - n| ≤ n / 2 ^ p := by
  by_cases h0 : ex p n = 0
  · have : rndN p n = n := rndN_of_dvd (by rw [h0]; simp)
    rw [this]
    simp only [Int.cast_natCast, sub_self, abs_zero]
    positivity
  · have h1 := roundHE_near ((n : ℚ) / 2 ^ ex p n)
    have h2 := two_pow_le hp h0
    have h3 : (2 : ℚ) ^ (p + ex p n) ≤ 2 * n := by exact_mod_cast h2
    have e : (rndN p n : ℚ) - n = -(((n : ℚ) / 2 ^ ex p n - roundHE ((n : ℚ) / 2 ^ ex p n)) * 2 ^ ex p n) := by
      unfold rndN
      push_cast
      field_simp
      ring
    rw [e, abs_neg, abs_mul, abs_of_pos (show (0 : ℚ) < 2 ^ ex p n by positivity)]
    calc _ ≤ 1 / 2 * (2 : ℚ) ^ ex p n := by gcongr
      _ ≤ n / 2 ^ p := by
        rw [le_div_iff₀ (by positivity)]
        rw [pow_add] at h3
        linarith

/-- Integers of at most `p` bits, and `2^p`, are held exactly. -/
theorem rndN_exact {p n : Nat} (hp : 0 < p) (h : n ≤ 2 ^ p) : rndN p n = n := by
  apply rndN_of_dvd
  rcases lt_or_eq_of_le h with hlt | rfl
  · have : ex p n = 0 := by
      unfold ex
      rcases Nat.eq_zero_or_pos n with h0 | h0
      · subst h0; rw [Nat.log2_zero]; omega
      · have := (Nat.log2_lt (by omega)).mpr hlt
        omega
    rw [this]
    simp
  · have : ex p (2 ^ p) = 1 := by
      unfold ex
      rw [Nat.log2_two_pow]
      omega
    rw [this]
    exact pow_dvd_pow 2 (by omega)

theorem rndZ_mono {p : Nat} (hp : 0 < p) : Monotone (rndZ p) := by
  intro a b h
  by_cases ha : 0 ≤ a
  · rw [rndZ_nonneg p ha, rndZ_nonneg p (ha.trans h)]
    exact rndN_mono hp (by omega)
  · have ea : rndZ p a = -rndN p a.natAbs := by
      have h1 := rndZ_neg p a
      rw [rndZ_nonneg p (show 0 ≤ -a by omega), Int.natAbs_neg] at h1
      omega
    have n1 := rndN_nonneg p a.natAbs
    by_cases hb : 0 ≤ b
    · rw [ea, rndZ_nonneg p hb]
      have := rndN_nonneg p b.natAbs
      omega
    · have eb : rndZ p b = -rndN p b.natAbs := by
        have h1 := rndZ_neg p b
        rw [rndZ_nonneg p (show 0 ≤ -b by omega), Int.natAbs_neg] at h1
        omega
      rw [ea, eb]
      have := rndN_mono hp (show b.natAbs ≤ a.natAbs by omega)
      omega

theorem rndZ_idem {p : Nat} (hp : 0 < p) (k : Int) : rndZ p (rndZ p k) = rndZ p k := by
  have pos : ∀ k : Int, 0 ≤ k → rndZ p (rndZ p k) = rndZ p k := by
    intro k hk
    rw [rndZ_nonneg p hk, rndZ_nonneg p (rndN_nonneg _ _)]
    exact rndN_idem hp _
  by_cases hk : 0 ≤ k
  · exact pos k hk
  · have h := pos (-k) (by omega)
    rw [rndZ_neg, rndZ_neg] at h
    omega

theorem rndZ_exact {p : Nat} (hp : 0 < p) {k : Int} (h : |k| ≤ 2 ^ p) : rndZ p k = k := by
  have pos : ∀ k : Int, 0 ≤ k → |k| ≤ 2 ^ p → rndZ p k = k := by
    intro k hk h
    rw [rndZ_nonneg p hk, rndN_exact hp]
    · omega
    · rw [abs_of_nonneg hk] at h
      have : ((k.natAbs : Nat) : Int) ≤ ((2 ^ p : Nat) : Int) := by
        rw [Int.natAbs_of_nonneg hk, Nat.cast_pow]
        exact h
      exact Int.ofNat_le.mp this
  by_cases hk : 0 ≤ k
  · exact pos k hk h
  · have h := pos (-k) (by omega) (by rwa [abs_neg])
    rw [rndZ_neg] at h
    omega

/-! ### Rounding of the search radius -/


theorem rnd_error (p : Nat) {q : ℚ} (hq : 0 < q) : |rnd p q - q| ≤ q / 2 ^ p := by
  unfold rnd
  set e := Int.log 2 q - ((p : Int) - 1) with he
  have hu : (0 : ℚ) < 2 ^ e := zpow_pos (by norm_num) e
  have hlog : ((2 : Nat) : ℚ) ^ Int.log 2 q ≤ q := Int.zpow_log_le_self (by norm_num) hq
  have hr := roundHE_near (q / 2 ^ e)
  have e1 : (roundHE (q / 2 ^ e) : ℚ) * 2 ^ e - q = ((roundHE (q / 2 ^ e) : ℚ) - q / 2 ^ e) * 2 ^ e := by
    field_simp
  rw [e1, abs_mul, abs_of_pos hu]
  have h2 : (2 : ℚ) ^ e = 2 ^ Int.log 2 q * 2 / 2 ^ p := by
    rw [he, zpow_sub₀ (by norm_num), zpow_sub₀ (by norm_num), zpow_natCast, zpow_one]
    field_simp
  have h3 : |(roundHE (q / 2 ^ e) : ℚ) - q / 2 ^ e| ≤ 1 / 2 := by
    rw [abs_sub_comm]; exact hr
  calc |(roundHE (q / 2 ^ e) : ℚ) - q / 2 ^ e| * 2 ^ e ≤ 1 / 2 * 2 ^ e := by gcongr
    _ = 2 ^ Int.log 2 q / 2 ^ p := by rw [h2]; ring
    _ ≤ q / 2 ^ p := by gcongr; exact_mod_cast hlog

theorem rnd_ge (p : Nat) {q : ℚ} (hq : 0 < q) : q * (1 - 1 / 2 ^ p) ≤ rnd p q := by
  have h := (abs_le.mp (rnd_error p hq)).1
  rw [mul_sub, mul_one, mul_one_div]
  linarith

theorem rnd_le (p : Nat) {q : ℚ} (hq : 0 < q) : rnd p q ≤ q * (1 + 1 / 2 ^ p) := by
  have h := (abs_le.mp (rnd_error p hq)).2
  rw [mul_add, mul_one, mul_one_div]
  linarith

theorem d11_bounds : 11 / 10 * (1 - 1 / 2 ^ 53) ≤ d11 ∧ d11 ≤ 11 / 10 * (1 + 1 / 2 ^ 53) :=
  ⟨rnd_ge 53 (by norm_num), rnd_le 53 (by norm_num)⟩

/-- The C float arithmetic has the properties needed, for every square root function that is accurate to a relative error of about 2^-40. -/
theorem F32.ieee_sound {rt : ℚ → ℚ} (h0 : ∀ n : Nat, 0 ≤ rt n) (hrt : ∀ n : Nat, (1 - 1 / 2 ^ 40) * (n : ℚ) ≤ rt n ^ 2) : (F32.ieee rt).Sound := by
  obtain ⟨b1, b2⟩ := d11_bounds
  have dpos : 0 < d11 := lt_of_lt_of_le (by norm_num) b1
  refine ⟨rndZ_mono (by norm_num), by show rndZ 24 0 = 0; exact rndZ_exact (by norm_num) (by norm_num), rndZ_neg 24, rndZ_idem (by norm_num), ?_, ?_, ?_, ?_⟩
  · intro k hk
    show (rndZ 24 k : ℚ) ≤ _
    rw [rndZ_nonneg 24 hk]
    have h1 := (abs_le.mp (rndN_error (p := 24) (by norm_num) k.natAbs)).2
    have h2 : ((k.natAbs : Nat) : ℚ) = k := by
      rw [Nat.cast_natAbs, abs_of_nonneg hk]
    rw [h2] at h1
    have h3 : (0 : ℚ) ≤ k := by exact_mod_cast hk
    norm_num at h1
    linarith
  · show 9 / 10 ≤ rnd 24 (rnd 53 (1 / d11))
    have h1 : (1 : ℚ) / (11 / 10 * (1 + 1 / 2 ^ 53)) ≤ 1 / d11 := one_div_le_one_div_of_le dpos b2
    have h2 := rnd_ge 53 (q := 1 / d11) (by positivity)
    have h3 : (905 : ℚ) / 1000 ≤ rnd 53 (1 / d11) := by
      refine le_trans ?_ h2
      refine le_trans ?_ (mul_le_mul_of_nonneg_right h1 (by norm_num))
      norm_num
    have h4 := rnd_ge 24 (q := rnd 53 (1 / d11)) (by linarith)
    refine le_trans ?_ h4
    refine le_trans ?_ (mul_le_mul_of_nonneg_right h3 (by norm_num))
    norm_num
  · intro x hx
    show 109 / 100 * x ≤ rnd 24 (rnd 53 (x * d11))
    have xp : 0 < x := by linarith
    have h1 : x * (11 / 10 * (1 - 1 / 2 ^ 53)) ≤ x * d11 := mul_le_mul_of_nonneg_left b1 xp.le
    have h2 := rnd_ge 53 (q := x * d11) (by positivity)
    have h3 : x * (1099 / 1000) ≤ rnd 53 (x * d11) := by
      refine le_trans ?_ h2
      refine le_trans ?_ (mul_le_mul_of_nonneg_right h1 (by norm_num))
      rw [mul_assoc]
      exact mul_le_mul_of_nonneg_left (by norm_num) xp.le
    have h4 := rnd_ge 24 (q := rnd 53 (x * d11)) (lt_of_lt_of_le (by positivity) h3)
    refine le_trans ?_ h4
    refine le_trans ?_ (mul_le_mul_of_nonneg_right h3 (by norm_num))
    rw [mul_assoc, mul_comm (109 / 100 : ℚ)]
    exact mul_le_mul_of_nonneg_left (by norm_num) xp.le
  · intro nr nc x hx
    show _ ≤ rnd 24 (x * x)
    change rnd 24 (rnd 53 (d11 * rt ((nr ^ 2 + nc ^ 2 : Nat) : ℚ))) < x at hx
    generalize hN : nr ^ 2 + nc ^ 2 = N at hx ⊢
    rcases Nat.eq_zero_or_pos N with hz | hpos
    · subst hz
      rcases eq_or_ne x 0 with hx0 | hx0
      · subst hx0
        have : rnd 24 ((0 : ℚ) * 0) = 0 := by
          unfold rnd
          simp [roundHE]
        rw [this]
        simp
      · have hxx : 0 < x * x := mul_self_pos.mpr hx0
        refine le_trans ?_ (rnd_ge 24 hxx)
        have h0 : (11 / 10 : ℚ) * ((0 : Nat) : ℚ) = 0 := by simp
        rw [h0]
        exact mul_nonneg hxx.le (by norm_num)
    · have hNq : (1 : ℚ) ≤ N := by exact_mod_cast hpos
      have s0 := h0 N
      have s1 := hrt N
      have spos : 0 < rt N := by
        rcases lt_or_eq_of_le s0 with h | h
        · exact h
        · rw [← h] at s1
          norm_num at s1
          linarith
      have h1 : 11 / 10 * (1 - 1 / 2 ^ 53) * rt N ≤ d11 * rt N := mul_le_mul_of_nonneg_right b1 s0
      have h2 := rnd_ge 53 (q := d11 * rt N) (by positivity)
      have h3 : 1099 / 1000 * rt N ≤ rnd 53 (d11 * rt N) := by
        refine le_trans ?_ h2
        refine le_trans ?_ (mul_le_mul_of_nonneg_right h1 (by norm_num))
        rw [mul_right_comm]
        exact mul_le_mul_of_nonneg_right (by norm_num) s0
      have h4 := rnd_ge 24 (q := rnd 53 (d11 * rt N)) (lt_of_lt_of_le (by positivity) h3)
      have h5 : 1098 / 1000 * rt N ≤ x := by
        refine le_trans ?_ hx.le
        refine le_trans ?_ h4
        refine le_trans ?_ (mul_le_mul_of_nonneg_right h3 (by norm_num))
        rw [mul_right_comm]
        exact mul_le_mul_of_nonneg_right (by norm_num) s0
      have h6 : (1098 / 1000 * rt N) * (1098 / 1000 * rt N) ≤ x * x := mul_self_le_mul_self (by positivity) h5
      have h7 := rnd_ge 24 (q := x * x) (lt_of_lt_of_le (by positivity) h6)
      refine le_trans ?_ h7
      refine le_trans ?_ (mul_le_mul_of_nonneg_right h6 (by norm_num))
      have h8 : (1098 / 1000 * rt N) * (1098 / 1000 * rt N) = (1098 / 1000) ^ 2 * rt N ^ 2 := by ring
      rw [h8]
      have h9 : (1098 / 1000 : ℚ) ^ 2 * ((1 - 1 / 2 ^ 40) * N) ≤ (1098 / 1000) ^ 2 * rt N ^ 2 := mul_le_mul_of_nonneg_left s1 (by norm_num)
      refine le_trans ?_ (mul_le_mul_of_nonneg_right h9 (by norm_num))
      have : (1098 / 1000 : ℚ) ^ 2 * ((1 - 1 / 2 ^ 40) * N) * (1 - 1 / 2 ^ 24) = ((1098 / 1000) ^ 2 * (1 - 1 / 2 ^ 40) * (1 - 1 / 2 ^ 24)) * N := by ring
      rw [this]
      have hc : (11 / 10 : ℚ) ≤ (1098 / 1000) ^ 2 * (1 - 1 / 2 ^ 40) * (1 - 1 / 2 ^ 24) := by norm_num
      nlinarith

/-- Such a square root exists: rounding down to 60 bits after the point. -/
theorem sqrtApprox_accurate (n : Nat) : 0 ≤ sqrtApprox n ∧ (1 - 1 / 2 ^ 40) * (n : ℚ) ≤ sqrtApprox n ^ 2 := by
  have hfl : ⌊(n : ℚ) * 4 ^ 60⌋.toNat = n * 4 ^ 60 := by
    have : ((n : ℚ) * 4 ^ 60) = ((n * 4 ^ 60 : Nat) : ℚ) := by push_cast; ring
    rw [this, Int.floor_natCast, Int.toNat_natCast]
  unfold sqrtApprox
  rw [hfl]
  refine ⟨by positivity, ?_⟩
  rcases Nat.eq_zero_or_pos n with h | h
  · subst h; simp
  · have h1 : n * 4 ^ 60 < (Nat.sqrt (n * 4 ^ 60) + 1) * (Nat.sqrt (n * 4 ^ 60) + 1) := Nat.lt_succ_sqrt _
    have h2 : 2 ^ 60 ≤ Nat.sqrt (n * 4 ^ 60) := by
      rw [Nat.le_sqrt]
      calc 2 ^ 60 * 2 ^ 60 = 1 * 4 ^ 60 := by norm_num
        _ ≤ n * 4 ^ 60 := Nat.mul_le_mul_right _ h
    generalize Nat.sqrt (n * 4 ^ 60) = s at h1 h2
    have h1q : (n : ℚ) * 4 ^ 60 < ((s : ℚ) + 1) * (s + 1) := by exact_mod_cast h1
    have h2q : (2 : ℚ) ^ 60 ≤ s := by exact_mod_cast h2
    rw [div_pow]
    rw [show ((2 : ℚ) ^ 60) ^ 2 = 4 ^ 60 by norm_num, le_div_iff₀ (by norm_num)]
    have h3 : (1 - 1 / 2 ^ 40 : ℚ) * (((s : ℚ) + 1) * (s + 1)) ≤ (s : ℚ) ^ 2 := by
      have h5 : (2 : ℚ) ^ 60 * s ≤ s * s := mul_le_mul_of_nonneg_right h2q (by positivity)
      have h6 : (2 * (s : ℚ) + 1) ≤ 1 / 2 ^ 40 * (s * s) := by
        have : (1 / 2 ^ 40 : ℚ) * (2 ^ 60 * s) ≤ 1 / 2 ^ 40 * (s * s) := mul_le_mul_of_nonneg_left h5 (by norm_num)
        have h7 : (1 / 2 ^ 40 : ℚ) * (2 ^ 60 * s) = 2 ^ 20 * s := by ring
        rw [h7] at this
        have h8 : (1 : ℚ) ≤ s := le_trans (by norm_num) h2q
        linarith
      have h9 : (0 : ℚ) ≤ 1 / 2 ^ 40 * (2 * s + 1) := by positivity
      nlinarith
    calc (1 - 1 / 2 ^ 40 : ℚ) * n * 4 ^ 60 = (1 - 1 / 2 ^ 40) * (n * 4 ^ 60) := by ring
      _ ≤ (1 - 1 / 2 ^ 40 : ℚ) * (((s : ℚ) + 1) * (s + 1)) := mul_le_mul_of_nonneg_left h1q.le (by norm_num)
      _ ≤ _ := h3

end Meds.Uberseg
