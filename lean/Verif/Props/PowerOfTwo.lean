import Verif.Model.Utilities
import Mathlib.Tactic.FieldSimp
import Mathlib.Tactic.Positivity
import Mathlib.Algebra.Order.Field.Power

/-!
# C33: is_power_of_two (bathygrid/utilities.py:103-133)
-/

namespace Bathy

theorem bit_test_iff (m : Nat) : ((m != 0) && ((m &&& (m - 1)) == 0)) = true ↔ ∃ k, m = 2 ^ k := by
  have := Nat.ne_zero_and_sub_one_eq_zero_iff_isPowerOfTwo (n := m)
  simp only [Nat.isPowerOfTwo] at this
  rw [← this]
  simp

theorem isPowerOfTwoBig_nat (m : Nat) : isPowerOfTwoBig (m : ℚ) = true ↔ ∃ k, m = 2 ^ k := by
  unfold isPowerOfTwoBig
  have h : ⌊(m : ℚ)⌋ = (m : Int) := Int.floor_natCast m
  rw [h]
  have h0 : ¬ (|(m : ℚ) - ((m : Int) : ℚ)| > 1 / 100000) := by simp
  rw [if_neg h0]
  simp only [Int.toNat_natCast]
  exact bit_test_iff m

theorem isPowerOfTwoBig_close {n : ℚ} (hn : 1 < n) (h : isPowerOfTwoBig n = true) :
    ∃ k : Nat, (2 : ℚ) ^ k ≤ n ∧ n - 2 ^ k ≤ 1 / 100000 := by
  unfold isPowerOfTwoBig at h
  split at h
  · simp at h
  · rename_i hle
    rw [bit_test_iff] at h
    obtain ⟨k, hk⟩ := h
    have hfl : 0 ≤ ⌊n⌋ := Int.floor_nonneg.2 (by linarith)
    have hk' : (⌊n⌋ : ℚ) = 2 ^ k := by
      have : (⌊n⌋.toNat : Int) = ⌊n⌋ := Int.toNat_of_nonneg hfl
      rw [← this, hk]; push_cast; ring
    refine ⟨k, ?_, ?_⟩
    · rw [← hk']; exact Int.floor_le n
    · rw [← hk']
      have := not_lt.1 hle
      exact le_trans (le_abs_self _) this

theorem pyRound_int (z : Int) : pyRound (z : ℚ) = z := by
  unfold pyRound; simp

/-- **C33** (completeness): every integer power of two, positive or negative exponent, is accepted. -/
theorem C33_powers_accepted (k : ℤ) : isPowerOfTwo ((2 : ℚ) ^ k) = true := by
  unfold isPowerOfTwo
  rcases lt_trichotomy k 0 with hk | hk | hk
  · -- negative exponent
    have h1 : (2 : ℚ) ^ k < 1 := zpow_lt_one_of_neg₀ (by norm_num) hk
    have hpos : (2 : ℚ) ^ k > 0 := by positivity
    rw [if_neg (by linarith), if_neg (ne_of_lt h1), if_pos hpos]
    obtain ⟨n, rfl⟩ : ∃ n : Nat, k = -(n : ℤ) := ⟨(-k).toNat, by omega⟩
    have hinv : 1 / (2 : ℚ) ^ (-(n : ℤ)) = ((2 ^ n : Nat) : ℚ) := by
      rw [zpow_neg, one_div, inv_inv, zpow_natCast]; push_cast; ring
    simp only [hinv]
    have hr : pyRound ((2 ^ n : Nat) : ℚ) = ((2 ^ n : Nat) : Int) := by
      have := pyRound_int ((2 ^ n : Nat) : Int); simpa using this
    rw [hr]
    have : (((2 ^ n : Nat) : Int) : ℚ) = ((2 ^ n : Nat) : ℚ) := by simp
    rw [this]
    have h2 : ((2 ^ n : Nat) : ℚ) > 1 := by
      have hn : n ≠ 0 := by omega
      have : 1 < 2 ^ n := Nat.one_lt_two_pow hn
      exact_mod_cast this
    simp only [ite_self]
    rw [if_pos h2]
    exact (isPowerOfTwoBig_nat _).2 ⟨n, rfl⟩
  · subst hk; simp
  · have h1 : (2 : ℚ) ^ k > 1 := one_lt_zpow₀ (by norm_num) hk
    rw [if_pos h1]
    obtain ⟨n, rfl⟩ : ∃ n : Nat, k = (n : ℤ) := ⟨k.toNat, by omega⟩
    have : (2 : ℚ) ^ (n : ℤ) = ((2 ^ n : Nat) : ℚ) := by push_cast; rw [zpow_natCast]
    rw [this]
    exact (isPowerOfTwoBig_nat _).2 ⟨n, rfl⟩

/-- **C33** (exactness on integers) -/
theorem C33_exact_on_integers (z : ℤ) : isPowerOfTwo (z : ℚ) = true ↔ ∃ k : Nat, z = 2 ^ k := by
  constructor
  · intro h
    unfold isPowerOfTwo at h
    by_cases h1 : (z : ℚ) > 1
    · rw [if_pos h1] at h
      have hz : (1 : ℤ) < z := by exact_mod_cast h1
      have e : (z : ℚ) = ((z.toNat : Nat) : ℚ) := by
        have : ((z.toNat : Nat) : ℤ) = z := Int.toNat_of_nonneg (by omega)
        exact_mod_cast this.symm
      rw [e, isPowerOfTwoBig_nat] at h
      obtain ⟨k, hk⟩ := h
      exact ⟨k, by have : ((z.toNat : Nat) : ℤ) = z := Int.toNat_of_nonneg (by omega); rw [← this, hk]; push_cast; ring⟩
    · rw [if_neg h1] at h
      have hz : z ≤ 1 := by have := not_lt.1 h1; exact_mod_cast this
      by_cases h2 : (z : ℚ) = 1
      · exact ⟨0, by have : z = 1 := by exact_mod_cast h2
                     simpa using this⟩
      · rw [if_neg h2] at h
        have h3 : z ≠ 1 := by intro h; exact h2 (by exact_mod_cast h)
        have h4 : ¬ (z : ℚ) > 0 := by
          have : z ≤ 0 := by omega
          have : (z : ℚ) ≤ 0 := by exact_mod_cast this
          linarith
        rw [if_neg h4] at h; simp at h
  · rintro ⟨k, rfl⟩
    have := C33_powers_accepted (k : ℤ)
    rw [zpow_natCast] at this
    simpa using this

/-- **C33** (soundness on all rationals): an accepted number is within 1e-5 of a power of two. -/
theorem C33_accepted_close (n : ℚ) (h : isPowerOfTwo n = true) : ∃ k : ℤ, |n - (2 : ℚ) ^ k| ≤ 1 / 100000 := by
  unfold isPowerOfTwo at h
  by_cases h1 : n > 1
  · rw [if_pos h1] at h
    obtain ⟨k, hk1, hk2⟩ := isPowerOfTwoBig_close h1 h
    refine ⟨k, ?_⟩
    rw [zpow_natCast, abs_of_nonneg (by linarith)]; exact hk2
  · rw [if_neg h1] at h
    by_cases h2 : n = 1
    · exact ⟨0, by subst h2; norm_num⟩
    · rw [if_neg h2] at h
      by_cases h3 : n > 0
      · rw [if_pos h3] at h
        have hlt : n < 1 := lt_of_le_of_ne (not_lt.1 h1) h2
        -- the number the recursive call is made with: at least 1 and within 1e-10 of 1/n
        obtain ⟨m, hm, hclose⟩ : ∃ m : ℚ, (if m > 1 then isPowerOfTwoBig m else decide (m = 1)) = true ∧
            |m - 1 / n| ≤ 1 / 10000000000 := by
          by_cases hc : |(pyRound (1 / n) : ℚ) - 1 / n| < 1 / 10000000000
          · refine ⟨(pyRound (1 / n) : ℚ), ?_, le_of_lt hc⟩
            simp only [if_pos hc] at h; exact h
          · refine ⟨1 / n, ?_, by simp⟩
            simp only [if_neg hc] at h; exact h
        -- it is 2^k + d with 0 ≤ d ≤ 1e-5
        obtain ⟨k, hk1, hk2⟩ : ∃ k : Nat, (2 : ℚ) ^ k ≤ m ∧ m - 2 ^ k ≤ 1 / 100000 := by
          by_cases hm1 : m > 1
          · rw [if_pos hm1] at hm; exact isPowerOfTwoBig_close hm1 hm
          · rw [if_neg hm1] at hm
            have : m = 1 := by simpa using hm
            exact ⟨0, by simp [this], by simp [this]⟩
        refine ⟨-(k : ℤ), ?_⟩
        rw [zpow_neg, zpow_natCast]
        have hp : (1 : ℚ) ≤ 2 ^ k := one_le_pow₀ (by norm_num)
        set p : ℚ := 2 ^ k with hpd
        have hpp : 0 < p := by linarith
        -- n - 1/p = (p - 1/n) * n / p
        have hn1 : n * (1 / n) = 1 := by field_simp
        have e : n - p⁻¹ = (p - 1 / n) * (n * p⁻¹) := by field_simp
        rw [e, abs_mul]
        by_cases hk0 : k = 0
        · -- p = 1: 1/n > 1
          subst hk0
          have hp1 : p = 1 := by simp [hpd]
          rw [hp1] at hk1 hk2 ⊢
          have hinv : 1 < 1 / n := by rw [lt_div_iff₀ h3]; linarith
          have hb : |(1 : ℚ) - 1 / n| ≤ 1 / 100000 + 1 / 10000000000 := by
            have : (1 : ℚ) - 1 / n = (m - 1 / n) - (m - 1) := by ring
            rw [abs_le] at hclose ⊢
            constructor <;> linarith [hclose.1, hclose.2]
          -- n * (1/n - 1) = 1 - n, and 1 / n - 1 = t gives 1 - n = t / (1 + t)
          have hng : 0 ≤ n * (1 : ℚ)⁻¹ := by simp; linarith
          rw [abs_of_nonneg hng]
          simp only [inv_one, mul_one]
          rw [abs_of_nonpos (by linarith)] at hb ⊢
          set t := 1 / n with ht
          have hnt : n * t = 1 := hn1
          -- from round: either t integer case or t ≤ 1 + 1e-5
          nlinarith [hb, hnt, h3]
        · have hp2 : (2 : ℚ) ≤ p := by
            have : 2 ^ 1 ≤ 2 ^ k := Nat.pow_le_pow_right (by norm_num) (by omega)
            rw [hpd]; exact_mod_cast this
          have hq : p⁻¹ ≤ 1 / 2 := by
            rw [inv_le_comm₀ hpp (by norm_num)]; simpa using hp2
          have hq0 : 0 < p⁻¹ := by positivity
          have hb : |p - 1 / n| ≤ 1 / 100000 + 1 / 10000000000 := by
            rw [abs_le] at hclose ⊢
            constructor <;> linarith [hclose.1, hclose.2]
          rw [abs_of_nonneg (by positivity : (0 : ℚ) ≤ n * p⁻¹)]
          have hnp : n * p⁻¹ ≤ 1 / 2 := by nlinarith
          have hnp0 : 0 ≤ n * p⁻¹ := by positivity
          nlinarith [abs_nonneg (p - 1 / n)]
      · rw [if_neg h3] at h; simp at h

/-- Numbers that are not powers of two but are accepted exist, so the 1e-5 in `C33_accepted_close` cannot be dropped. -/
theorem C33_not_exact : isPowerOfTwo (4 + 1 / 200000) = true ∧ ∀ k : ℤ, (2 : ℚ) ^ k ≠ 4 + 1 / 200000 := by
  refine ⟨by decide +kernel, ?_⟩
  intro k hk
  by_cases h : k ≤ 2
  · have : (2 : ℚ) ^ k ≤ 2 ^ (2 : ℤ) := zpow_le_zpow_right₀ (by norm_num) h
    rw [hk] at this; norm_num at this
  · have : (2 : ℚ) ^ (3 : ℤ) ≤ 2 ^ k := zpow_le_zpow_right₀ (by norm_num) (by omega)
    rw [hk] at this; norm_num at this

/-! ### non-vacuity -/
example : isPowerOfTwo 1024 = true ∧ isPowerOfTwo (1 / 8) = true := by decide +kernel
example : isPowerOfTwo 1000 = false ∧ isPowerOfTwo (3 / 8) = false ∧ isPowerOfTwo 0 = false ∧ isPowerOfTwo (-4) = false := by
  decide +kernel

end Bathy
