import Verif.Lemmas.FloatMean

/-!
# Rounding to the nearest number with `p` binary digits meets the standard model
-/

namespace Bathy

theorem nearestEven_std (p : Nat) (Ω : ℚ) : StdRound (1 / 2 ^ p) 0 Ω (nearestEven p) := by
  refine ⟨by positivity, le_refl _, ?_⟩
  intro x _
  unfold nearestEven
  simp only
  generalize he : Int.log 2 |x| - (p : ℤ) + 1 = e
  have he0 : (0 : ℚ) < 2 ^ e := zpow_pos (by norm_num) e
  have h1 := Arith.rint_err (x / 2 ^ e)
  have h2 : |(Arith.rint (x / 2 ^ e) : ℚ) * 2 ^ e - x| ≤ 2 ^ e / 2 := by
    have : (Arith.rint (x / 2 ^ e) : ℚ) * 2 ^ e - x = ((Arith.rint (x / 2 ^ e) : ℚ) - x / 2 ^ e) * 2 ^ e := by
      rw [sub_mul, div_mul_cancel₀ _ he0.ne']
    rw [this, abs_mul, abs_of_pos he0]
    have := mul_le_mul_of_nonneg_right h1 he0.le
    linarith
  by_cases hx : x = 0
  · subst hx
    have : Arith.rint ((0 : ℚ) / 2 ^ e) = 0 := by rw [zero_div]; simp [Arith.rint]
    rw [this]; simp
  · have h3 : (2 : ℚ) ^ (Int.log 2 |x|) ≤ |x| := Int.zpow_log_le_self (by norm_num) (abs_pos.2 hx)
    have h4 : (2 : ℚ) ^ e / 2 = 2 ^ (Int.log 2 |x|) * (1 / 2 ^ p) := by
      rw [← he, zpow_add₀ (by norm_num), zpow_sub₀ (by norm_num)]
      simp only [zpow_natCast, zpow_one]
      ring
    have h5 : (2 : ℚ) ^ (Int.log 2 |x|) * (1 / 2 ^ p) ≤ |x| * (1 / 2 ^ p) := mul_le_mul_of_nonneg_right h3 (by positivity)
    rw [h4] at h2
    linarith

theorem leftToRight_leaves (n : Nat) : (leftToRight n).leaves = List.range (n + 1) := by
  induction n with
  | zero => rfl
  | succ n ih => rw [leftToRight, SumTree.leaves, ih, List.range_succ (n := n + 1)]; rfl

/-- sums in binary64, layers in binary32, without limits of the exponent, the soundings of a cell added up one after the other -/
def numpyArith : Arith where
  rnd := nearestEven 53
  sto := nearestEven 24
  plan n := leftToRight (n - 1)
  plan_all n hn := by rw [leftToRight_leaves, Nat.sub_add_cancel hn]

theorem numpyArith_machine (Ω Ω' : ℚ) : Machine (fmt64 0 Ω) (fmt32 0 Ω') numpyArith := ⟨nearestEven_std 53 Ω, nearestEven_std 24 Ω'⟩

end Bathy
