import Verif.Model.Layers
import Verif.Basic.Np

/-!
# Looking up a location on one axis
-/

namespace Bathy

theorem countP_range_mono (m : Nat) (P : Nat → Bool) (hP : ∀ i j, i ≤ j → P j = true → P i = true) {k : Nat} (hk : k < m) : P k = true ↔ k < (List.range m).countP P := by
  induction m with
  | zero => omega
  | succ m ih =>
    rw [List.range_succ, List.countP_append]
    by_cases hm : P m = true
    · have hall : (List.range m).countP P = m := by
        have := List.countP_eq_length (p := P) (l := List.range m) |>.2 (fun i hi => hP i m (List.mem_range.1 hi).le hm)
        simpa using this
      rw [hall]
      have : P k = true := hP k m (by omega) hm
      simp [this, hm]; omega
    · have : List.countP P [m] = 0 := by simp [hm]
      rw [this, Nat.add_zero]
      rcases Nat.lt_or_eq_of_le (Nat.le_of_lt_succ hk) with h | rfl
      · exact ih h
      · constructor
        · intro h; exact absurd h hm
        · intro h
          have := List.countP_le_length (p := P) (l := List.range k)
          rw [List.length_range] at this; omega

/-- the edges that are left after trimming -/
theorem slice_arange {lo hi r : ℚ} (hr : 0 < r) {n : Nat} (hn : (n : ℚ) * r = hi - lo) (c0 c1 : Nat) :
    Tile.slice (arange lo hi r) c0 (c1 + 1) = (List.range (min (c1 + 1) n - c0)).map (fun k : Nat => lo + ((c0 + k : Nat) : ℚ) * r) := by
  have hlen : (arange lo hi r).length = n := by
    rw [arange_length, ← hn, mul_div_assoc, div_self hr.ne', mul_one]; simp
  apply List.ext_getElem?
  intro k
  unfold Tile.slice
  by_cases hk : k < min (c1 + 1) n - c0
  · rw [List.getElem?_map, List.getElem?_range hk]
    rw [List.getElem?_drop, List.getElem?_take_of_lt (by omega), arange_getElem? _ _ _ _ (by omega)]
    rfl
  · rw [List.getElem?_eq_none (by simp; omega), List.getElem?_eq_none (by simp; omega)]

/-- the position of `x` among the edges -/
theorem axis_spec {lo hi r : ℚ} (hr : 0 < r) {n : Nat} (hn : (n : ℚ) * r = hi - lo) {c0 c1 : Nat} (hc : c0 < c1) (hc1 : c1 ≤ n) (x : ℚ) {xs : List ℚ}
    (hxs : xs = Tile.slice (arange lo hi r) c0 (c1 + 1)) :
    ((searchsortedRight xs x = 0 ∨ searchsortedRight xs x = xs.length) → ¬ (hi - r ≤ x ∧ x < hi) → ∀ j : Nat, c0 ≤ j → j < c1 → ¬ (lo + (j : ℚ) * r ≤ x ∧ x < lo + (j : ℚ) * r + r)) ∧
    (searchsortedRight xs x ≠ 0 → searchsortedRight xs x ≠ xs.length → ∃ j : Nat, c0 ≤ j ∧ j < c1 ∧ searchsortedRight xs x - 1 = j - c0 ∧ lo + (j : ℚ) * r ≤ x ∧ x < lo + (j : ℚ) * r + r) := by
  rw [slice_arange hr hn] at hxs
  have hd : searchsortedRight xs x = (List.range (min (c1 + 1) n - c0)).countP (fun k : Nat => decide (lo + ((c0 + k : Nat) : ℚ) * r ≤ x)) := by
    rw [hxs]; unfold searchsortedRight; rw [List.countP_map]; rfl
  have hlen : xs.length = min (c1 + 1) n - c0 := by rw [hxs]; simp
  have key : ∀ k, k < min (c1 + 1) n - c0 → (lo + ((c0 + k : Nat) : ℚ) * r ≤ x ↔ k < searchsortedRight xs x) := by
    intro k hk
    rw [hd, ← countP_range_mono _ _ ?_ hk]
    · simp
    · intro i j hij h
      have h := of_decide_eq_true h
      refine decide_eq_true (le_trans ?_ h)
      have : ((c0 + i : Nat) : ℚ) ≤ ((c0 + j : Nat) : ℚ) := by exact_mod_cast Nat.add_le_add_left hij c0
      have := mul_le_mul_of_nonneg_right this hr.le
      linarith
  have hle : searchsortedRight xs x ≤ xs.length := List.countP_le_length
  generalize searchsortedRight xs x = d at *
  constructor
  · rintro (h0 | h1) hlast j hj0 hj1 ⟨ha, hb⟩
    · have := (key (j - c0) (by omega)).1 (by rw [show c0 + (j - c0) = j by omega]; exact ha)
      omega
    · rw [hlen] at h1
      by_cases hcn : c1 + 1 ≤ n
      · have hlo := (key (c1 - c0) (by omega)).2 (by omega)
        rw [show c0 + (c1 - c0) = c1 by omega] at hlo
        have h2 : ((j : ℚ) + 1) ≤ (c1 : ℚ) := by exact_mod_cast hj1
        have := mul_le_mul_of_nonneg_right h2 hr.le
        linarith
      · have hcn : c1 = n := by omega
        have hlo := (key (n - 1 - c0) (by omega)).2 (by omega)
        rw [show c0 + (n - 1 - c0) = n - 1 by omega, Nat.cast_sub (by omega)] at hlo
        push_cast at hlo
        have h2 : ((j : ℚ) + 1) ≤ (n : ℚ) := by rw [← hcn]; exact_mod_cast hj1
        have := mul_le_mul_of_nonneg_right h2 hr.le
        exact hlast ⟨by linarith, by linarith⟩
  · intro h0 h1
    refine ⟨c0 + (d - 1), by omega, by omega, by omega, (key (d - 1) (by omega)).2 (by omega), ?_⟩
    by_contra hge
    have hge := not_lt.1 hge
    have := (key d (by omega)).1 (by
      have e : ((c0 + d : Nat) : ℚ) = ((c0 + (d - 1) : Nat) : ℚ) + 1 := by rw [← Nat.cast_succ]; congr 1; omega
      rw [e]; linarith)
    omega

theorem mapM_ok_get {α β : Type} {f : α → Except Err β} {l : List α} {out : List β} (h : l.mapM f = .ok out) :
    out.length = l.length ∧ ∀ (k : Nat) a, l[k]? = some a → ∃ b, out[k]? = some b ∧ f a = .ok b := by
  induction l generalizing out with
  | nil => simp only [List.mapM_nil] at h; cases h; exact ⟨rfl, by simp⟩
  | cons x xs ih =>
    simp only [List.mapM_cons] at h
    cases hx : f x with
    | error e => rw [hx] at h; cases h
    | ok b =>
      rw [hx] at h
      cases hs : xs.mapM f with
      | error e => rw [hs] at h; cases h
      | ok bs =>
        rw [hs] at h
        cases h
        obtain ⟨h1, h2⟩ := ih hs
        refine ⟨by simp [h1], ?_⟩
        intro k a hk
        cases k with
        | zero => cases hk; exact ⟨b, rfl, hx⟩
        | succ k => exact h2 k a hk

end Bathy
