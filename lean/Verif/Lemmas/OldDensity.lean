import Verif.Model.OldDensity
import Verif.Lemmas.Cells
import Verif.Spec.Cells

/-!
# The older density search
-/

namespace Bathy
namespace Tile

/-- where the search may stop: at a good resolution, at an end of the list that is not good enough, or at a resolution that is too coarse while
the next finer one is too fine -/
def Settled (P : ℚ → Assessed) (options : List ℚ) (i : Nat) : Prop :=
  ∃ r, options[i]? = some r ∧ (P r = .good ∨ (i = 0 ∧ P r = .high) ∨ (i + 1 = options.length ∧ P r = .low) ∨ (P r = .high ∧ ∃ q, 0 < i ∧ options[i - 1]? = some q ∧ P q = .low))

variable {P : ℚ → Assessed} {assess : ℚ → Except Err Assessed} {options : List ℚ}

theorem idx_of_get (hs : options.Pairwise (· < ·)) {i : Nat} (hi : i < options.length) : options.idxOf options[i] = i := by
  have : options.Nodup := hs.imp (fun h => ne_of_lt h)
  exact this.idxOf_getElem i hi

theorem get_lt (hs : options.Pairwise (· < ·)) {i j : Nat} (hij : i < j) (hj : j < options.length) : options[i] < options[j] :=
  List.pairwise_iff_getElem.1 hs i j (by omega) hj hij

theorem get_ne (hs : options.Pairwise (· < ·)) {i j : Nat} (hij : i ≠ j) (hi : i < options.length) (hj : j < options.length) : options[i] ≠ options[j] := by
  rcases Nat.lt_or_gt_of_ne hij with h | h
  · exact ne_of_lt (get_lt hs h hj)
  · exact (ne_of_lt (get_lt hs h hi)).symm

theorem step_stop (hA : ∀ r ∈ options, assess r = .ok (P r)) (hs : options.Pairwise (· < ·)) {fuel : Nat} {checked : List ℚ} {i : Nat} (hi : i < options.length)
    (hc : P options[i] = .good ∨ (i = 0 ∧ P options[i] = .high) ∨ (i + 1 = options.length ∧ P options[i] = .low)) :
    searchLoop assess options (fuel + 1) checked options[i] = some (.ok options[i]) ∧ Settled P options i := by
  constructor
  · unfold searchLoop
    simp only [idx_of_get hs hi, hA _ (List.getElem_mem hi)]
    rw [if_neg (by omega), if_pos]
    rcases hc with h | h | h
    · exact Or.inl h
    · exact Or.inr (Or.inl h)
    · exact Or.inr (Or.inr ⟨by omega, h.2⟩)
  · refine ⟨options[i], List.getElem?_eq_getElem hi, ?_⟩
    rcases hc with h | h | h
    · exact Or.inl h
    · exact Or.inr (Or.inl h)
    · exact Or.inr (Or.inr (Or.inl h))

theorem step_high (hA : ∀ r ∈ options, assess r = .ok (P r)) (hs : options.Pairwise (· < ·)) {fuel : Nat} {checked : List ℚ} {i : Nat} (hi : i < options.length) (h0 : 0 < i) (hP : P options[i] = .high) :
    searchLoop assess options (fuel + 1) checked options[i] =
      if options[i - 1] ∈ checked ++ [options[i]] then some (.ok (max options[i - 1] options[i]))
      else searchLoop assess options fuel (checked ++ [options[i]]) options[i - 1] := by
  conv_lhs => unfold searchLoop
  simp only [idx_of_get hs hi, hA _ (List.getElem_mem hi), hP]
  rw [if_neg (by omega), if_neg (by rintro (h | ⟨h, -⟩ | ⟨-, h⟩) <;> first | omega | cases h), List.getElem?_eq_getElem (show i - 1 < options.length by omega), Option.getD_some]

theorem step_low (hA : ∀ r ∈ options, assess r = .ok (P r)) (hs : options.Pairwise (· < ·)) {fuel : Nat} {checked : List ℚ} {i : Nat} (hi : i + 1 < options.length) (hP : P options[i] = .low) :
    searchLoop assess options (fuel + 1) checked options[i] =
      if options[i + 1] ∈ checked ++ [options[i]] then some (.ok (max options[i + 1] options[i]))
      else searchLoop assess options fuel (checked ++ [options[i]]) options[i + 1] := by
  conv_lhs => unfold searchLoop
  simp only [idx_of_get hs (show i < options.length by omega), hA _ (List.getElem_mem (show i < options.length by omega)), hP]
  rw [if_neg (by omega), if_neg (by rintro (h | ⟨-, h⟩ | ⟨h, -⟩) <;> first | omega | cases h), List.getElem?_eq_getElem hi, Option.getD_some]

theorem search_up (hA : ∀ r ∈ options, assess r = .ok (P r)) (hs : options.Pairwise (· < ·)) (fuel : Nat) (checked : List ℚ) (i : Nat) (hi : i < options.length) (hfuel : options.length ≤ i + fuel) (h0 : 0 < i)
    (hlow : P options[i - 1] = .low) (hmem : options[i - 1] ∈ checked) (hfresh : ∀ j, i ≤ j → ∀ hj : j < options.length, options[j] ∉ checked) :
    ∃ k, ∃ hk : k < options.length, searchLoop assess options fuel checked options[i] = some (.ok options[k]) ∧ Settled P options k := by
  induction fuel generalizing checked i with
  | zero => omega
  | succ fuel ih =>
    by_cases hc : P options[i] = .good ∨ (i = 0 ∧ P options[i] = .high) ∨ (i + 1 = options.length ∧ P options[i] = .low)
    · exact ⟨i, hi, step_stop hA hs hi hc⟩
    · cases hP : P options[i] with
      | good => exact absurd (Or.inl hP) hc
      | high =>
        rw [step_high hA hs hi h0 hP, if_pos (by simp [hmem]), max_eq_right (le_of_lt (get_lt hs (by omega) hi))]
        exact ⟨i, hi, rfl, options[i], List.getElem?_eq_getElem hi, Or.inr (Or.inr (Or.inr ⟨hP, options[i - 1], h0, List.getElem?_eq_getElem _, hlow⟩))⟩
      | low =>
        have hi1 : i + 1 < options.length := by
          by_contra h
          exact hc (Or.inr (Or.inr ⟨by omega, hP⟩))
        have hfresh' : ∀ j, i + 1 ≤ j → ∀ hj : j < options.length, options[j] ∉ checked ++ [options[i]] := by
          intro j hij hj h
          rcases List.mem_append.1 h with h | h
          · exact hfresh j (by omega) hj h
          · exact get_ne hs (by omega) hj hi (List.mem_singleton.1 h)
        rw [step_low hA hs hi1 hP, if_neg (hfresh' (i + 1) (by omega) hi1)]
        exact ih (checked ++ [options[i]]) (i + 1) hi1 (by omega) (by omega) (by simpa using hP) (by simp) hfresh'

theorem search_down (hA : ∀ r ∈ options, assess r = .ok (P r)) (hs : options.Pairwise (· < ·)) (fuel : Nat) (checked : List ℚ) (i : Nat) (hi : i + 1 < options.length) (hfuel : i < fuel)
    (hhigh : P options[i + 1] = .high) (hmem : options[i + 1] ∈ checked) (hfresh : ∀ j, j ≤ i → ∀ hj : j < options.length, options[j] ∉ checked) :
    ∃ k, ∃ hk : k < options.length, searchLoop assess options fuel checked options[i] = some (.ok options[k]) ∧ Settled P options k := by
  induction fuel generalizing checked i with
  | zero => omega
  | succ fuel ih =>
    have hi' : i < options.length := by omega
    by_cases hc : P options[i] = .good ∨ (i = 0 ∧ P options[i] = .high) ∨ (i + 1 = options.length ∧ P options[i] = .low)
    · exact ⟨i, hi', step_stop hA hs hi' hc⟩
    · cases hP : P options[i] with
      | good => exact absurd (Or.inl hP) hc
      | low =>
        have hstep := step_low (fuel := fuel) (checked := checked) hA hs hi hP
        rw [if_pos (by simp [hmem]), max_eq_left (le_of_lt (get_lt hs (by omega) hi))] at hstep
        exact ⟨i + 1, hi, hstep, options[i + 1], List.getElem?_eq_getElem hi, Or.inr (Or.inr (Or.inr ⟨hhigh, options[i], by omega, by simp [List.getElem?_eq_getElem hi'], hP⟩))⟩
      | high =>
        have hi1 : 0 < i := by
          by_contra h
          exact hc (Or.inr (Or.inl ⟨by omega, hP⟩))
        have e : i - 1 + 1 = i := by omega
        have hfresh' : ∀ j, j ≤ i - 1 → ∀ hj : j < options.length, options[j] ∉ checked ++ [options[i]] := by
          intro j hij hj h
          rcases List.mem_append.1 h with h | h
          · exact hfresh j (by omega) hj h
          · exact get_ne hs (by omega) hj hi' (List.mem_singleton.1 h)
        have hstep := step_high (fuel := fuel) (checked := checked) hA hs hi' hi1 hP
        rw [if_neg (hfresh' (i - 1) (by omega) (by omega))] at hstep
        obtain ⟨k, hk, h1, h2⟩ := ih (checked ++ [options[i]]) (i - 1) (by omega) (by omega) (by simpa [e] using hP) (by simp [e]) hfresh'
        exact ⟨k, hk, hstep.trans h1, h2⟩

/-- the loop stops within as many rounds as there are resolutions -/
theorem search_stops (hA : ∀ r ∈ options, assess r = .ok (P r)) (hs : options.Pairwise (· < ·)) (s : ℚ) (hmem : s ∈ options) (fuel : Nat) (hfuel : options.length ≤ fuel) :
    ∃ k, ∃ hk : k < options.length, searchLoop assess options fuel [] s = some (.ok options[k]) ∧ Settled P options k := by
  obtain ⟨i, hi, rfl⟩ := List.getElem_of_mem hmem
  obtain ⟨fuel, rfl⟩ : ∃ f, fuel = f + 1 := ⟨fuel - 1, by omega⟩
  by_cases hc : P options[i] = .good ∨ (i = 0 ∧ P options[i] = .high) ∨ (i + 1 = options.length ∧ P options[i] = .low)
  · exact ⟨i, hi, step_stop hA hs hi hc⟩
  · cases hP : P options[i] with
    | good => exact absurd (Or.inl hP) hc
    | low =>
      have hi1 : i + 1 < options.length := by
        by_contra h
        exact hc (Or.inr (Or.inr ⟨by omega, hP⟩))
      have hfresh : ∀ j, i + 1 ≤ j → ∀ hj : j < options.length, options[j] ∉ [] ++ [options[i]] := by
        intro j hij hj h
        simp only [List.nil_append, List.mem_singleton] at h
        exact get_ne hs (by omega) hj hi h
      rw [step_low hA hs hi1 hP, if_neg (hfresh (i + 1) (by omega) hi1)]
      exact search_up hA hs fuel _ (i + 1) hi1 (by omega) (by omega) (by simpa using hP) (by simp) hfresh
    | high =>
      have hi1 : 0 < i := by
        by_contra h
        exact hc (Or.inr (Or.inl ⟨by omega, hP⟩))
      have e : i - 1 + 1 = i := by omega
      have hfresh : ∀ j, j ≤ i - 1 → ∀ hj : j < options.length, options[j] ∉ [] ++ [options[i]] := by
        intro j hij hj h
        simp only [List.nil_append, List.mem_singleton] at h
        exact get_ne hs (by omega) hj hi h
      rw [step_high hA hs hi hi1 hP, if_neg (hfresh (i - 1) (by omega) (by omega))]
      exact search_down hA hs fuel _ (i - 1) (by omega) (by omega) (by simpa [e] using hP) (by simp [e]) hfresh

end Tile

/-! ### the counts -/

theorem count_cells {x y width res : ℚ} (hw : 0 < width) (hr : 0 < res) {pts : List Pt} (hbox : ∀ p ∈ pts, InBox x y width p) {r c : Nat} (hc : c < ncells width res) :
    (pts.map (cellOf x y res (ncells width res))).count (r * ncells width res + c) = (inCell x y res r c pts).length := by
  rw [List.count_eq_countP, List.countP_map, List.countP_eq_length_filter]
  unfold inCell
  congr 1
  apply List.filter_congr
  intro p hp
  have := cellOf_eq_iff hw hr (hbox p hp) (r := r) hc
  simp only [Function.comp_apply, beq_eq_decide, decide_eq_decide]
  exact this

theorem inCell_col {x y width res : ℚ} (hw : 0 < width) (hr : 0 < res) {p : Pt} (hbox : InBox x y width p) {r c : Nat} (h : InCell x y res r c p) : c < ncells width res := by
  obtain ⟨b1, b2, b3, b4⟩ := hbox
  have hcol : colOf x res p < ncells width res := row_lt hw hr b2
  unfold InCell at h
  have := ((floor_interval hr c).1 ⟨h.1, h.2.1⟩).2
  unfold colOf at hcol
  omega

/-- the counts are the numbers of soundings of the cells that have soundings -/
theorem mem_counts {x y width res : ℚ} (hw : 0 < width) (hr : 0 < res) {pts : List Pt} (hbox : ∀ p ∈ pts, InBox x y width p) (k : Nat) :
    k ∈ (Tile.uniqueCounts (pts.map (cellOf x y res (ncells width res)))).map Prod.snd ↔ 0 < k ∧ ∃ r c, (inCell x y res r c pts).length = k := by
  unfold Tile.uniqueCounts
  rw [List.map_map, List.mem_map]
  have hn := ncells_pos hw hr
  constructor
  · rintro ⟨u, hu, rfl⟩
    rw [mem_npUnique] at hu
    simp only [Function.comp_apply]
    refine ⟨List.count_pos_iff.2 hu, u / ncells width res, u % ncells width res, ?_⟩
    rw [← count_cells hw hr hbox (Nat.mod_lt _ hn), Nat.div_add_mod']
  · rintro ⟨hk, r, c, rfl⟩
    obtain ⟨p, hp⟩ := List.exists_mem_of_length_pos hk
    unfold inCell at hp
    rw [List.mem_filter, decide_eq_true_eq] at hp
    have hc := inCell_col hw hr (hbox p hp.1) hp.2
    refine ⟨r * ncells width res + c, ?_, ?_⟩
    · rw [mem_npUnique, List.mem_map]
      exact ⟨p, hp.1, (cellOf_eq_iff hw hr (hbox p hp.1) hc).2 hp.2⟩
    · simp only [Function.comp_apply]
      exact count_cells hw hr hbox hc

end Bathy
