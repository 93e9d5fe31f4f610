import Mathlib.Data.Rat.Floor
import Mathlib.Tactic.Linarith
import Verif.Basic.Py

/-!
# numpy primitives on lists

Coordinates are exact rationals.  `searchsorted` is given by counting, which is what numpy's binary search
returns for a sorted array.
-/

namespace Bathy

/-- `np.arange(start, stop, step)` (numpy: length is `ceil((stop - start)/step)`, elements `start + i*step`) -/
def arange (start stop step : ℚ) : List ℚ :=
  (List.range ⌈(stop - start) / step⌉.toNat).map (fun i : Nat => start + (i : ℚ) * step)

/-- `np.append(a, a[-1] + step)`; `none` is the IndexError of `a[-1]` on an empty array -/
def appendEdge (a : List ℚ) (step : ℚ) : Option (List ℚ) :=
  a.getLast?.map (fun z => a ++ [z + step])

/-- `np.searchsorted(a, x, side='right')` for a sorted array -/
def searchsortedRight (a : List ℚ) (x : ℚ) : Nat := a.countP (fun e => decide (e ≤ x))

/-- `np.searchsorted(a, x)` (side='left') for a sorted array -/
def searchsortedLeft (a : List ℚ) (x : ℚ) : Nat := a.countP (fun e => decide (e < x))

/-- numpy integer indexing into an axis of length `n`: negative indices wrap, anything else is an IndexError (`none`) -/
def wrapIdx (i : Int) (n : Nat) : Option Nat :=
  if 0 ≤ i ∧ i < n then some i.toNat
  else if i < 0 ∧ 0 ≤ i + n then some (i + n).toNat
  else none

/-- boolean mask indexing `a[m]` (mask of the same length) -/
def boolIndex {α : Type} (a : List α) (m : List Bool) : List α :=
  ((a.zip m).filter Prod.snd).map Prod.fst

/-- boolean mask assignment `a[m] = vals` with a one dimensional `vals`; `none` is numpy's ValueError for a wrong number of values -/
def assignMask {α : Type} : List α → List Bool → List α → Option (List α)
  | _ :: as, true :: ms, v :: vs => (assignMask as ms vs).map (v :: ·)
  | _ :: _, true :: _, [] => none
  | a :: as, false :: ms, vs => (assignMask as ms vs).map (a :: ·)
  | [], [], [] => some []
  | [], [], _ :: _ => none
  | [], _ :: _, _ => none
  | _ :: _, [], _ => none

/-- insertion into a strictly increasing list, used for `np.unique` -/
def insertUniq {α : Type} [LT α] [DecidableEq α] [DecidableLT α] (x : α) : List α → List α
  | [] => [x]
  | y :: ys => if x < y then x :: y :: ys else if x = y then y :: ys else y :: insertUniq x ys

/-- `np.unique(a)`: the sorted distinct values -/
def npUnique {α : Type} [LT α] [DecidableEq α] [DecidableLT α] : List α → List α
  | [] => []
  | x :: xs => insertUniq x (npUnique xs)

/-- `np.round(v, 3)`: round half to even at the third decimal -/
def round3 (v : ℚ) : ℚ :=
  let s := v * 1000
  let f := ⌊s⌋
  let d := s - f
  (if d < 1/2 then (f : ℚ) else if 1/2 < d then f + 1 else if f % 2 = 0 then f else f + 1) / 1000

/-! ### lemmas -/

theorem arange_length (a b s : ℚ) : (arange a b s).length = ⌈(b - a) / s⌉.toNat := by
  simp [arange]

theorem arange_getElem (a b s : ℚ) (i : Nat) (h : i < (arange a b s).length) :
    (arange a b s)[i] = a + (i : ℚ) * s := by
  simp [arange]

theorem arange_getElem? (a b s : ℚ) (i : Nat) (h : i < (arange a b s).length) :
    (arange a b s)[i]? = some (a + (i : ℚ) * s) := by
  rw [List.getElem?_eq_getElem h, arange_getElem]

theorem appendEdge_eq (l : List ℚ) (s : ℚ) (h : l ≠ []) : appendEdge l s = some (l ++ [l.getLast h + s]) := by
  simp [appendEdge, List.getLast?_eq_getLast_of_ne_nil h]

theorem mem_insertUniq {α : Type} [LinearOrder α] (x y : α) (l : List α) :
    y ∈ insertUniq x l ↔ y = x ∨ y ∈ l := by
  induction l with
  | nil => simp [insertUniq]
  | cons z zs ih =>
    unfold insertUniq
    by_cases h1 : x < z
    · simp [h1]
    · by_cases h2 : x = z
      · subst h2; simp
      · simp only [h1, if_false, h2, List.mem_cons, ih]; tauto

theorem mem_npUnique {α : Type} [LinearOrder α] (y : α) (l : List α) : y ∈ npUnique l ↔ y ∈ l := by
  induction l with
  | nil => simp [npUnique]
  | cons z zs ih => simp [npUnique, mem_insertUniq, ih]

theorem insertUniq_pairwise {α : Type} [LinearOrder α] (x : α) (l : List α) (h : l.Pairwise (· < ·)) :
    (insertUniq x l).Pairwise (· < ·) := by
  induction l with
  | nil => simp [insertUniq]
  | cons z zs ih =>
    rw [List.pairwise_cons] at h
    unfold insertUniq
    by_cases h1 : x < z
    · rw [if_pos h1, List.pairwise_cons]
      refine ⟨?_, List.pairwise_cons.2 h⟩
      intro a ha
      rcases List.mem_cons.1 ha with rfl | ha
      · exact h1
      · exact lt_trans h1 (h.1 a ha)
    · by_cases h2 : x = z
      · rw [if_neg h1, if_pos h2]; exact List.pairwise_cons.2 h
      · rw [if_neg h1, if_neg h2, List.pairwise_cons]
        refine ⟨?_, ih h.2⟩
        intro a ha
        rcases (mem_insertUniq x a zs).1 ha with rfl | ha
        · exact lt_of_le_of_ne (not_lt.1 h1) (Ne.symm h2)
        · exact h.1 a ha

theorem npUnique_pairwise {α : Type} [LinearOrder α] (l : List α) : (npUnique l).Pairwise (· < ·) := by
  induction l with
  | nil => simp [npUnique]
  | cons z zs ih => exact insertUniq_pairwise z _ ih

theorem npUnique_nodup {α : Type} [LinearOrder α] (l : List α) : (npUnique l).Nodup :=
  (npUnique_pairwise l).imp (fun h => ne_of_lt h)

/-- two strictly increasing lists with the same elements are equal -/
theorem eq_of_pairwise_lt {α : Type} [LinearOrder α] {l₁ l₂ : List α} (h₁ : l₁.Pairwise (· < ·))
    (h₂ : l₂.Pairwise (· < ·)) (h : ∀ x, x ∈ l₁ ↔ x ∈ l₂) : l₁ = l₂ := by
  induction l₁ generalizing l₂ with
  | nil =>
    cases l₂ with
    | nil => rfl
    | cons a l => exact absurd ((h a).2 List.mem_cons_self) (by simp)
  | cons a l ih =>
    cases l₂ with
    | nil => exact absurd ((h a).1 List.mem_cons_self) (by simp)
    | cons b l' =>
      rw [List.pairwise_cons] at h₁ h₂
      have hab : a = b := by
        rcases List.mem_cons.1 ((h a).1 List.mem_cons_self) with e | e
        · exact e
        · rcases List.mem_cons.1 ((h b).2 List.mem_cons_self) with e' | e'
          · exact e'.symm
          · exact absurd (h₁.1 b e') (not_lt.2 (le_of_lt (h₂.1 a e)))
      subst hab
      congr 1
      apply ih h₁.2 h₂.2
      intro x
      constructor
      · intro hx
        rcases List.mem_cons.1 ((h x).1 (List.mem_cons_of_mem _ hx)) with e | e
        · subst e; exact absurd (h₁.1 x hx) (lt_irrefl _)
        · exact e
      · intro hx
        rcases List.mem_cons.1 ((h x).2 (List.mem_cons_of_mem _ hx)) with e | e
        · subst e; exact absurd (h₂.1 x hx) (lt_irrefl _)
        · exact e

/-- `np.unique` is the identity on strictly increasing lists -/
theorem npUnique_of_pairwise {α : Type} [LinearOrder α] {l : List α} (h : l.Pairwise (· < ·)) : npUnique l = l :=
  eq_of_pairwise_lt (npUnique_pairwise l) h (fun x => mem_npUnique x l)

theorem npUnique_congr {α : Type} [LinearOrder α] {l₁ l₂ : List α} (h : ∀ x, x ∈ l₁ ↔ x ∈ l₂) :
    npUnique l₁ = npUnique l₂ :=
  eq_of_pairwise_lt (npUnique_pairwise _) (npUnique_pairwise _)
    (fun x => by rw [mem_npUnique, mem_npUnique]; exact h x)

/-- For strictly increasing edges, `searchsorted(…, side='right')` of a value in the half open interval
`[edges[i], edges[i+1])` is `i+1`. -/
theorem searchsortedRight_of_mem (e : List ℚ) (hs : e.Pairwise (· < ·)) (x : ℚ) (i : Nat) (hi : i + 1 < e.length)
    (h1 : e[i] ≤ x) (h2 : x < e[i + 1]) : searchsortedRight e x = i + 1 := by
  induction e generalizing i with
  | nil => simp at hi
  | cons a l ih =>
    rw [List.pairwise_cons] at hs
    cases i with
    | zero =>
      have ha : a ≤ x := by simpa using h1
      have : l.countP (fun e => decide (e ≤ x)) = 0 := by
        rw [List.countP_eq_zero]
        intro b hb
        simp only [decide_eq_true_eq, not_le]
        cases l with
        | nil => simp at hb
        | cons c l' =>
          have hc : x < c := by simpa using h2
          rcases List.mem_cons.1 hb with rfl | hb
          · exact hc
          · exact lt_trans hc ((List.pairwise_cons.1 hs.2).1 b hb)
      simp [searchsortedRight, ha, this]
    | succ i =>
      have hi' : i + 1 < l.length := by simpa using hi
      have h1' : l[i] ≤ x := by simpa using h1
      have h2' : x < l[i + 1] := by simpa using h2
      have := ih hs.2 i hi' h1' h2'
      have ha : a ≤ x := le_trans (le_of_lt (hs.1 _ (List.getElem_mem _))) h1'
      unfold searchsortedRight at this ⊢
      rw [List.countP_cons, this]; simp [ha]

/-- below the first edge the result is 0 -/
theorem searchsortedRight_lt (e : List ℚ) (x : ℚ) (h : ∀ a ∈ e, x < a) : searchsortedRight e x = 0 := by
  unfold searchsortedRight
  rw [List.countP_eq_zero]
  intro a ha; simpa using h a ha

/-- at or beyond the last edge the result is the number of edges -/
theorem searchsortedRight_ge (e : List ℚ) (x : ℚ) (h : ∀ a ∈ e, a ≤ x) : searchsortedRight e x = e.length := by
  unfold searchsortedRight
  rw [List.countP_eq_length]
  intro a ha; simpa using h a ha

/-- every value between the first and the last edge lies in one of the half open intervals -/
theorem exists_interval (e : List ℚ) (x : ℚ) (h0 : 0 < e.length) (h1 : e[0] ≤ x)
    (h2 : x < e[e.length - 1]'(by omega)) :
    ∃ i, ∃ hi : i + 1 < e.length, e[i] ≤ x ∧ x < e[i + 1] := by
  induction e with
  | nil => simp at h0
  | cons a l ih =>
    cases l with
    | nil => simp at h1 h2; exact absurd h1 (not_le.2 h2)
    | cons b l' =>
      by_cases hb : b ≤ x
      · obtain ⟨i, hi, ha⟩ := ih (by simp) (by simpa using hb) (by simpa using h2)
        exact ⟨i + 1, by simpa using hi, by simpa using ha⟩
      · exact ⟨0, by simp, by simpa using h1, by simpa using hb⟩

end Bathy
