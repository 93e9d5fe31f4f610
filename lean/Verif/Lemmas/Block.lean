import Mathlib.Data.List.Sort
import Verif.Basic.Arr2
import Verif.Basic.Np
import Verif.Lemmas.BoolIndex

/-!
# Boolean masks that are True on a rectangular block
-/

namespace Bathy

theorem assignMask_boolIndex {α : Type} (base target : List α) (m : List Bool) (hb : base.length = m.length) (ht : target.length = m.length)
    (h : ∀ k : Nat, m[k]? = some false → target[k]? = base[k]?) : assignMask base m (boolIndex target m) = some target := by
  induction m generalizing base target with
  | nil =>
    rw [List.length_nil] at hb ht
    rw [List.length_eq_zero_iff] at hb ht
    subst hb; subst ht; rfl
  | cons b m ih =>
    cases base with
    | nil => simp at hb
    | cons a base =>
      cases target with
      | nil => simp at ht
      | cons t target =>
        simp only [List.length_cons, Nat.add_right_cancel_iff] at hb ht
        have ih' := ih base target hb ht (fun k hk => by have := h (k + 1) (by simpa using hk); simpa using this)
        rw [boolIndex_cons]
        cases b with
        | true => simp only [if_true, assignMask, ih', Option.map_some]
        | false =>
          have := h 0 rfl
          simp only [List.getElem?_cons_zero, Option.some.injEq] at this
          subst this
          simp only [Bool.false_eq_true, if_false, assignMask, ih', Option.map_some]

theorem boolIndex_map_map {α β : Type} (l : List β) (f : β → α) (g : β → Bool) : boolIndex (l.map f) (l.map g) = (l.filter g).map f := by
  rw [boolIndex_map, boolIndex_filter]

/-- index in the large array of the entry `j` of the block -/
def blockIdx (N a b w j : Nat) : Nat := (a + j / w) * N + (b + j % w)

theorem blockIdx_lt {R N a b h w j : Nat} (hr : a + h ≤ R) (hc : b + w ≤ N) (hj : j < h * w) : blockIdx N a b w j < R * N := by
  have h1 := Arr2.div_lt_rows hj
  have h2 := Arr2.mod_lt_cols hj
  exact Arr2.idx_lt (by omega) (by omega)

theorem filter_block {R N a b h w : Nat} (hr : a + h ≤ R) (hc : b + w ≤ N) :
    (List.range (R * N)).filter (fun k => decide (a ≤ k / N ∧ k / N < a + h) && decide (b ≤ k % N ∧ k % N < b + w)) =
      (List.range (h * w)).map (blockIdx N a b w) := by
  have hmono : ∀ i j, i < j → j < h * w → blockIdx N a b w i < blockIdx N a b w j := by
    intro i j hij hj
    have hi : i < h * w := lt_trans hij hj
    have h2 := Arr2.mod_lt_cols hi
    have h3 := Arr2.mod_lt_cols hj
    have hle : i / w ≤ j / w := Nat.div_le_div_right (le_of_lt hij)
    unfold blockIdx
    rcases Nat.lt_or_ge (i / w) (j / w) with hlt | hge
    · have : (a + i / w + 1) * N ≤ (a + j / w) * N := Nat.mul_le_mul_right N (by omega)
      have e : (a + i / w + 1) * N = (a + i / w) * N + N := by ring
      omega
    · have he : i / w = j / w := le_antisymm hle hge
      have d1 := Nat.div_add_mod i w
      have d2 := Nat.div_add_mod j w
      rw [he] at d1 ⊢
      omega
  have hp1 : ((List.range (R * N)).filter (fun k => decide (a ≤ k / N ∧ k / N < a + h) && decide (b ≤ k % N ∧ k % N < b + w))).Pairwise (· < ·) :=
    List.Pairwise.sublist List.filter_sublist List.pairwise_lt_range
  have hp2 : ((List.range (h * w)).map (blockIdx N a b w)).Pairwise (· < ·) := by
    rw [List.pairwise_map]
    refine List.Pairwise.imp_of_mem ?_ List.pairwise_lt_range
    intro i j hi hj hij
    exact hmono i j hij (List.mem_range.1 hj)
  have hn1 := hp1.imp (fun h => Nat.ne_of_lt h)
  have hn2 := hp2.imp (fun h => Nat.ne_of_lt h)
  refine List.Perm.eq_of_pairwise' (r := (· ≤ ·)) (hp1.imp le_of_lt) (hp2.imp le_of_lt) ?_
  rw [List.perm_ext_iff_of_nodup hn1 hn2]
  intro k
  simp only [List.mem_filter, List.mem_range, Bool.and_eq_true, decide_eq_true_eq, List.mem_map]
  constructor
  · rintro ⟨hk, ⟨h1, h2⟩, h3, h4⟩
    refine ⟨(k / N - a) * w + (k % N - b), Arr2.idx_lt (by omega) (by omega), ?_⟩
    unfold blockIdx
    rw [Arr2.idx_div (by omega), Arr2.idx_mod (by omega)]
    have e1 : a + (k / N - a) = k / N := by omega
    have e2 : b + (k % N - b) = k % N := by omega
    rw [e1, e2, Nat.div_add_mod']
  · rintro ⟨j, hj, rfl⟩
    refine ⟨blockIdx_lt hr hc hj, ?_⟩
    have h1 := Arr2.div_lt_rows hj
    have h2 := Arr2.mod_lt_cols hj
    unfold blockIdx
    rw [Arr2.idx_div (by omega), Arr2.idx_mod (by omega)]
    generalize j / w = q at *
    generalize j % w = r at *
    omega

/-- putting an array into a block of an array filled with `v` -/
theorem assignMask_block {α : Type} (v : α) {R N a b h w : Nat} (hr : a + h ≤ R) (hc : b + w ≤ N) (old : List α) (hold : old.length = h * w) :
    ∃ l, assignMask (List.replicate (R * N) v)
        ((List.range (R * N)).map (fun k => decide (a ≤ k / N ∧ k / N < a + h) && decide (b ≤ k % N ∧ k % N < b + w))) old = some l ∧
      l.length = R * N ∧
      (∀ k : Nat, k < R * N → ¬ ((a ≤ k / N ∧ k / N < a + h) ∧ b ≤ k % N ∧ k % N < b + w) → l[k]? = some v) ∧
      ∀ k : Nat, k < R * N → a ≤ k / N ∧ k / N < a + h → b ≤ k % N ∧ k % N < b + w → l[k]? = old[(k / N - a) * w + (k % N - b)]? := by
  let f : Nat → α := fun k => if (a ≤ k / N ∧ k / N < a + h) ∧ b ≤ k % N ∧ k % N < b + w then (old[(k / N - a) * w + (k % N - b)]?).getD v else v
  have hold' : old = boolIndex ((List.range (R * N)).map f)
      ((List.range (R * N)).map (fun k => decide (a ≤ k / N ∧ k / N < a + h) && decide (b ≤ k % N ∧ k % N < b + w))) := by
    rw [boolIndex_map_map, filter_block hr hc, List.map_map]
    apply List.ext_getElem?
    intro j
    by_cases hj : j < h * w
    · have h1 := Arr2.div_lt_rows hj
      have h2 := Arr2.mod_lt_cols hj
      rw [List.getElem?_map, List.getElem?_range hj, Option.map_some, Function.comp]
      have e1 : blockIdx N a b w j / N = a + j / w := Arr2.idx_div (by omega)
      have e2 : blockIdx N a b w j % N = b + j % w := Arr2.idx_mod (by omega)
      simp only [f, e1, e2]
      rw [if_pos ⟨⟨Nat.le_add_right _ _, Nat.add_lt_add_left h1 _⟩, Nat.le_add_right _ _, Nat.add_lt_add_left h2 _⟩]
      have e3 : (a + j / w - a) * w + (b + j % w - b) = j := by
        rw [Nat.add_sub_cancel_left, Nat.add_sub_cancel_left, Nat.div_add_mod']
      rw [e3, List.getElem?_eq_getElem (by omega)]
      rfl
    · rw [List.getElem?_eq_none (by omega), List.getElem?_eq_none (by simp; omega)]
  refine ⟨(List.range (R * N)).map f, ?_, by simp, ?_, ?_⟩
  · conv_lhs => rw [hold']
    apply assignMask_boolIndex _ _ _ (by simp) (by simp)
    intro k hk
    have hkl : k < R * N := by
      have := (List.getElem?_eq_some_iff.1 hk).1
      simpa using this
    rw [List.getElem?_map, List.getElem?_range hkl, Option.map_some, Option.some.injEq] at hk
    rw [List.getElem?_map, List.getElem?_range hkl, Option.map_some, List.getElem?_replicate, if_pos hkl]
    have : ¬ ((a ≤ k / N ∧ k / N < a + h) ∧ b ≤ k % N ∧ k % N < b + w) := by
      intro hh
      simp [hh] at hk
    simp only [f, this, if_false]
  · intro k hk hn
    rw [List.getElem?_map, List.getElem?_range hk, Option.map_some]
    simp only [f, hn, if_false]
  · intro k hk h1 h2
    rw [List.getElem?_map, List.getElem?_range hk, Option.map_some]
    simp only [f, h1, h2, and_self, if_true]
    have : (k / N - a) * w + (k % N - b) < old.length := by
      rw [hold]; exact Arr2.idx_lt (by omega) (by omega)
    rw [List.getElem?_eq_getElem this]
    rfl

end Bathy
