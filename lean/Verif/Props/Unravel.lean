import Verif.Model.Unravel
import Verif.Model.Algorithms
import Mathlib.Algebra.Order.Ring.Int
import Mathlib.Tactic.Ring
import Mathlib.Tactic.Linarith

/-!
# C104: `my_unravel_index`

Spec: `flatIndex shape idx` is the place of the element `idx` in the flattened array (row major, the last index moves fastest).
-/

namespace Bathy

/-- the number of elements -/
def volume : List Int → Int
  | [] => 1
  | s :: ss => s * volume ss

/-- the place of an element in the flattened array -/
def flatIndex : List Int → List Int → Int
  | _ :: ss, i :: is => i * volume ss + flatIndex ss is
  | _, _ => 0

/-- an index for every dimension, each from 0 to the size -/
def WithinShape (shape idx : List Int) : Prop := List.Forall₂ (fun s i => 0 ≤ i ∧ i < s) shape idx

theorem strides_cons (s : Int) (ss : List Int) : strides (s :: ss) = volume ss :: (match ss with | [] => [] | _ :: _ => strides ss) := by
  induction ss generalizing s with
  | nil => rfl
  | cons t ss ih =>
    rw [strides, ih t]
    simp only [volume, List.cons.injEq, and_true]
    ring

theorem volume_pos {shape : List Int} (h : ∀ s ∈ shape, 0 < s) : 0 < volume shape := by
  induction shape with
  | nil => exact Int.one_pos
  | cons s ss ih => exact Int.mul_pos (h s List.mem_cons_self) (ih (fun t ht => h t (List.mem_cons_of_mem _ ht)))

theorem flatIndex_range {shape idx : List Int} (h : WithinShape shape idx) : 0 ≤ flatIndex shape idx ∧ flatIndex shape idx < volume shape := by
  induction h with
  | nil => exact ⟨Int.le_refl 0, Int.one_pos⟩
  | @cons s i ss is hi hr ih =>
    have hv : 0 < volume ss := lt_of_le_of_lt ih.1 ih.2
    show 0 ≤ i * volume ss + flatIndex ss is ∧ i * volume ss + flatIndex ss is < s * volume ss
    constructor
    · have := Int.mul_nonneg hi.1 hv.le
      omega
    · have h1 : (i + 1) * volume ss ≤ s * volume ss := Int.mul_le_mul_of_nonneg_right (by omega) hv.le
      have h2 : (i + 1) * volume ss = i * volume ss + volume ss := by ring
      omega

theorem unravelLoop_spec {shape : List Int} (hne : shape ≠ []) (h : ∀ s ∈ shape.tail, 0 < s) (index : Int) :
    ∃ i is, unravelLoop index (strides shape) = .ok (i :: is) ∧ flatIndex shape (i :: is) = index ∧ WithinShape shape.tail is ∧ i = index / volume shape.tail := by
  induction shape generalizing index with
  | nil => exact absurd rfl hne
  | cons s ss ih =>
    have hv : 0 < volume ss := volume_pos h
    rw [strides_cons, unravelLoop, if_neg (by omega), Int.fmod_eq_emod_of_nonneg _ hv.le, Int.fdiv_eq_ediv_of_nonneg _ hv.le]
    cases ss with
    | nil =>
      refine ⟨index / 1, [], rfl, ?_, .nil, rfl⟩
      simp [flatIndex, volume]
    | cons t ss =>
      obtain ⟨j, js, h1, h2, h3, h4⟩ := ih (List.cons_ne_nil _ _) (fun x hx => h x (List.mem_cons_of_mem _ hx)) (index % volume (t :: ss))
      simp only
      rw [h1]
      refine ⟨_, _, rfl, ?_, .cons ?_ h3, rfl⟩
      · have : flatIndex (s :: t :: ss) (index / volume (t :: ss) :: j :: js) = index / volume (t :: ss) * volume (t :: ss) + flatIndex (t :: ss) (j :: js) := rfl
        rw [this, h2]
        have := Int.mul_ediv_add_emod index (volume (t :: ss))
        rw [Int.mul_comm] at this
        exact this
      · have hw : 0 < volume ss := volume_pos (fun x hx => h x (List.mem_cons_of_mem _ hx))
        simp only [List.tail_cons] at h4
        rw [h4]
        have hm := Int.emod_nonneg index (show volume (t :: ss) ≠ 0 from hv.ne')
        have hl := Int.emod_lt_of_pos index (show 0 < volume (t :: ss) from hv)
        exact ⟨Int.ediv_nonneg hm hw.le, Int.ediv_lt_of_lt_mul hw hl⟩

/-- an element has one place -/
theorem flatIndex_inj {shape a b : List Int} (ha : WithinShape shape a) (hb : WithinShape shape b) (e : flatIndex shape a = flatIndex shape b) : a = b := by
  induction ha generalizing b with
  | nil => cases hb; rfl
  | @cons s i ss is hi hr ih =>
    cases hb with
    | @cons _ j _ js hj hr' =>
      have h1 := flatIndex_range hr
      have h2 := flatIndex_range hr'
      have e : i * volume ss + flatIndex ss is = j * volume ss + flatIndex ss js := e
      have hv : 0 < volume ss := lt_of_le_of_lt h1.1 h1.2
      have hij : i = j := by
        have q1 : (i * volume ss + flatIndex ss is) / volume ss = i := by
          rw [Int.add_comm, Int.add_mul_ediv_right _ _ hv.ne', Int.ediv_eq_zero_of_lt h1.1 h1.2, Int.zero_add]
        have q2 : (j * volume ss + flatIndex ss js) / volume ss = j := by
          rw [Int.add_comm, Int.add_mul_ediv_right _ _ hv.ne', Int.ediv_eq_zero_of_lt h2.1 h2.2, Int.zero_add]
        rw [← q1, e, q2]
      subst hij
      rw [ih hr' (by omega)]

/-- **C104** For every shape of positive sizes and every place in the flattened array, `my_unravel_index` gives the element at this place: it is within the shape,
it is at this place, and no other element is. -/
theorem C104_unravel {shape : List Int} (hne : shape ≠ []) (h : ∀ s ∈ shape, 0 < s) {index : Int} (h0 : 0 ≤ index) (h1 : index < volume shape) :
    ∃ idx, myUnravel index shape = .ok idx ∧ WithinShape shape idx ∧ flatIndex shape idx = index ∧ ∀ j, WithinShape shape j → flatIndex shape j = index → j = idx := by
  obtain ⟨i, is, e1, e2, e3, e4⟩ := unravelLoop_spec hne (fun s hs => h s (List.mem_of_mem_tail hs)) index
  cases shape with
  | nil => exact absurd rfl hne
  | cons s ss =>
    have hv : 0 < volume ss := volume_pos (fun x hx => h x (List.mem_cons_of_mem _ hx))
    have hw : WithinShape (s :: ss) (i :: is) := by
      refine .cons ?_ e3
      rw [e4]
      exact ⟨Int.ediv_nonneg h0 hv.le, Int.ediv_lt_of_lt_mul hv h1⟩
    refine ⟨i :: is, ?_, hw, e2, fun j hj e => flatIndex_inj hj hw (e.trans e2.symm)⟩
    unfold myUnravel
    rw [if_neg hne]
    exact e1

/-- **C104** A place that is not in the array is not refused (numpy's `unravel_index` raises): the result has the first index, and only the first index, outside. -/
theorem C104_outside {shape : List Int} (hne : shape ≠ []) (h : ∀ s ∈ shape, 0 < s) {index : Int} (hout : index < 0 ∨ volume shape ≤ index) :
    ∃ i is, myUnravel index shape = .ok (i :: is) ∧ flatIndex shape (i :: is) = index ∧ WithinShape shape.tail is ∧ (i < 0 ∨ shape.head hne ≤ i) := by
  obtain ⟨i, is, e1, e2, e3, e4⟩ := unravelLoop_spec hne (fun s hs => h s (List.mem_of_mem_tail hs)) index
  refine ⟨i, is, ?_, e2, e3, ?_⟩
  · unfold myUnravel
    rw [if_neg hne]
    exact e1
  · cases shape with
    | nil => exact absurd rfl hne
    | cons s ss =>
      have hv : 0 < volume ss := volume_pos (fun x hx => h x (List.mem_cons_of_mem _ hx))
      rw [e4]
      rcases hout with k | k
      · exact .inl (Int.ediv_neg_of_neg_of_pos k hv)
      · exact .inr (Int.le_ediv_of_mul_le hv k)

/-- **C104** An array without elements because a size after the first is 0: ZeroDivisionError. -/
theorem C104_no_elements {s : Int} {shape : List Int} (h : 0 ∈ shape) (index : Int) : myUnravel index (s :: shape) = .error .zeroDivision := by
  unfold myUnravel
  rw [if_neg (List.cons_ne_nil _ _), strides_cons, unravelLoop, if_pos]
  induction shape with
  | nil => cases h
  | cons t ss ih =>
    rcases List.mem_cons.1 h with e | e
    · rw [volume, ← e, Int.zero_mul]
    · rw [volume, ih e, Int.mul_zero]

/-- **C104** In two dimensions it is the function that `np.unravel_index` is in the model of the gridding (`unravel`). -/
theorem C104_two {rows cols : Nat} {index : Int} {r c : Nat} (h : unravel index rows cols = some (r, c)) : myUnravel index [rows, cols] = .ok [r, c] := by
  unfold unravel at h
  split at h
  · rename_i hb
    simp only [Option.some.injEq, Prod.mk.injEq] at h
    have hc : 0 < cols := by
      rcases Nat.eq_zero_or_pos cols with e | e
      · rw [e] at hb; simp at hb; omega
      · exact e
    have e : strides [(rows : Int), cols] = [(cols : Int), 1] := by simp [strides]
    have hi : index = (index.toNat : Int) := by omega
    unfold myUnravel
    rw [if_neg (List.cons_ne_nil _ _), e, unravelLoop, if_neg (by omega), unravelLoop, if_neg (by omega), unravelLoop, Int.fdiv_eq_ediv_of_nonneg _ (by omega),
      Int.fdiv_eq_ediv_of_nonneg _ (by omega), Int.fmod_eq_emod_of_nonneg _ (by omega), Int.ediv_one, ← h.1, ← h.2]
    rw [hi]
    simp
  · cases h

/-! ## examples -/

example : ∃ idx, myUnravel 17 [2, 3, 4] = .ok idx ∧ WithinShape [2, 3, 4] idx ∧ flatIndex [2, 3, 4] idx = 17 ∧
    ∀ j, WithinShape [2, 3, 4] j → flatIndex [2, 3, 4] j = 17 → j = idx :=
  C104_unravel (by decide) (by decide) (by decide) (by decide)

example : myUnravel 17 [2, 3, 4] = .ok [1, 1, 1] ∧ myUnravel 25 [2, 3, 4] = .ok [2, 0, 1] ∧ myUnravel (-1) [2, 3, 4] = .ok [-1, 2, 3] := by decide +kernel

example : ∃ i is, myUnravel (-1) [2, 3, 4] = .ok (i :: is) ∧ flatIndex [2, 3, 4] (i :: is) = -1 ∧ WithinShape [3, 4] is ∧ (i < 0 ∨ 2 ≤ i) :=
  C104_outside (by decide) (by decide) (.inl (by decide))

example : myUnravel 0 [2, 0, 4] = .error .zeroDivision := C104_no_elements (by decide) 0

example : myUnravel 5 [(2 : Nat), (4 : Nat)] = .ok [(1 : Nat), (1 : Nat)] := C104_two (by decide +kernel)

end Bathy
