import Verif.Model.Tile

namespace Bathy

theorem boolIndex_nil {α : Type} (m : List Bool) : boolIndex ([] : List α) m = [] := by simp [boolIndex]

theorem boolIndex_cons {α : Type} (a : α) (l : List α) (b : Bool) (m : List Bool) :
    boolIndex (a :: l) (b :: m) = if b then a :: boolIndex l m else boolIndex l m := by
  cases b <;> simp [boolIndex]

theorem boolIndex_append {α : Type} (l₁ l₂ : List α) (m₁ m₂ : List Bool) (h : l₁.length = m₁.length) :
    boolIndex (l₁ ++ l₂) (m₁ ++ m₂) = boolIndex l₁ m₁ ++ boolIndex l₂ m₂ := by
  unfold boolIndex
  rw [List.zip_append h]; simp

theorem boolIndex_true {α : Type} (l : List α) (n : Nat) (h : l.length = n) : boolIndex l (List.replicate n true) = l := by
  subst h
  induction l with
  | nil => rfl
  | cons a l ih => simp only [List.length_cons, List.replicate_succ, boolIndex_cons, ih]; rfl

theorem boolIndex_false {α : Type} (l : List α) (n : Nat) : boolIndex l (List.replicate n false) = [] := by
  induction l generalizing n with
  | nil => exact boolIndex_nil _
  | cons a l ih =>
    cases n with
    | zero => simp [boolIndex]
    | succ n => simp only [List.replicate_succ, boolIndex_cons, ih]; rfl

theorem boolIndex_map {α β : Type} (f : α → β) (l : List α) (m : List Bool) :
    boolIndex (l.map f) m = (boolIndex l m).map f := by
  induction l generalizing m with
  | nil => simp [boolIndex]
  | cons a l ih =>
    cases m with
    | nil => simp [boolIndex]
    | cons b m => simp only [List.map_cons, boolIndex_cons, ih]; cases b <;> simp

theorem boolIndex_length_map {α β : Type} (l : List α) (l' : List β) (m : List Bool) (h : l.length = l'.length) :
    (boolIndex l m).length = (boolIndex l' m).length := by
  induction l generalizing l' m with
  | nil => cases l' <;> simp_all [boolIndex]
  | cons a l ih =>
    cases l' with
    | nil => simp at h
    | cons a' l' =>
      cases m with
      | nil => simp [boolIndex]
      | cons b m =>
        simp only [List.length_cons, Nat.add_right_cancel_iff] at h
        simp only [boolIndex_cons]; cases b <;> simp [ih l' m h]

/-- masking with a predicate is filtering -/
theorem boolIndex_filter {α : Type} (l : List α) (p : α → Bool) : boolIndex l (l.map p) = l.filter p := by
  induction l with
  | nil => rfl
  | cons a l ih => simp only [List.map_cons, boolIndex_cons, ih, List.filter_cons]

theorem removeMask_eq (n s e : Nat) (hs : s ≤ e) (he : e ≤ n) :
    Tile.removeMask n s e = List.replicate s true ++ List.replicate (e - s) false ++ List.replicate (n - e) true := by
  apply List.ext_getElem
  · simp [Tile.removeMask]; omega
  · intro i h1 h2
    simp only [Tile.removeMask, List.length_map, List.length_range] at h1
    simp only [Tile.removeMask, List.getElem_map, List.getElem_range, List.getElem_append, List.getElem_replicate,
      List.length_replicate, List.length_append]
    by_cases a : i < s
    · have : ¬ s ≤ i := by omega
      simp [this, a]
    · by_cases b : i < e
      · have : i < s + (e - s) := by omega
        have h3 : s ≤ i := by omega
        simp [a, b, this, h3]
      · have : ¬ i < s + (e - s) := by omega
        simp [b, this]

theorem boolIndex_removeMask {α : Type} (l₁ l₂ l₃ : List α) :
    boolIndex (l₁ ++ l₂ ++ l₃) (Tile.removeMask (l₁ ++ l₂ ++ l₃).length l₁.length (l₁.length + l₂.length)) = l₁ ++ l₃ := by
  rw [removeMask_eq _ _ _ (by omega) (by simp)]
  rw [boolIndex_append _ _ _ _ (by simp), boolIndex_append _ _ _ _ (by simp)]
  rw [boolIndex_true l₁ _ rfl, boolIndex_false, boolIndex_true l₃ _ (by simp; omega)]
  simp

end Bathy
