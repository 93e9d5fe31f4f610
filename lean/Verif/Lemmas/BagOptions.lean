import Verif.Model.BagOptions
import Verif.Lemmas.ExportPath

/-!
# Replacing texts, names of registration files
-/

namespace Bathy

theorem replaceFrom_none {old new : List Char} {n : Nat} {s : List Char} (h : ¬ old <:+: s) : replaceFrom old new n s = s := by
  induction n generalizing s with
  | zero => rfl
  | succ n ih =>
    cases s with
    | nil => rfl
    | cons c s =>
      unfold replaceFrom
      rw [if_neg (fun h' => h h'.2.isInfix), ih (fun h' => h (h'.trans (List.suffix_cons c s).isInfix))]

/-- lengths and numbers of a character: every replacement adds the difference -/
theorem replaceFrom_count {old new : List Char} (ho : old ≠ []) (q : Char) {n : Nat} {s : List Char} (hn : s.length ≤ n) :
    ∃ k, (replaceFrom old new n s).length + k * old.length = s.length + k * new.length ∧ (replaceFrom old new n s).count q + k * old.count q = s.count q + k * new.count q ∧
      (k = 0 ↔ ¬ old <:+: s) := by
  induction n generalizing s with
  | zero =>
    have : s = [] := List.length_eq_zero_iff.1 (by omega)
    subst this
    exact ⟨0, by simp [replaceFrom], by simp [replaceFrom], by simp [ho]⟩
  | succ n ih =>
    cases s with
    | nil => exact ⟨0, by simp [replaceFrom], by simp [replaceFrom], by simp [ho]⟩
    | cons c s =>
      unfold replaceFrom
      by_cases h : old <+: c :: s
      · rw [if_pos ⟨ho, h⟩]
        obtain ⟨t, ht⟩ := h
        rw [← ht, List.drop_left]
        have hl : old.length + t.length = s.length + 1 := by rw [← List.length_append, ht, List.length_cons]
        have hpos : 0 < old.length := List.length_pos_iff.2 ho
        simp only [List.length_cons] at hn
        obtain ⟨k, h1, h2, -⟩ := ih (s := t) (by omega)
        refine ⟨k + 1, ?_, ?_, ?_⟩
        · simp only [List.length_append, Nat.add_mul, Nat.one_mul]; omega
        · simp only [List.count_append, Nat.add_mul, Nat.one_mul]; omega
        · simp only [Nat.add_eq_zero_iff, one_ne_zero, and_false, false_iff, not_not]
          exact (List.prefix_append _ _).isInfix
      · rw [if_neg (fun h' => h h'.2)]
        simp only [List.length_cons] at hn
        obtain ⟨k, h1, h2, h3⟩ := ih (s := s) (by omega)
        refine ⟨k, ?_, ?_, ?_⟩
        · simp only [List.length_cons]; omega
        · simp only [List.count_cons]; omega
        · rw [h3, List.infix_cons_iff]
          simp [h]

/-- the extension of the name of a BAG is found again -/
theorem splitExt_bag (base x : Path) (hx : '/' ∉ x) : splitExt (base ++ '_' :: x ++ ".bag".toList) = (base ++ '_' :: x, ".bag".toList) := by
  have hx' : '/' ∉ '_' :: x ++ ".bag".toList := by simp [hx]
  have hp := parts_append (p := base) hx'
  rw [← List.append_assoc] at hp
  have hr : (filePart base ++ ('_' :: x ++ ".bag".toList)).reverse = ['g', 'a', 'b', '.'] ++ (x.reverse ++ '_' :: (filePart base).reverse) := by simp
  unfold splitExt
  simp only
  rw [hp.1, hp.2, hr]
  have h1 : ((['g', 'a', 'b', '.'] ++ (x.reverse ++ '_' :: (filePart base).reverse)).dropWhile (fun c => c != '.')).drop 1 = x.reverse ++ '_' :: (filePart base).reverse := by simp
  have h2 : (['g', 'a', 'b', '.'] ++ (x.reverse ++ '_' :: (filePart base).reverse)).takeWhile (fun c => c != '.') = ['g', 'a', 'b'] := by simp
  rw [h1, h2, if_pos]
  · refine Prod.ext ?_ rfl
    simp only [List.reverse_append, List.reverse_cons, List.reverse_reverse, List.append_assoc, List.singleton_append]
    rw [← List.append_assoc, dir_file]
  · simp

theorem rxlName_bag (base x : Path) (hx : '/' ∉ x) : rxlName (base ++ '_' :: x ++ ".bag".toList) = (base ++ '_' :: x ++ ".bag".toList) ++ "_rxl".toList := by
  unfold rxlName
  rw [splitExt_bag base x hx, List.append_assoc _ ".bag".toList]
  rfl

end Bathy
