import Mathlib.Data.List.Sort
import Verif.Model.Data

/-!
# a concrete environment, used only in the examples that show that hypotheses can be met
-/

namespace Bathy

/-- order of the indices by value -/
def idxLe {α : Type} [LinearOrder α] (l : List α) (i j : Nat) : Prop :=
  match l[i]?, l[j]? with
  | some a, some b => a ≤ b
  | none, some _ => False
  | _, none => True

instance {α : Type} [LinearOrder α] (l : List α) : DecidableRel (idxLe l) := by
  intro i j; unfold idxLe; split <;> infer_instance

instance {α : Type} [LinearOrder α] (l : List α) : Std.Total (idxLe l) := ⟨by
  intro i j; unfold idxLe
  cases l[i]? <;> cases l[j]? <;> simp
  exact le_total _ _⟩

instance {α : Type} [LinearOrder α] (l : List α) : IsTrans Nat (idxLe l) := ⟨by
  intro i j k h1 h2; unfold idxLe at *
  cases hi : l[i]? <;> cases hj : l[j]? <;> cases hk : l[k]? <;> simp_all
  exact le_trans h1 h2⟩

/-- argsort by insertion sort -/
def insArgsort {α : Type} [LinearOrder α] : Argsort α where
  run l := List.insertionSort (idxLe l) (List.range l.length)
  perm l := List.perm_insertionSort _ _
  sorted l := by
    have hs : (List.insertionSort (idxLe l) (List.range l.length)).Pairwise (idxLe l) := List.pairwise_insertionSort _ _
    refine List.Pairwise.filterMap _ ?_ hs
    intro i j hij a ha b hb
    unfold idxLe at hij
    rw [ha, hb] at hij
    exact hij

/-- a concrete environment: insertion sort, a CUBE that always answers with the mean depth of the soundings it was given, flat planes -/
def demoEnv : Env where
  argsort := insArgsort
  argsortQ := insArgsort
  cube a :=
    let v : Option ℚ := if a.depth.length = 0 then none else some (a.depth.sum / a.depth.length)
    ⟨Arr2.fill a.numrows a.numcols v, Arr2.fill a.numrows a.numcols v, Arr2.fill a.numrows a.numcols v, Arr2.fill a.numrows a.numcols v⟩
  plane _ := (0, 0)
  sqrt v := v

end Bathy
